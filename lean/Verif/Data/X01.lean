import Verif.Data.XNames
/-! Territories of `/repo/assets/PhoneNumberMetadata.xml` as trees. Generated by `tools/gen_xml.py`; do not edit. -/

set_option maxRecDepth 100000
namespace Phone.Data.X
open Phone.Xml

/-- what stands before this territory -/
noncomputable def AS_before : List Node :=
  [.l4, .comment, .s4, .comment, .s4, .comment, .s4]
/-- its attributes -/
noncomputable def AS_attrs : List (Str × Str) := [(n.id, str% "AS"), (n.countryCode, str% "1"), (n.leadingDigits, str% "684"), (n.internationalPrefix, str% "011"), (n.nationalPrefix, str% "1"), (n.nationalPrefixForParsing, str% "([267]\\d{6})$|1"), (n.nationalPrefixTransformRule, str% "684$1")]
/-- its content -/
noncomputable def AS : List Node :=
  [.s6,
   .elem n.generalDesc []
    [.s8,
     .leaf n.nationalNumberPattern (str% "\n          (?:\n            [58]\\d\\d|\n            684|\n            900\n          )\\d{7}\n        "), .s6], .s6,
   .elem n.fixedLine []
    [.s8,
     .empty n.possibleLengths [(n.national, str% "10"), (n.localOnly, str% "7")], .s8,
     .leaf n.exampleNumber (str% "6846221234"), .s8,
     .leaf n.nationalNumberPattern (str% "\n          684(?:\n            274|\n            6(?:\n              22|\n              33|\n              44|\n              55|\n              77|\n              88|\n              9[19]\n            )\n          )\\d{4}\n        "), .s6], .s6, .comment, .s6,
   .elem n.mobile []
    [.s8,
     .empty n.possibleLengths [(n.national, str% "10"), (n.localOnly, str% "7")], .s8,
     .leaf n.exampleNumber (str% "6847331234"), .s8,
     .leaf n.nationalNumberPattern (str% "\n          684(?:\n            2(?:\n              48|\n              5[2468]|\n              7[246]\n            )|\n            7(?:\n              3[13]|\n              70|\n              82\n            )\n          )\\d{4}\n        "), .s6], .s6,
   .elem n.tollFree []
    [.s8,
     .empty n.possibleLengths [(n.national, str% "10")], .s8,
     .leaf n.exampleNumber (str% "8002123456"), .s8,
     .leaf n.nationalNumberPattern (str% "\n          8(?:\n            00|\n            33|\n            44|\n            55|\n            66|\n            77|\n            88\n          )[2-9]\\d{6}\n        "), .s6], .s6,
   .elem n.premiumRate []
    [.s8,
     .empty n.possibleLengths [(n.national, str% "10")], .s8,
     .leaf n.exampleNumber (str% "9002123456"), .s8,
     .leaf n.nationalNumberPattern (str% "900[2-9]\\d{6}"), .s6], .s6, .comment, .s6,
   .elem n.personalNumber []
    [.s8,
     .empty n.possibleLengths [(n.national, str% "10")], .s8,
     .leaf n.exampleNumber (str% "5002345678"), .s8,
     .leaf n.nationalNumberPattern (str% "\n          52(?:\n            3(?:\n              [2-46-9][02-9]\\d|\n              5(?:\n                [02-46-9]\\d|\n                5[0-46-9]\n              )\n            )|\n            4(?:\n              [2-478][02-9]\\d|\n              5(?:\n                [034]\\d|\n                2[024-9]|\n                5[0-46-9]\n              )|\n              6(?:\n                0[1-9]|\n                [2-9]\\d\n              )|\n              9(?:\n                [05-9]\\d|\n                2[0-5]|\n                49\n              )\n            )\n          )\\d{4}|\n          52[34][2-9]1[02-9]\\d{4}|\n          5(?:\n            00|\n            2[125-9]|\n            3[23]|\n            44|\n            66|\n            77|\n            88\n          )[2-9]\\d{6}\n        "), .s6], .s4]

/-- what stands before this territory -/
noncomputable def AT_before : List Node :=
  [.l4, .comment, .s4, .comment, .s4]
/-- its attributes -/
noncomputable def AT_attrs : List (Str × Str) := [(n.id, str% "AT"), (n.countryCode, str% "43"), (n.internationalPrefix, str% "00"), (n.nationalPrefix, str% "0"), (n.mobileNumberPortableRegion, str% "true")]
/-- its content -/
noncomputable def AT : List Node :=
  [.s6,
   .elem n.availableFormats []
    [.s8, .comment, .s8,
     .elem n.numberFormat [(n.pattern, str% "(\\d{4})")]
      [.s10,
       .leaf n.leadingDigits (str% "14"), .s10,
       .leaf n.format (str% "$1"), .s10,
       .leaf n.intlFormat (str% "NA"), .s8], .s8, .comment, .s8,
     .elem n.numberFormat [(n.pattern, str% "(\\d)(\\d{3,12})"), (n.nationalPrefixFormattingRule, str% "$NP$FG")]
      [.s10,
       .leaf n.leadingDigits (str% "\n            1(?:\n              11|\n              [2-9]\n            )\n          "), .s10,
       .leaf n.format (str% "$1 $2"), .s8], .s8, .comment, .s8,
     .elem n.numberFormat [(n.pattern, str% "(\\d{3})(\\d{2})"), (n.nationalPrefixFormattingRule, str% "$NP$FG")]
      [.s10,
       .leaf n.leadingDigits (str% "517"), .s10,
       .leaf n.format (str% "$1 $2"), .s8], .s8, .comment, .s8,
     .elem n.numberFormat [(n.pattern, str% "(\\d{2})(\\d{3,5})"), (n.nationalPrefixFormattingRule, str% "$NP$FG")]
      [.s10,
       .leaf n.leadingDigits (str% "5[079]"), .s10,
       .leaf n.format (str% "$1 $2"), .s8], .s8, .comment, .s8,
     .elem n.numberFormat [(n.pattern, str% "(\\d{6})")]
      [.s10,
       .leaf n.leadingDigits (str% "[18]"), .s10,
       .leaf n.format (str% "$1"), .s10,
       .leaf n.intlFormat (str% "NA"), .s8], .s8, .comment, .s8,
     .elem n.numberFormat [(n.pattern, str% "(\\d{3})(\\d{3,10})"), (n.nationalPrefixFormattingRule, str% "$NP$FG")]
      [.s10,
       .leaf n.leadingDigits (str% "\n            (?:\n              31|\n              4\n            )6|\n            51|\n            6(?:\n              48|\n              5[0-3579]|\n              [6-9]\n            )|\n            7(?:\n              20|\n              32|\n              8\n            )|\n            [89]\n          "), .s10,
       .leaf n.leadingDigits (str% "\n            (?:\n              31|\n              4\n            )6|\n            51|\n            6(?:\n              485|\n              5[0-3579]|\n              [6-9]\n            )|\n            7(?:\n              20|\n              32|\n              8\n            )|\n            [89]\n          "), .s10,
       .leaf n.format (str% "$1 $2"), .s8], .s8, .comment, .s8,
     .elem n.numberFormat [(n.pattern, str% "(\\d{4})(\\d{3,9})"), (n.nationalPrefixFormattingRule, str% "$NP$FG")]
      [.s10,
       .leaf n.leadingDigits (str% "\n            [2-467]|\n            5[2-6]\n          "), .s10,
       .leaf n.format (str% "$1 $2"), .s8], .s8, .comment, .s8,
     .elem n.numberFormat [(n.pattern, str% "(\\d{2})(\\d{3})(\\d{3,4})"), (n.nationalPrefixFormattingRule, str% "$NP$FG")]
      [.s10,
       .leaf n.leadingDigits (str% "5"), .s10,
       .leaf n.format (str% "$1 $2 $3"), .s8], .s8, .comment, .s8,
     .elem n.numberFormat [(n.pattern, str% "(\\d{2})(\\d{4})(\\d{4,7})"), (n.nationalPrefixFormattingRule, str% "$NP$FG")]
      [.s10,
       .leaf n.leadingDigits (str% "5"), .s10,
       .leaf n.format (str% "$1 $2 $3"), .s8], .s6], .s6,
   .elem n.generalDesc []
    [.s8,
     .leaf n.nationalNumberPattern (str% "\n          1\\d{3,12}|\n          2\\d{6,12}|\n          43(?:\n            (?:\n              0\\d|\n              5[02-9]\n            )\\d{3,9}|\n            2\\d{4,5}|\n            [3467]\\d{4}|\n            8\\d{4,6}|\n            9\\d{4,7}\n          )|\n          5\\d{4,12}|\n          8\\d{7,12}|\n          9\\d{8,12}|\n          (?:\n            [367]\\d|\n            4[0-24-9]\n          )\\d{4,11}\n        "), .s6], .s6, .comment, .s6,
   .elem n.fixedLine []
    [.s8,
     .empty n.possibleLengths [(n.national, str% "[4-13]"), (n.localOnly, str% "3")], .s8,
     .leaf n.exampleNumber (str% "1234567890"), .s8,
     .leaf n.nationalNumberPattern (str% "\n          1(?:\n            11\\d|\n            [2-9]\\d{3,11}\n          )|\n          (?:\n            316|\n            463\n          )\\d{3,10}|\n          648[34]\\d{3,9}|\n          (?:\n            51|\n            66|\n            73\n          )2\\d{3,10}|\n          (?:\n            2(?:\n              1[467]|\n              2[13-8]|\n              5[2357]|\n              6[1-46-8]|\n              7[1-8]|\n              8[124-7]|\n              9[1458]\n            )|\n            3(?:\n              1[1-578]|\n              3[23568]|\n              4[5-7]|\n              5[1378]|\n              6[1-38]|\n              8[3-68]\n            )|\n            4(?:\n              2[1-8]|\n              35|\n              7[1368]|\n              8[2457]\n            )|\n            5(?:\n              2[1-8]|\n              3[357]|\n              4[147]|\n              5[12578]|\n              6[37]\n            )|\n            6(?:\n              13|\n              2[1-47]|\n              4[135-7]|\n              5[468]\n            )|\n            7(?:\n              2[1-8]|\n              35|\n              4[13478]|\n              5[68]|\n              6[16-8]|\n              7[1-6]|\n              9[45]\n            )\n          )\\d{4,10}\n        "), .s6], .s6,
   .elem n.mobile []
    [.s8,
     .empty n.possibleLengths [(n.national, str% "[7-13]")], .s8,
     .leaf n.exampleNumber (str% "664123456"), .s8,
     .leaf n.nationalNumberPattern (str% "\n          6(?:\n            485|\n            (?:\n              5[0-3579]|\n              6[013-9]|\n              [7-9]\\d\n            )\\d\n          )\\d{3,9}\n        "), .s6], .s6,
   .elem n.tollFree []
    [.s8,
     .empty n.possibleLengths [(n.national, str% "[9-13]")], .s8,
     .leaf n.exampleNumber (str% "800123456"), .s8,
     .leaf n.nationalNumberPattern (str% "800\\d{6,10}"), .s6], .s6,
   .elem n.premiumRate []
    [.s8,
     .empty n.possibleLengths [(n.national, str% "[9-13]")], .s8,
     .leaf n.exampleNumber (str% "900123456"), .s8,
     .leaf n.nationalNumberPattern (str% "\n          (?:\n            8[69][2-68]|\n            9(?:\n              0[01]|\n              3[019]\n            )\n          )\\d{6,10}\n        "), .s6], .s6,
   .elem n.sharedCost []
    [.s8,
     .empty n.possibleLengths [(n.national, str% "[8-13]")], .s8,
     .leaf n.exampleNumber (str% "810123456"), .s8,
     .leaf n.nationalNumberPattern (str% "\n          8(?:\n            10|\n            2[018]\n          )\\d{6,10}|\n          828\\d{5}\n        "), .s6], .s6, .comment, .s6,
   .elem n.voip []
    [.s8,
     .empty n.possibleLengths [(n.national, str% "[5-13]")], .s8,
     .leaf n.exampleNumber (str% "780123456"), .s8,
     .leaf n.nationalNumberPattern (str% "\n          5(?:\n            0[1-9]|\n            17|\n            [79]\\d\n          )\\d{2,10}|\n          7[28]0\\d{6,10}\n        "), .s6], .s4]

/-- what stands before this territory -/
noncomputable def AU_before : List Node :=
  [.l4, .comment, .s4, .comment, .s4, .comment, .s4, .comment, .s4, .comment, .s4, .comment, .s4]
/-- its attributes -/
noncomputable def AU_attrs : List (Str × Str) := [(n.id, str% "AU"), (n.mainCountryForCode, str% "true"), (n.countryCode, str% "61"), (n.preferredInternationalPrefix, str% "0011"), (n.internationalPrefix, str% "001[14-689]|14(?:1[14]|34|4[17]|[56]6|7[47]|88)0011"), (n.nationalPrefix, str% "0"), (n.nationalPrefixForParsing, str% "(183[12])|0"), (n.mobileNumberPortableRegion, str% "true")]
/-- its content -/
noncomputable def AU : List Node :=
  [.s6,
   .elem n.availableFormats []
    [.s8, .comment, .s8,
     .elem n.numberFormat [(n.pattern, str% "(\\d{2})(\\d{3,4})"), (n.nationalPrefixFormattingRule, str% "$NP$FG")]
      [.s10,
       .leaf n.leadingDigits (str% "16"), .s10,
       .leaf n.format (str% "$1 $2"), .s8], .s8, .comment, .s8,
     .elem n.numberFormat [(n.pattern, str% "(\\d{2})(\\d{2})(\\d{2})")]
      [.s10,
       .leaf n.leadingDigits (str% "13"), .s10,
       .leaf n.format (str% "$1 $2 $3"), .s10,
       .leaf n.intlFormat (str% "NA"), .s8], .s8, .comment, .s8,
     .elem n.numberFormat [(n.pattern, str% "(\\d{3})(\\d{3})")]
      [.s10,
       .leaf n.leadingDigits (str% "19"), .s10,
       .leaf n.format (str% "$1 $2"), .s10,
       .leaf n.intlFormat (str% "NA"), .s8], .s8, .comment, .s8,
     .elem n.numberFormat [(n.pattern, str% "(\\d{3})(\\d{4})")]
      [.s10,
       .leaf n.leadingDigits (str% "180"), .s10,
       .leaf n.leadingDigits (str% "1802"), .s10,
       .leaf n.format (str% "$1 $2"), .s10,
       .leaf n.intlFormat (str% "NA"), .s8], .s8, .comment, .s8,
     .elem n.numberFormat [(n.pattern, str% "(\\d{4})(\\d{3,4})")]
      [.s10,
       .leaf n.leadingDigits (str% "19"), .s10,
       .leaf n.format (str% "$1 $2"), .s10,
       .leaf n.intlFormat (str% "NA"), .s8], .s8, .comment, .s8,
     .elem n.numberFormat [(n.pattern, str% "(\\d{2})(\\d{3})(\\d{2,4})"), (n.nationalPrefixFormattingRule, str% "$NP$FG")]
      [.s10,
       .leaf n.leadingDigits (str% "16"), .s10,
       .leaf n.format (str% "$1 $2 $3"), .s8], .s8, .comment, .s8,
     .elem n.numberFormat [(n.pattern, str% "(\\d{3})(\\d{3})(\\d{3})"), (n.nationalPrefixFormattingRule, str% "$NP$FG")]
      [.s10,
       .leaf n.leadingDigits (str% "\n            14|\n            4\n          "), .s10,
       .leaf n.format (str% "$1 $2 $3"), .s8], .s8, .comment, .s8,
     .elem n.numberFormat [(n.pattern, str% "(\\d)(\\d{4})(\\d{4})"), (n.nationalPrefixFormattingRule, str% "($NP$FG)"), (n.carrierCodeFormattingRule, str% "$CC ($FG)")]
      [.s10,
       .leaf n.leadingDigits (str% "[2378]"), .s10,
       .leaf n.format (str% "$1 $2 $3"), .s8], .s8, .comment, .s8,
     .elem n.numberFormat [(n.pattern, str% "(\\d{4})(\\d{3})(\\d{3})")]
      [.s10,
       .leaf n.leadingDigits (str% "\n            1(?:\n              30|\n              [89]\n            )\n          "), .s10,
       .leaf n.format (str% "$1 $2 $3"), .s8], .s8,
     .elem n.numberFormat [(n.pattern, str% "(\\d{4})(\\d{4})(\\d{4})")]
      [.s10,
       .leaf n.leadingDigits (str% "130"), .s10,
       .leaf n.format (str% "$1 $2 $3"), .s10,
       .leaf n.intlFormat (str% "NA"), .s8], .s6], .s6,
   .elem n.generalDesc []
    [.s8,
     .leaf n.nationalNumberPattern (str% "\n          1(?:\n            [0-79]\\d{7}(?:\n              \\d(?:\n                \\d{2}\n              )?\n            )?|\n            8[0-24-9]\\d{7}\n          )|\n          [2-478]\\d{8}|\n          1\\d{4,7}\n        "), .s6], .s6,
   .elem n.noInternationalDialling []
    [.s8,
     .empty n.possibleLengths [(n.national, str% "[6-8],10,12")], .s8,
     .leaf n.nationalNumberPattern (str% "\n          1(?:\n            3(?:\n              00\\d{5}|\n              45[0-4]\n            )|\n            802\n          )\\d{3}|\n          1[38]00\\d{6}|\n          13\\d{4}\n        "), .s6], .s6, .comment, .s6,
   .elem n.fixedLine []
    [.s8,
     .empty n.possibleLengths [(n.national, str% "9"), (n.localOnly, str% "8")], .s8,
     .leaf n.exampleNumber (str% "212345678"), .s8,
     .leaf n.nationalNumberPattern (str% "\n          (?:\n            (?:\n              241|\n              349\n            )0\\d\\d|\n            8(?:\n              51(?:\n                0(?:\n                  0[03-9]|\n                  [12479]\\d|\n                  3[2-9]|\n                  5[0-8]|\n                  6[1-9]|\n                  8[0-7]\n                )|\n                1(?:\n                  [0235689]\\d|\n                  1[0-69]|\n                  4[0-589]|\n                  7[0-47-9]\n                )|\n                2(?:\n                  0[0-79]|\n                  [18][13579]|\n                  2[14-9]|\n                  3[0-46-9]|\n                  [4-6]\\d|\n                  7[89]|\n                  9[0-4]\n                )|\n                [34]\\d\\d\n              )|\n              91(?:\n                (?:\n                  [0-58]\\d|\n                  6[0135-9]\n                )\\d|\n                7(?:\n                  0[0-24-9]|\n                  [1-9]\\d\n                )|\n                9(?:\n                  [0-46-9]\\d|\n                  5[0-79]\n                )\n              )\n            )\n          )\\d{3}|\n          (?:\n            2(?:\n              [0-26-9]\\d|\n              3[0-8]|\n              4[02-9]|\n              5[0135-9]\n            )|\n            3(?:\n              [0-3589]\\d|\n              4[0-578]|\n              6[1-9]|\n              7[0-35-9]\n            )|\n            7(?:\n              [013-57-9]\\d|\n              2[0-8]\n            )|\n            8(?:\n              55|\n              6[0-8]|\n              [78]\\d|\n              9[02-9]\n            )\n          )\\d{6}\n        "), .s6], .s6, .comment, .s6,
   .elem n.mobile []
    [.s8,
     .empty n.possibleLengths [(n.national, str% "9")], .s8,
     .leaf n.exampleNumber (str% "412345678"), .s8,
     .leaf n.nationalNumberPattern (str% "\n          4(?:\n            79[01]|\n            83[0-36-9]|\n            95[0-3]\n          )\\d{5}|\n          4(?:\n            [0-36]\\d|\n            4[047-9]|\n            [58][0-24-9]|\n            7[02-8]|\n            9[0-47-9]\n          )\\d{6}\n        "), .s6], .s6,
   .elem n.pager []
    [.s8,
     .empty n.possibleLengths [(n.national, str% "[5-9]")], .s8,
     .leaf n.exampleNumber (str% "1631234"), .s8,
     .leaf n.nationalNumberPattern (str% "163\\d{2,6}"), .s6], .s6,
   .elem n.tollFree []
    [.s8,
     .empty n.possibleLengths [(n.national, str% "7,10")], .s8,
     .leaf n.exampleNumber (str% "1800123456"), .s8,
     .leaf n.nationalNumberPattern (str% "\n          180(?:\n            0\\d{3}|\n            2\n          )\\d{3}\n        "), .s6], .s6,
   .elem n.premiumRate []
    [.s8,
     .empty n.possibleLengths [(n.national, str% "10")], .s8,
     .leaf n.exampleNumber (str% "1900123456"), .s8,
     .leaf n.nationalNumberPattern (str% "190[0-26]\\d{6}"), .s6], .s6, .comment, .s6,
   .elem n.sharedCost []
    [.s8,
     .empty n.possibleLengths [(n.national, str% "6,8,10,12")], .s8,
     .leaf n.exampleNumber (str% "1300123456"), .s8,
     .leaf n.nationalNumberPattern (str% "\n          13(?:\n            00\\d{6}(?:\n              \\d{2}\n            )?|\n            45[0-4]\\d{3}\n          )|\n          13\\d{4}\n        "), .s6], .s6, .comment, .s6,
   .elem n.voip []
    [.s8,
     .empty n.possibleLengths [(n.national, str% "9")], .s8,
     .leaf n.exampleNumber (str% "147101234"), .s8,
     .leaf n.nationalNumberPattern (str% "\n          14(?:\n            5(?:\n              1[0458]|\n              [23][458]\n            )|\n            71\\d\n          )\\d{4}\n        "), .s6], .s4]

/-- what stands before this territory -/
noncomputable def AW_before : List Node :=
  [.l4, .comment, .s4, .comment, .s4]
/-- its attributes -/
noncomputable def AW_attrs : List (Str × Str) := [(n.id, str% "AW"), (n.countryCode, str% "297"), (n.internationalPrefix, str% "00")]
/-- its content -/
noncomputable def AW : List Node :=
  [.s6,
   .elem n.availableFormats []
    [.s8,
     .elem n.numberFormat [(n.pattern, str% "(\\d{3})(\\d{4})")]
      [.s10,
       .leaf n.leadingDigits (str% "[25-9]"), .s10,
       .leaf n.format (str% "$1 $2"), .s8], .s6], .s6,
   .elem n.generalDesc []
    [.s8,
     .leaf n.nationalNumberPattern (str% "\n          (?:\n            [25-79]\\d\\d|\n            800\n          )\\d{4}\n        "), .s6], .s6,
   .elem n.fixedLine []
    [.s8,
     .empty n.possibleLengths [(n.national, str% "7")], .s8,
     .leaf n.exampleNumber (str% "5212345"), .s8,
     .leaf n.nationalNumberPattern (str% "\n          5(?:\n            2\\d|\n            8[1-9]\n          )\\d{4}\n        "), .s6], .s6, .comment, .s6,
   .elem n.mobile []
    [.s8,
     .empty n.possibleLengths [(n.national, str% "7")], .s8,
     .leaf n.exampleNumber (str% "5601234"), .s8,
     .leaf n.nationalNumberPattern (str% "\n          (?:\n            290|\n            5[69]\\d|\n            6(?:\n              [03]0|\n              22|\n              4[0-2]|\n              [69]\\d\n            )|\n            7(?:\n              [34]\\d|\n              7[07]\n            )|\n            9(?:\n              6[45]|\n              9[4-8]\n            )\n          )\\d{4}\n        "), .s6], .s6,
   .elem n.tollFree []
    [.s8,
     .empty n.possibleLengths [(n.national, str% "7")], .s8,
     .leaf n.exampleNumber (str% "8001234"), .s8,
     .leaf n.nationalNumberPattern (str% "800\\d{4}"), .s6], .s6,
   .elem n.premiumRate []
    [.s8,
     .empty n.possibleLengths [(n.national, str% "7")], .s8,
     .leaf n.exampleNumber (str% "9001234"), .s8,
     .leaf n.nationalNumberPattern (str% "900\\d{4}"), .s6], .s6,
   .elem n.voip []
    [.s8,
     .empty n.possibleLengths [(n.national, str% "7")], .s8,
     .leaf n.exampleNumber (str% "5011234"), .s8,
     .leaf n.nationalNumberPattern (str% "\n          (?:\n            28\\d|\n            501\n          )\\d{4}\n        "), .s6], .s4]

/-- what stands before this territory -/
noncomputable def AX_before : List Node :=
  [.l4, .comment, .s4, .comment, .s4, .comment, .s4, .comment, .s4, .comment, .s4]
/-- its attributes -/
noncomputable def AX_attrs : List (Str × Str) := [(n.id, str% "AX"), (n.countryCode, str% "358"), (n.leadingDigits, str% "18"), (n.preferredInternationalPrefix, str% "00"), (n.internationalPrefix, str% "00|99(?:[01469]|5(?:[14]1|3[23]|5[59]|77|88|9[09]))"), (n.nationalPrefix, str% "0")]
/-- its content -/
noncomputable def AX : List Node :=
  [.s6,
   .elem n.generalDesc []
    [.s8,
     .leaf n.nationalNumberPattern (str% "\n          2\\d{4,9}|\n          35\\d{4,5}|\n          (?:\n            60\\d\\d|\n            800\n          )\\d{4,6}|\n          7\\d{5,11}|\n          (?:\n            [14]\\d|\n            3[0-46-9]|\n            50\n          )\\d{4,8}\n        "), .s6], .s6,
   .elem n.fixedLine []
    [.s8,
     .empty n.possibleLengths [(n.national, str% "[6-9]")], .s8,
     .leaf n.exampleNumber (str% "181234567"), .s8,
     .leaf n.nationalNumberPattern (str% "18[1-8]\\d{3,6}"), .s6], .s6, .comment, .s6, .comment, .s6,
   .elem n.mobile []
    [.s8,
     .empty n.possibleLengths [(n.national, str% "[6-10]")], .s8,
     .leaf n.exampleNumber (str% "412345678"), .s8,
     .leaf n.nationalNumberPattern (str% "\n          4946\\d{2,6}|\n          (?:\n            4[0-8]|\n            50\n          )\\d{4,8}\n        "), .s6], .s6,
   .elem n.tollFree []
    [.s8,
     .empty n.possibleLengths [(n.national, str% "[7-9]")], .s8,
     .leaf n.exampleNumber (str% "800123456"), .s8,
     .leaf n.nationalNumberPattern (str% "800\\d{4,6}"), .s6], .s6,
   .elem n.premiumRate []
    [.s8,
     .empty n.possibleLengths [(n.national, str% "8,9")], .s8,
     .leaf n.exampleNumber (str% "600123456"), .s8,
     .leaf n.nationalNumberPattern (str% "[67]00\\d{5,6}"), .s6], .s6, .comment, .s6,
   .elem n.uan []
    [.s8,
     .empty n.possibleLengths [(n.national, str% "[5-12]")], .s8,
     .leaf n.exampleNumber (str% "10112345"), .s8,
     .leaf n.nationalNumberPattern (str% "\n          20\\d{4,8}|\n          60[12]\\d{5,6}|\n          7(?:\n            099\\d{4,5}|\n            5[03-9]\\d{3,7}\n          )|\n          20[2-59]\\d\\d|\n          (?:\n            606|\n            7(?:\n              0[78]|\n              1|\n              3\\d\n            )\n          )\\d{7}|\n          (?:\n            10|\n            29|\n            3[09]|\n            70[1-5]\\d\n          )\\d{4,8}\n        "), .s6], .s4]

/-- what stands before this territory -/
noncomputable def AZ_before : List Node :=
  [.l4, .comment, .s4, .comment, .s4]
/-- its attributes -/
noncomputable def AZ_attrs : List (Str × Str) := [(n.id, str% "AZ"), (n.countryCode, str% "994"), (n.internationalPrefix, str% "00"), (n.nationalPrefix, str% "0"), (n.mobileNumberPortableRegion, str% "true")]
/-- its content -/
noncomputable def AZ : List Node :=
  [.s6,
   .elem n.availableFormats []
    [.s8,
     .elem n.numberFormat [(n.pattern, str% "(\\d{3})(\\d{2})(\\d{2})")]
      [.s10,
       .leaf n.leadingDigits (str% "[1-9]"), .s10,
       .leaf n.format (str% "$1 $2 $3"), .s10,
       .leaf n.intlFormat (str% "NA"), .s8], .s8, .comment, .s8,
     .elem n.numberFormat [(n.pattern, str% "(\\d{3})(\\d{2})(\\d{2})(\\d{2})"), (n.nationalPrefixFormattingRule, str% "$NP$FG")]
      [.s10,
       .leaf n.leadingDigits (str% "90"), .s10,
       .leaf n.format (str% "$1 $2 $3 $4"), .s8], .s8,
     .elem n.numberFormat [(n.pattern, str% "(\\d{2})(\\d{3})(\\d{2})(\\d{2})"), (n.nationalPrefixFormattingRule, str% "($NP$FG)")]
      [.s10,
       .leaf n.leadingDigits (str% "\n            1[28]|\n            2|\n            365|\n            46\n          "), .s10,
       .leaf n.leadingDigits (str% "\n            1[28]|\n            2|\n            365[45]|\n            46\n          "), .s10,
       .leaf n.leadingDigits (str% "\n            1[28]|\n            2|\n            365(?:\n              4|\n              5[02]\n            )|\n            46\n          "), .s10,
       .leaf n.format (str% "$1 $2 $3 $4"), .s8], .s8, .comment, .s8,
     .elem n.numberFormat [(n.pattern, str% "(\\d{2})(\\d{3})(\\d{2})(\\d{2})"), (n.nationalPrefixFormattingRule, str% "$NP$FG")]
      [.s10,
       .leaf n.leadingDigits (str% "[13-9]"), .s10,
       .leaf n.format (str% "$1 $2 $3 $4"), .s8], .s6], .s6,
   .elem n.generalDesc []
    [.s8,
     .leaf n.nationalNumberPattern (str% "\n          365\\d{6}|\n          (?:\n            [124579]\\d|\n            60|\n            88\n          )\\d{7}\n        "), .s6], .s6, .comment, .s6,
   .elem n.fixedLine []
    [.s8,
     .empty n.possibleLengths [(n.national, str% "9"), (n.localOnly, str% "7")], .s8,
     .leaf n.exampleNumber (str% "123123456"), .s8,
     .leaf n.nationalNumberPattern (str% "\n          (?:\n            2[12]428|\n            3655[02]\n          )\\d{4}|\n          (?:\n            2(?:\n              22[0-79]|\n              63[0-28]\n            )|\n            3654\n          )\\d{5}|\n          (?:\n            (?:\n              1[28]|\n              46\n            )\\d|\n            2(?:\n              [014-6]2|\n              [23]3\n            )\n          )\\d{6}\n        "), .s6], .s6, .comment, .s6,
   .elem n.mobile []
    [.s8,
     .empty n.possibleLengths [(n.national, str% "9")], .s8,
     .leaf n.exampleNumber (str% "401234567"), .s8,
     .leaf n.nationalNumberPattern (str% "\n          36554\\d{4}|\n          (?:\n            [16]0|\n            4[04]|\n            5[015]|\n            7[07]|\n            99\n          )\\d{7}\n        "), .s6], .s6, .comment, .s6,
   .elem n.tollFree []
    [.s8,
     .empty n.possibleLengths [(n.national, str% "9")], .s8,
     .leaf n.exampleNumber (str% "881234567"), .s8,
     .leaf n.nationalNumberPattern (str% "88\\d{7}"), .s6], .s6, .comment, .s6,
   .elem n.premiumRate []
    [.s8,
     .empty n.possibleLengths [(n.national, str% "9")], .s8,
     .leaf n.exampleNumber (str% "900200123"), .s8,
     .leaf n.nationalNumberPattern (str% "900200\\d{3}"), .s6], .s4]

/-- what stands before this territory -/
noncomputable def BA_before : List Node :=
  [.l4, .comment, .s4, .comment, .s4, .comment, .s4, .comment, .s4]
/-- its attributes -/
noncomputable def BA_attrs : List (Str × Str) := [(n.id, str% "BA"), (n.countryCode, str% "387"), (n.internationalPrefix, str% "00"), (n.nationalPrefix, str% "0"), (n.mobileNumberPortableRegion, str% "true")]
/-- its content -/
noncomputable def BA : List Node :=
  [.s6,
   .elem n.availableFormats []
    [.s8,
     .elem n.numberFormat [(n.pattern, str% "(\\d{3})(\\d{3})")]
      [.s10,
       .leaf n.leadingDigits (str% "[2-9]"), .s10,
       .leaf n.format (str% "$1-$2"), .s10,
       .leaf n.intlFormat (str% "NA"), .s8], .s8,
     .elem n.numberFormat [(n.pattern, str% "(\\d{2})(\\d{3})(\\d{3})"), (n.nationalPrefixFormattingRule, str% "$NP$FG")]
      [.s10,
       .leaf n.leadingDigits (str% "\n            6[1-3]|\n            [7-9]\n          "), .s10,
       .leaf n.format (str% "$1 $2 $3"), .s8], .s8,
     .elem n.numberFormat [(n.pattern, str% "(\\d{2})(\\d{3})(\\d{3})"), (n.nationalPrefixFormattingRule, str% "$NP$FG")]
      [.s10,
       .leaf n.leadingDigits (str% "\n            [3-5]|\n            6[56]\n          "), .s10,
       .leaf n.format (str% "$1 $2-$3"), .s8], .s8, .comment, .s8,
     .elem n.numberFormat [(n.pattern, str% "(\\d{2})(\\d{2})(\\d{2})(\\d{3})"), (n.nationalPrefixFormattingRule, str% "$NP$FG")]
      [.s10,
       .leaf n.leadingDigits (str% "6"), .s10,
       .leaf n.format (str% "$1 $2 $3 $4"), .s8], .s6], .s6,
   .elem n.generalDesc []
    [.s8,
     .leaf n.nationalNumberPattern (str% "\n          6\\d{8}|\n          (?:\n            [35689]\\d|\n            49|\n            70\n          )\\d{6}\n        "), .s6], .s6, .comment, .s6,
   .elem n.fixedLine []
    [.s8,
     .empty n.possibleLengths [(n.national, str% "8"), (n.localOnly, str% "6")], .s8,
     .leaf n.exampleNumber (str% "30212345"), .s8,
     .leaf n.nationalNumberPattern (str% "\n          (?:\n            3(?:\n              [05-79][2-9]|\n              1[4579]|\n              [23][24-9]|\n              4[2-4689]|\n              8[2457-9]\n            )|\n            49[2-579]|\n            5(?:\n              0[2-49]|\n              [13][2-9]|\n              [268][2-4679]|\n              4[4689]|\n              5[2-79]|\n              7[2-69]|\n              9[2-4689]\n            )\n          )\\d{5}\n        "), .s6], .s6,
   .elem n.mobile []
    [.s8,
     .empty n.possibleLengths [(n.national, str% "8,9")], .s8,
     .leaf n.exampleNumber (str% "61123456"), .s8,
     .leaf n.nationalNumberPattern (str% "\n          6040\\d{5}|\n          6(?:\n            03|\n            [1-356]|\n            44|\n            7\\d\n          )\\d{6}\n        "), .s6], .s6,
   .elem n.tollFree []
    [.s8,
     .empty n.possibleLengths [(n.national, str% "8")], .s8,
     .leaf n.exampleNumber (str% "80123456"), .s8,
     .leaf n.nationalNumberPattern (str% "8[08]\\d{6}"), .s6], .s6,
   .elem n.premiumRate []
    [.s8,
     .empty n.possibleLengths [(n.national, str% "8")], .s8,
     .leaf n.exampleNumber (str% "90123456"), .s8,
     .leaf n.nationalNumberPattern (str% "9[0246]\\d{6}"), .s6], .s6, .comment, .s6,
   .elem n.sharedCost []
    [.s8,
     .empty n.possibleLengths [(n.national, str% "8")], .s8,
     .leaf n.exampleNumber (str% "82123456"), .s8,
     .leaf n.nationalNumberPattern (str% "8[12]\\d{6}"), .s6], .s6, .comment, .s6,
   .elem n.uan []
    [.s8,
     .empty n.possibleLengths [(n.national, str% "8")], .s8,
     .leaf n.exampleNumber (str% "70341234"), .s8,
     .leaf n.nationalNumberPattern (str% "\n          703[235]0\\d{3}|\n          70(?:\n            2[0-5]|\n            3[0146]|\n            [56]0\n          )\\d{4}\n        "), .s6], .s4]

/-- what stands before this territory -/
noncomputable def BB_before : List Node :=
  [.l4, .comment, .s4, .comment, .s4, .comment, .s4]
/-- its attributes -/
noncomputable def BB_attrs : List (Str × Str) := [(n.id, str% "BB"), (n.countryCode, str% "1"), (n.leadingDigits, str% "246"), (n.internationalPrefix, str% "011"), (n.nationalPrefix, str% "1"), (n.nationalPrefixForParsing, str% "([2-9]\\d{6})$|1"), (n.nationalPrefixTransformRule, str% "246$1"), (n.mobileNumberPortableRegion, str% "true")]
/-- its content -/
noncomputable def BB : List Node :=
  [.s6,
   .elem n.generalDesc []
    [.s8,
     .leaf n.nationalNumberPattern (str% "\n          (?:\n            246|\n            [58]\\d\\d|\n            900\n          )\\d{7}\n        "), .s6], .s6, .comment, .s6,
   .elem n.fixedLine []
    [.s8,
     .empty n.possibleLengths [(n.national, str% "10"), (n.localOnly, str% "7")], .s8,
     .leaf n.exampleNumber (str% "2464123456"), .s8,
     .leaf n.nationalNumberPattern (str% "\n          246521[0369]\\d{3}|\n          246(?:\n            2(?:\n              2[78]|\n              7[0-4]\n            )|\n            4(?:\n              1[024-6]|\n              2\\d|\n              3[2-9]\n            )|\n            5(?:\n              20|\n              [34]\\d|\n              54|\n              7[1-3]\n            )|\n            6(?:\n              2\\d|\n              38\n            )|\n            7[35]7|\n            9(?:\n              1[89]|\n              63\n            )\n          )\\d{4}\n        "), .s6], .s6,
   .elem n.mobile []
    [.s8,
     .empty n.possibleLengths [(n.national, str% "10"), (n.localOnly, str% "7")], .s8,
     .leaf n.exampleNumber (str% "2462501234"), .s8,
     .leaf n.nationalNumberPattern (str% "\n          246(?:\n            (?:\n              2(?:\n                [3568]\\d|\n                4[0-57-9]\n              )|\n              3(?:\n                5[2-9]|\n                6[0-6]\n              )|\n              4(?:\n                46|\n                5\\d\n              )|\n              69[5-7]|\n              8(?:\n                [2-5]\\d|\n                83\n              )\n            )\\d|\n            52(?:\n              1[147]|\n              20\n            )\n          )\\d{3}\n        "), .s6], .s6,
   .elem n.tollFree []
    [.s8,
     .empty n.possibleLengths [(n.national, str% "10")], .s8,
     .leaf n.exampleNumber (str% "8002123456"), .s8,
     .leaf n.nationalNumberPattern (str% "\n          8(?:\n            00|\n            33|\n            44|\n            55|\n            66|\n            77|\n            88\n          )[2-9]\\d{6}\n        "), .s6], .s6,
   .elem n.premiumRate []
    [.s8,
     .empty n.possibleLengths [(n.national, str% "10"), (n.localOnly, str% "7")], .s8,
     .leaf n.exampleNumber (str% "9002123456"), .s8,
     .leaf n.nationalNumberPattern (str% "\n          (?:\n            246976|\n            900[2-9]\\d\\d\n          )\\d{4}\n        "), .s6], .s6, .comment, .s6,
   .elem n.personalNumber []
    [.s8,
     .empty n.possibleLengths [(n.national, str% "10")], .s8,
     .leaf n.exampleNumber (str% "5002345678"), .s8,
     .leaf n.nationalNumberPattern (str% "\n          52(?:\n            3(?:\n              [2-46-9][02-9]\\d|\n              5(?:\n                [02-46-9]\\d|\n                5[0-46-9]\n              )\n            )|\n            4(?:\n              [2-478][02-9]\\d|\n              5(?:\n                [034]\\d|\n                2[024-9]|\n                5[0-46-9]\n              )|\n              6(?:\n                0[1-9]|\n                [2-9]\\d\n              )|\n              9(?:\n                [05-9]\\d|\n                2[0-5]|\n                49\n              )\n            )\n          )\\d{4}|\n          52[34][2-9]1[02-9]\\d{4}|\n          5(?:\n            00|\n            2[125-9]|\n            3[23]|\n            44|\n            66|\n            77|\n            88\n          )[2-9]\\d{6}\n        "), .s6], .s6,
   .elem n.voip []
    [.s8,
     .empty n.possibleLengths [(n.national, str% "10"), (n.localOnly, str% "7")], .s8,
     .leaf n.exampleNumber (str% "2463101234"), .s8,
     .leaf n.nationalNumberPattern (str% "24631\\d{5}"), .s6], .s6, .comment, .s6,
   .elem n.uan []
    [.s8,
     .empty n.possibleLengths [(n.national, str% "10"), (n.localOnly, str% "7")], .s8,
     .leaf n.exampleNumber (str% "2464301234"), .s8,
     .leaf n.nationalNumberPattern (str% "\n          246(?:\n            292|\n            367|\n            4(?:\n              1[7-9]|\n              3[01]|\n              4[47-9]|\n              67\n            )|\n            7(?:\n              1[2-9]|\n              2\\d|\n              3[016]|\n              53\n            )\n          )\\d{4}\n        "), .s6], .s4]

/-- what stands before this territory -/
noncomputable def BD_before : List Node :=
  [.l4, .comment, .s4, .comment, .s4, .comment, .s4, .comment, .s4, .comment, .s4]
/-- its attributes -/
noncomputable def BD_attrs : List (Str × Str) := [(n.id, str% "BD"), (n.countryCode, str% "880"), (n.internationalPrefix, str% "00"), (n.nationalPrefix, str% "0")]
/-- its content -/
noncomputable def BD : List Node :=
  [.s6,
   .elem n.availableFormats []
    [.s8,
     .elem n.numberFormat [(n.pattern, str% "(\\d{2})(\\d{4,6})"), (n.nationalPrefixFormattingRule, str% "$NP$FG")]
      [.s10,
       .leaf n.leadingDigits (str% "\n            31[5-8]|\n            [459]1\n          "), .s10,
       .leaf n.format (str% "$1-$2"), .s8], .s8,
     .elem n.numberFormat [(n.pattern, str% "(\\d{3})(\\d{3,7})"), (n.nationalPrefixFormattingRule, str% "$NP$FG")]
      [.s10,
       .leaf n.leadingDigits (str% "\n            3(?:\n              [67]|\n              8[013-9]\n            )|\n            4(?:\n              6[168]|\n              7|\n              [89][18]\n            )|\n            5(?:\n              6[128]|\n              9\n            )|\n            6(?:\n              [15]|\n              28|\n              4[14]\n            )|\n            7[2-589]|\n            8(?:\n              0[014-9]|\n              [12]\n            )|\n            9[358]|\n            (?:\n              3[2-5]|\n              4[235]|\n              5[2-578]|\n              6[0389]|\n              76|\n              8[3-7]|\n              9[24]\n            )1|\n            (?:\n              44|\n              66\n            )[01346-9]\n          "), .s10,
       .leaf n.format (str% "$1-$2"), .s8], .s8, .comment, .s8,
     .elem n.numberFormat [(n.pattern, str% "(\\d{4})(\\d{3,6})"), (n.nationalPrefixFormattingRule, str% "$NP$FG")]
      [.s10,
       .leaf n.leadingDigits (str% "\n            [13-9]|\n            2[23]\n          "), .s10,
       .leaf n.format (str% "$1-$2"), .s8], .s8,
     .elem n.numberFormat [(n.pattern, str% "(\\d)(\\d{7,8})"), (n.nationalPrefixFormattingRule, str% "$NP$FG")]
      [.s10,
       .leaf n.leadingDigits (str% "2"), .s10,
       .leaf n.format (str% "$1-$2"), .s8], .s6], .s6,
   .elem n.generalDesc []
    [.s8,
     .leaf n.nationalNumberPattern (str% "\n          [1-469]\\d{9}|\n          8[0-79]\\d{7,8}|\n          [2-79]\\d{8}|\n          [2-9]\\d{7}|\n          [3-9]\\d{6}|\n          [57-9]\\d{5}\n        "), .s6], .s6, .comment, .s6, .comment, .s6,
   .elem n.fixedLine []
    [.s8,
     .empty n.possibleLengths [(n.national, str% "[6-10]")], .s8,
     .leaf n.exampleNumber (str% "27111234"), .s8,
     .leaf n.nationalNumberPattern (str% "\n          (?:\n            4(?:\n              31\\d\\d|\n              423\n            )|\n            5222\n          )\\d{3}(?:\n            \\d{2}\n          )?|\n          8332[6-9]\\d\\d|\n          (?:\n            3(?:\n              03[56]|\n              224\n            )|\n            4(?:\n              22[25]|\n              653\n            )\n          )\\d{3,4}|\n          (?:\n            3(?:\n              42[47]|\n              529|\n              823\n            )|\n            4(?:\n              027|\n              525|\n              65(?:\n                28|\n                8\n              )\n            )|\n            562|\n            6257|\n            7(?:\n              1(?:\n                5[3-5]|\n                6[12]|\n                7[156]|\n                89\n              )|\n              22[589]56|\n              32|\n              42675|\n              52(?:\n                [25689](?:\n                  56|\n                  8\n                )|\n                [347]8\n              )|\n              71(?:\n                6[1267]|\n                75|\n                89\n              )|\n              92374\n            )|\n            82(?:\n              2[59]|\n              32\n            )56|\n            9(?:\n              03[23]56|\n              23(?:\n                256|\n                373\n              )|\n              31|\n              5(?:\n                1|\n                2[4589]56\n              )\n            )\n          )\\d{3}|\n          (?:\n            3(?:\n              02[348]|\n              22[35]|\n              324|\n              422\n            )|\n            4(?:\n              22[67]|\n              32[236-9]|\n              6(?:\n                2[46]|\n                5[57]\n              )|\n              953\n            )|\n            5526|\n            6(?:\n              024|\n              6655\n            )|\n            81\n          )\\d{4,5}|\n          (?:\n            2(?:\n              7(?:\n                1[0-267]|\n                2[0-289]|\n                3[0-29]|\n                4[01]|\n                5[1-3]|\n                6[013]|\n                7[0178]|\n                91\n              )|\n              8(?:\n                0[125]|\n                1[1-6]|\n                2[0157-9]|\n                3[1-69]|\n                41|\n                6[1-35]|\n                7[1-5]|\n                8[1-8]|\n                9[0-6]\n              )|\n              9(?:\n                0[0-2]|\n                1[0-4]|\n                2[568]|\n                3[3-6]|\n                5[5-7]|\n                6[0136-9]|\n                7[0-7]|\n                8[014-9]\n              )\n            )|\n            3(?:\n              0(?:\n                2[025-79]|\n                3[2-4]\n              )|\n              181|\n              22[12]|\n              32[2356]|\n              824\n            )|\n            4(?:\n              02[09]|\n              22[348]|\n              32[045]|\n              523|\n              6(?:\n                27|\n                54\n              )\n            )|\n            666(?:\n              22|\n              53\n            )|\n            7(?:\n              22[57-9]|\n              42[56]|\n              82[35]\n            )8|\n            8(?:\n              0[124-9]|\n              2(?:\n                181|\n                2[02-4679]8\n              )|\n              4[12]|\n              [5-7]2\n            )|\n            9(?:\n              [04]2|\n              2(?:\n                2|\n                328\n              )|\n              81\n            )\n          )\\d{4}|\n          (?:\n            2(?:\n              [23]\\d|\n              [45]\n            )\\d\\d|\n            3(?:\n              1(?:\n                2[5-7]|\n                [5-7]\n              )|\n              425|\n              822\n            )|\n            4(?:\n              033|\n              1\\d|\n              [257]1|\n              332|\n              4(?:\n                2[246]|\n                5[25]\n              )|\n              6(?:\n                2[35]|\n                56|\n                62\n              )|\n              8(?:\n                23|\n                54\n              )|\n              92[2-5]\n            )|\n            5(?:\n              02[03489]|\n              22[457]|\n              32[35-79]|\n              42[46]|\n              6(?:\n                [18]|\n                53\n              )|\n              724|\n              826\n            )|\n            6(?:\n              023|\n              2(?:\n                2[2-5]|\n                5[3-5]|\n                8\n              )|\n              32[3478]|\n              42[34]|\n              52[47]|\n              6(?:\n                [18]|\n                6(?:\n                  2[34]|\n                  5[24]\n                )\n              )|\n              [78]2[2-5]|\n              92[2-6]\n            )|\n            7(?:\n              02|\n              21\\d|\n              [3-589]1|\n              6[12]|\n              72[24]\n            )|\n            8(?:\n              217|\n              3[12]|\n              [5-7]1\n            )|\n            9[24]1\n          )\\d{5}|\n          (?:\n            (?:\n              3[2-8]|\n              5[2-57-9]|\n              6[03-589]\n            )1|\n            4[4689][18]\n          )\\d{5}|\n          [59]1\\d{5}\n        "), .s6], .s6, .comment, .s6,
   .elem n.mobile []
    [.s8,
     .empty n.possibleLengths [(n.national, str% "10")], .s8,
     .leaf n.exampleNumber (str% "1812345678"), .s8,
     .leaf n.nationalNumberPattern (str% "\n          (?:\n            1[13-9]\\d|\n            644\n          )\\d{7}|\n          (?:\n            3[78]|\n            44|\n            66\n          )[02-9]\\d{7}\n        "), .s6], .s6, .comment, .s6,
   .elem n.tollFree []
    [.s8,
     .empty n.possibleLengths [(n.national, str% "10")], .s8,
     .leaf n.exampleNumber (str% "8001234567"), .s8,
     .leaf n.nationalNumberPattern (str% "80[03]\\d{7}"), .s6], .s6, .comment, .s6,
   .elem n.voip []
    [.s8,
     .empty n.possibleLengths [(n.national, str% "10")], .s8,
     .leaf n.exampleNumber (str% "9604123456"), .s8,
     .leaf n.nationalNumberPattern (str% "\n          96(?:\n            0[469]|\n            1[0-47]|\n            3[389]|\n            43|\n            6[69]|\n            7[78]\n          )\\d{6}\n        "), .s6], .s4]

/-- what stands before this territory -/
noncomputable def BE_before : List Node :=
  [.l4, .comment, .s4, .comment, .s4, .comment, .s4, .comment, .s4]
/-- its attributes -/
noncomputable def BE_attrs : List (Str × Str) := [(n.id, str% "BE"), (n.countryCode, str% "32"), (n.internationalPrefix, str% "00"), (n.nationalPrefix, str% "0"), (n.mobileNumberPortableRegion, str% "true")]
/-- its content -/
noncomputable def BE : List Node :=
  [.s6,
   .elem n.availableFormats []
    [.s8,
     .elem n.numberFormat [(n.pattern, str% "(\\d{3})(\\d{2})(\\d{3})"), (n.nationalPrefixFormattingRule, str% "$NP$FG")]
      [.s10,
       .leaf n.leadingDigits (str% "\n            (?:\n              80|\n              9\n            )0\n          "), .s10,
       .leaf n.format (str% "$1 $2 $3"), .s8], .s8,
     .elem n.numberFormat [(n.pattern, str% "(\\d)(\\d{3})(\\d{2})(\\d{2})"), (n.nationalPrefixFormattingRule, str% "$NP$FG")]
      [.s10,
       .leaf n.leadingDigits (str% "\n            [239]|\n            4[23]\n          "), .s10,
       .leaf n.format (str% "$1 $2 $3 $4"), .s8], .s8,
     .elem n.numberFormat [(n.pattern, str% "(\\d{2})(\\d{2})(\\d{2})(\\d{2})"), (n.nationalPrefixFormattingRule, str% "$NP$FG")]
      [.s10,
       .leaf n.leadingDigits (str% "[15-8]"), .s10,
       .leaf n.format (str% "$1 $2 $3 $4"), .s8], .s8,
     .elem n.numberFormat [(n.pattern, str% "(\\d{3})(\\d{2})(\\d{2})(\\d{2})"), (n.nationalPrefixFormattingRule, str% "$NP$FG")]
      [.s10,
       .leaf n.leadingDigits (str% "4"), .s10,
       .leaf n.format (str% "$1 $2 $3 $4"), .s8], .s6], .s6,
   .elem n.generalDesc []
    [.s8,
     .leaf n.nationalNumberPattern (str% "\n          4\\d{8}|\n          [1-9]\\d{7}\n        "), .s6], .s6,
   .elem n.fixedLine []
    [.s8,
     .empty n.possibleLengths [(n.national, str% "8")], .s8,
     .leaf n.exampleNumber (str% "12345678"), .s8,
     .leaf n.nationalNumberPattern (str% "\n          80[2-8]\\d{5}|\n          (?:\n            1[0-69]|\n            [23][2-8]|\n            4[23]|\n            5\\d|\n            6[013-57-9]|\n            71|\n            8[1-79]|\n            9[2-4]\n          )\\d{6}\n        "), .s6], .s6,
   .elem n.mobile []
    [.s8,
     .empty n.possibleLengths [(n.national, str% "9")], .s8,
     .leaf n.exampleNumber (str% "450001234"), .s8,
     .leaf n.nationalNumberPattern (str% "4[5-9]\\d{7}"), .s6], .s6,
   .elem n.tollFree []
    [.s8,
     .empty n.possibleLengths [(n.national, str% "8")], .s8,
     .leaf n.exampleNumber (str% "80012345"), .s8,
     .leaf n.nationalNumberPattern (str% "800[1-9]\\d{4}"), .s6], .s6,
   .elem n.premiumRate []
    [.s8,
     .empty n.possibleLengths [(n.national, str% "8")], .s8,
     .leaf n.exampleNumber (str% "90012345"), .s8,
     .leaf n.nationalNumberPattern (str% "\n          (?:\n            70(?:\n              2[0-57]|\n              3[04-7]|\n              44|\n              6[04-69]|\n              7[0579]\n            )|\n            90\\d\\d\n          )\\d{4}\n        "), .s6], .s6,
   .elem n.sharedCost []
    [.s8,
     .empty n.possibleLengths [(n.national, str% "8")], .s8,
     .leaf n.exampleNumber (str% "78791234"), .s8,
     .leaf n.nationalNumberPattern (str% "7879\\d{4}"), .s6], .s6, .comment, .s6,
   .elem n.uan []
    [.s8,
     .empty n.possibleLengths [(n.national, str% "8")], .s8,
     .leaf n.exampleNumber (str% "78102345"), .s8,
     .leaf n.nationalNumberPattern (str% "\n          78(?:\n            0[578]|\n            1[014-8]|\n            2[25]|\n            3[15-8]|\n            48|\n            5[05]|\n            60|\n            7[06-8]|\n            9\\d\n          )\\d{4}\n        "), .s6], .s4]

/-- what stands before this territory -/
noncomputable def BF_before : List Node :=
  [.l4, .comment, .s4, .comment, .s4, .comment, .s4]
/-- its attributes -/
noncomputable def BF_attrs : List (Str × Str) := [(n.id, str% "BF"), (n.countryCode, str% "226"), (n.internationalPrefix, str% "00")]
/-- its content -/
noncomputable def BF : List Node :=
  [.s6,
   .elem n.availableFormats []
    [.s8, .comment, .s8,
     .elem n.numberFormat [(n.pattern, str% "(\\d{2})(\\d{2})(\\d{2})(\\d{2})")]
      [.s10,
       .leaf n.leadingDigits (str% "[024-7]"), .s10,
       .leaf n.format (str% "$1 $2 $3 $4"), .s8], .s6], .s6,
   .elem n.generalDesc []
    [.s8,
     .leaf n.nationalNumberPattern (str% "[024-7]\\d{7}"), .s6], .s6,
   .elem n.fixedLine []
    [.s8,
     .empty n.possibleLengths [(n.national, str% "8")], .s8,
     .leaf n.exampleNumber (str% "20491234"), .s8,
     .leaf n.nationalNumberPattern (str% "\n          2(?:\n            0(?:\n              49|\n              5[23]|\n              6[5-7]|\n              9[016-9]\n            )|\n            4(?:\n              4[569]|\n              5[4-6]|\n              6[5-7]|\n              7[0179]\n            )|\n            5(?:\n              [34]\\d|\n              50|\n              6[5-8]\n            )\n          )\\d{4}\n        "), .s6], .s6,
   .elem n.mobile []
    [.s8,
     .empty n.possibleLengths [(n.national, str% "8")], .s8,
     .leaf n.exampleNumber (str% "70123456"), .s8,
     .leaf n.nationalNumberPattern (str% "\n          (?:\n            0[1-7]|\n            4[4-6]|\n            5[0-8]|\n            [67]\\d\n          )\\d{6}\n        "), .s6], .s4]

/-- what stands before this territory -/
noncomputable def BG_before : List Node :=
  [.l4, .comment, .s4, .comment, .s4, .comment, .s4]
/-- its attributes -/
noncomputable def BG_attrs : List (Str × Str) := [(n.id, str% "BG"), (n.countryCode, str% "359"), (n.internationalPrefix, str% "00"), (n.nationalPrefix, str% "0"), (n.mobileNumberPortableRegion, str% "true")]
/-- its content -/
noncomputable def BG : List Node :=
  [.s6,
   .elem n.availableFormats []
    [.s8, .comment, .s8,
     .elem n.numberFormat [(n.pattern, str% "(\\d{6})")]
      [.s10,
       .leaf n.leadingDigits (str% "1"), .s10,
       .leaf n.format (str% "$1"), .s10,
       .leaf n.intlFormat (str% "NA"), .s8], .s8, .comment, .s8,
     .elem n.numberFormat [(n.pattern, str% "(\\d)(\\d)(\\d{2})(\\d{2})"), (n.nationalPrefixFormattingRule, str% "$NP$FG")]
      [.s10,
       .leaf n.leadingDigits (str% "2"), .s10,
       .leaf n.format (str% "$1 $2 $3 $4"), .s8], .s8,
     .elem n.numberFormat [(n.pattern, str% "(\\d{3})(\\d{4})"), (n.nationalPrefixFormattingRule, str% "$NP$FG")]
      [.s10,
       .leaf n.leadingDigits (str% "\n            43[1-6]|\n            70[1-9]\n          "), .s10,
       .leaf n.format (str% "$1 $2"), .s8], .s8,
     .elem n.numberFormat [(n.pattern, str% "(\\d)(\\d{3})(\\d{3,4})"), (n.nationalPrefixFormattingRule, str% "$NP$FG")]
      [.s10,
       .leaf n.leadingDigits (str% "2"), .s10,
       .leaf n.format (str% "$1 $2 $3"), .s8], .s8,
     .elem n.numberFormat [(n.pattern, str% "(\\d{2})(\\d{3})(\\d{2,3})"), (n.nationalPrefixFormattingRule, str% "$NP$FG")]
      [.s10,
       .leaf n.leadingDigits (str% "\n            [356]|\n            4[124-7]|\n            7[1-9]|\n            8[1-6]|\n            9[1-7]\n          "), .s10,
       .leaf n.format (str% "$1 $2 $3"), .s8], .s8, .comment, .s8,
     .elem n.numberFormat [(n.pattern, str% "(\\d{3})(\\d{2})(\\d{3})"), (n.nationalPrefixFormattingRule, str% "$NP$FG")]
      [.s10,
       .leaf n.leadingDigits (str% "\n            (?:\n              70|\n              8\n            )0\n          "), .s10,
       .leaf n.format (str% "$1 $2 $3"), .s8], .s8,
     .elem n.numberFormat [(n.pattern, str% "(\\d{3})(\\d{3})(\\d{2})"), (n.nationalPrefixFormattingRule, str% "$NP$FG")]
      [.s10,
       .leaf n.leadingDigits (str% "\n            43[1-7]|\n            7\n          "), .s10,
       .leaf n.format (str% "$1 $2 $3"), .s8], .s8, .comment, .s8,
     .elem n.numberFormat [(n.pattern, str% "(\\d{2})(\\d{3})(\\d{3,4})"), (n.nationalPrefixFormattingRule, str% "$NP$FG")]
      [.s10,
       .leaf n.leadingDigits (str% "\n            [48]|\n            9[08]\n          "), .s10,
       .leaf n.format (str% "$1 $2 $3"), .s8], .s8,
     .elem n.numberFormat [(n.pattern, str% "(\\d{3})(\\d{3})(\\d{3})"), (n.nationalPrefixFormattingRule, str% "$NP$FG")]
      [.s10,
       .leaf n.leadingDigits (str% "9"), .s10,
       .leaf n.format (str% "$1 $2 $3"), .s8], .s6], .s6,
   .elem n.generalDesc []
    [.s8,
     .leaf n.nationalNumberPattern (str% "\n          00800\\d{7}|\n          [2-7]\\d{6,7}|\n          [89]\\d{6,8}|\n          2\\d{5}\n        "), .s6], .s6, .comment, .s6,
   .elem n.fixedLine []
    [.s8,
     .empty n.possibleLengths [(n.national, str% "[6-8]"), (n.localOnly, str% "4,5")], .s8,
     .leaf n.exampleNumber (str% "2123456"), .s8,
     .leaf n.nationalNumberPattern (str% "\n          2\\d{5,7}|\n          (?:\n            43[1-6]|\n            70[1-9]\n          )\\d{4,5}|\n          (?:\n            [36]\\d|\n            4[124-7]|\n            [57][1-9]|\n            8[1-6]|\n            9[1-7]\n          )\\d{5,6}\n        "), .s6], .s6, .comment, .s6,
   .elem n.mobile []
    [.s8,
     .empty n.possibleLengths [(n.national, str% "8,9")], .s8,
     .leaf n.exampleNumber (str% "43012345"), .s8,
     .leaf n.nationalNumberPattern (str% "\n          (?:\n            43[07-9]|\n            99[69]\\d\n          )\\d{5}|\n          (?:\n            8[7-9]|\n            98\n          )\\d{7}\n        "), .s6], .s6,
   .elem n.tollFree []
    [.s8,
     .empty n.possibleLengths [(n.national, str% "8,12")], .s8,
     .leaf n.exampleNumber (str% "80012345"), .s8,
     .leaf n.nationalNumberPattern (str% "\n          (?:\n            00800\\d\\d|\n            800\n          )\\d{5}\n        "), .s6], .s6,
   .elem n.premiumRate []
    [.s8,
     .empty n.possibleLengths [(n.national, str% "8")], .s8,
     .leaf n.exampleNumber (str% "90123456"), .s8,
     .leaf n.nationalNumberPattern (str% "90\\d{6}"), .s6], .s6, .comment, .s6,
   .elem n.sharedCost []
    [.s8,
     .empty n.possibleLengths [(n.national, str% "8")], .s8,
     .leaf n.exampleNumber (str% "70012345"), .s8,
     .leaf n.nationalNumberPattern (str% "700\\d{5}"), .s6], .s4]

/-- what stands before this territory -/
noncomputable def BH_before : List Node :=
  [.l4, .comment, .s4, .comment, .s4, .comment, .s4, .comment, .s4]
/-- its attributes -/
noncomputable def BH_attrs : List (Str × Str) := [(n.id, str% "BH"), (n.countryCode, str% "973"), (n.internationalPrefix, str% "00"), (n.mobileNumberPortableRegion, str% "true")]
/-- its content -/
noncomputable def BH : List Node :=
  [.s6,
   .elem n.availableFormats []
    [.s8,
     .elem n.numberFormat [(n.pattern, str% "(\\d{4})(\\d{4})")]
      [.s10,
       .leaf n.leadingDigits (str% "\n            [13679]|\n            8[02-4679]\n          "), .s10,
       .leaf n.format (str% "$1 $2"), .s8], .s6], .s6,
   .elem n.generalDesc []
    [.s8,
     .leaf n.nationalNumberPattern (str% "[136-9]\\d{7}"), .s6], .s6, .comment, .s6, .comment, .s6,
   .elem n.fixedLine []
    [.s8,
     .empty n.possibleLengths [(n.national, str% "8")], .s8,
     .leaf n.exampleNumber (str% "17001234"), .s8,
     .leaf n.nationalNumberPattern (str% "\n          (?:\n            1(?:\n              3[1356]|\n              6[0156]|\n              7\\d\n            )\\d|\n            6(?:\n              1[16]\\d|\n              500|\n              6(?:\n                0\\d|\n                3[12]|\n                44|\n                55|\n                7[7-9]|\n                88\n              )|\n              9[69][69]\n            )|\n            7(?:\n              [07]\\d\\d|\n              1(?:\n                11|\n                78\n              )\n            )\n          )\\d{4}\n        "), .s6], .s6, .comment, .s6,
   .elem n.mobile []
    [.s8,
     .empty n.possibleLengths [(n.national, str% "8")], .s8,
     .leaf n.exampleNumber (str% "36001234"), .s8,
     .leaf n.nationalNumberPattern (str% "\n          (?:\n            3(?:\n              [0-79]\\d|\n              8[0-57-9]\n            )\\d|\n            6(?:\n              3(?:\n                00|\n                33|\n                6[16]\n              )|\n              441|\n              6(?:\n                3[03-9]|\n                [69]\\d|\n                7[0-689]\n              )\n            )\n          )\\d{4}\n        "), .s6], .s6,
   .elem n.tollFree []
    [.s8,
     .empty n.possibleLengths [(n.national, str% "8")], .s8,
     .leaf n.exampleNumber (str% "80123456"), .s8,
     .leaf n.nationalNumberPattern (str% "8[02369]\\d{6}"), .s6], .s6, .comment, .s6,
   .elem n.premiumRate []
    [.s8,
     .empty n.possibleLengths [(n.national, str% "8")], .s8,
     .leaf n.exampleNumber (str% "90123456"), .s8,
     .leaf n.nationalNumberPattern (str% "\n          (?:\n            87|\n            9[0-8]\n          )\\d{6}\n        "), .s6], .s6,
   .elem n.sharedCost []
    [.s8,
     .empty n.possibleLengths [(n.national, str% "8")], .s8,
     .leaf n.exampleNumber (str% "84123456"), .s8,
     .leaf n.nationalNumberPattern (str% "84\\d{6}"), .s6], .s4]

/-- what stands before this territory -/
noncomputable def BI_before : List Node :=
  [.l4, .comment, .s4, .comment, .s4]
/-- its attributes -/
noncomputable def BI_attrs : List (Str × Str) := [(n.id, str% "BI"), (n.countryCode, str% "257"), (n.internationalPrefix, str% "00")]
/-- its content -/
noncomputable def BI : List Node :=
  [.s6,
   .elem n.availableFormats []
    [.s8,
     .elem n.numberFormat [(n.pattern, str% "(\\d{2})(\\d{2})(\\d{2})(\\d{2})")]
      [.s10,
       .leaf n.leadingDigits (str% "[2367]"), .s10,
       .leaf n.format (str% "$1 $2 $3 $4"), .s8], .s6], .s6,
   .elem n.generalDesc []
    [.s8,
     .leaf n.nationalNumberPattern (str% "\n          (?:\n            [267]\\d|\n            31\n          )\\d{6}\n        "), .s6], .s6, .comment, .s6,
   .elem n.fixedLine []
    [.s8,
     .empty n.possibleLengths [(n.national, str% "8")], .s8,
     .leaf n.exampleNumber (str% "22201234"), .s8,
     .leaf n.nationalNumberPattern (str% "\n          (?:\n            22|\n            31\n          )\\d{6}\n        "), .s6], .s6, .comment, .s6,
   .elem n.mobile []
    [.s8,
     .empty n.possibleLengths [(n.national, str% "8")], .s8,
     .leaf n.exampleNumber (str% "79561234"), .s8,
     .leaf n.nationalNumberPattern (str% "\n          (?:\n            29|\n            6[1-9]|\n            7[125-9]\n          )\\d{6}\n        "), .s6], .s4]

/-- what stands before this territory -/
noncomputable def BJ_before : List Node :=
  [.l4, .comment, .s4, .comment, .s4, .comment, .s4]
/-- its attributes -/
noncomputable def BJ_attrs : List (Str × Str) := [(n.id, str% "BJ"), (n.countryCode, str% "229"), (n.internationalPrefix, str% "00"), (n.mobileNumberPortableRegion, str% "true")]
/-- its content -/
noncomputable def BJ : List Node :=
  [.s6,
   .elem n.availableFormats []
    [.s8,
     .elem n.numberFormat [(n.pattern, str% "(\\d{2})(\\d{2})(\\d{2})(\\d{2})")]
      [.s10,
       .leaf n.leadingDigits (str% "8"), .s10,
       .leaf n.format (str% "$1 $2 $3 $4"), .s8], .s8,
     .elem n.numberFormat [(n.pattern, str% "(\\d{2})(\\d{2})(\\d{2})(\\d{2})(\\d{2})")]
      [.s10,
       .leaf n.leadingDigits (str% "0"), .s10,
       .leaf n.format (str% "$1 $2 $3 $4 $5"), .s8], .s6], .s6,
   .elem n.generalDesc []
    [.s8,
     .leaf n.nationalNumberPattern (str% "\n          (?:\n            01\\d|\n            8\n          )\\d{7}\n        "), .s6], .s6, .comment, .s6,
   .elem n.fixedLine []
    [.s8,
     .empty n.possibleLengths [(n.national, str% "10")], .s8,
     .leaf n.exampleNumber (str% "0120211234"), .s8,
     .leaf n.nationalNumberPattern (str% "012\\d{7}"), .s6], .s6, .comment, .s6,
   .elem n.mobile []
    [.s8,
     .empty n.possibleLengths [(n.national, str% "10")], .s8,
     .leaf n.exampleNumber (str% "0195123456"), .s8,
     .leaf n.nationalNumberPattern (str% "\n          01(?:\n            2[5-9]|\n            [4-69]\\d\n          )\\d{6}\n        "), .s6], .s6,
   .elem n.voip []
    [.s8,
     .empty n.possibleLengths [(n.national, str% "8")], .s8,
     .leaf n.exampleNumber (str% "85751234"), .s8,
     .leaf n.nationalNumberPattern (str% "857[58]\\d{4}"), .s6], .s6, .comment, .s6,
   .elem n.uan []
    [.s8,
     .empty n.possibleLengths [(n.national, str% "8")], .s8,
     .leaf n.exampleNumber (str% "81123456"), .s8,
     .leaf n.nationalNumberPattern (str% "81\\d{6}"), .s6], .s4]

/-- what stands before this territory -/
noncomputable def BL_before : List Node :=
  [.l4, .comment, .s4, .comment, .s4, .comment, .s4, .comment, .s4, .comment, .s4]
/-- its attributes -/
noncomputable def BL_attrs : List (Str × Str) := [(n.id, str% "BL"), (n.countryCode, str% "590"), (n.internationalPrefix, str% "00"), (n.nationalPrefix, str% "0"), (n.mobileNumberPortableRegion, str% "true")]
/-- its content -/
noncomputable def BL : List Node :=
  [.s6,
   .elem n.generalDesc []
    [.s8,
     .leaf n.nationalNumberPattern (str% "\n          7090\\d{5}|\n          (?:\n            [56]9|\n            [89]\\d\n          )\\d{7}\n        "), .s6], .s6,
   .elem n.fixedLine []
    [.s8,
     .empty n.possibleLengths [(n.national, str% "9")], .s8,
     .leaf n.exampleNumber (str% "590271234"), .s8,
     .leaf n.nationalNumberPattern (str% "\n          (?:\n            59(?:\n              0(?:\n                2[7-9]|\n                3[3-7]|\n                5[12]|\n                87\n              )|\n              87\\d\n            )|\n            80[6-9]\\d\\d\n          )\\d{4}\n        "), .s6], .s6, .comment, .s6,
   .elem n.mobile []
    [.s8,
     .empty n.possibleLengths [(n.national, str% "9")], .s8,
     .leaf n.exampleNumber (str% "690001234"), .s8,
     .leaf n.nationalNumberPattern (str% "\n          (?:\n            69(?:\n              0\\d\\d|\n              1(?:\n                2[2-9]|\n                3[0-5]\n              )\n            )|\n            7090[0-4]\n          )\\d{4}\n        "), .s6], .s6, .comment, .s6,
   .elem n.tollFree []
    [.s8,
     .empty n.possibleLengths [(n.national, str% "9")], .s8,
     .leaf n.exampleNumber (str% "800012345"), .s8,
     .leaf n.nationalNumberPattern (str% "80[0-5]\\d{6}"), .s6], .s6,
   .elem n.premiumRate []
    [.s8,
     .empty n.possibleLengths [(n.national, str% "9")], .s8,
     .leaf n.exampleNumber (str% "810123456"), .s8,
     .leaf n.nationalNumberPattern (str% "8[129]\\d{7}"), .s6], .s6,
   .elem n.voip []
    [.s8,
     .empty n.possibleLengths [(n.national, str% "9")], .s8,
     .leaf n.exampleNumber (str% "976012345"), .s8,
     .leaf n.nationalNumberPattern (str% "\n          9(?:\n            (?:\n              39[5-7]|\n              76[018]\n            )\\d|\n            475[0-6]\n          )\\d{4}\n        "), .s6], .s4]

/-- the nodes of this module -/
noncomputable def chunk01 : List (List Node × List (Str × Str) × List Node) :=
  [(AS_before, AS_attrs, AS), (AT_before, AT_attrs, AT), (AU_before, AU_attrs, AU), (AW_before, AW_attrs, AW),
   (AX_before, AX_attrs, AX), (AZ_before, AZ_attrs, AZ), (BA_before, BA_attrs, BA), (BB_before, BB_attrs, BB),
   (BD_before, BD_attrs, BD), (BE_before, BE_attrs, BE), (BF_before, BF_attrs, BF), (BG_before, BG_attrs, BG),
   (BH_before, BH_attrs, BH), (BI_before, BI_attrs, BI), (BJ_before, BJ_attrs, BJ), (BL_before, BL_attrs, BL)]

end Phone.Data.X
