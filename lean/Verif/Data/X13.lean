import Verif.Data.XNames
/-! Territories of `/repo/assets/PhoneNumberMetadata.xml` as trees. Generated by `tools/gen_xml.py`; do not edit. -/

set_option maxRecDepth 100000
namespace Phone.Data.X
open Phone.Xml

/-- what stands before this territory -/
noncomputable def SD_before : List Node :=
  [.l4, .comment, .s4, .comment, .s4, .comment, .s4]
/-- its attributes -/
noncomputable def SD_attrs : List (Str × Str) := [(n.id, str% "SD"), (n.countryCode, str% "249"), (n.internationalPrefix, str% "00"), (n.nationalPrefix, str% "0")]
/-- its content -/
noncomputable def SD : List Node :=
  [.s6,
   .elem n.availableFormats []
    [.s8,
     .elem n.numberFormat [(n.pattern, str% "(\\d{2})(\\d{3})(\\d{4})"), (n.nationalPrefixFormattingRule, str% "$NP$FG")]
      [.s10,
       .leaf n.leadingDigits (str% "[19]"), .s10,
       .leaf n.format (str% "$1 $2 $3"), .s8], .s6], .s6,
   .elem n.generalDesc []
    [.s8,
     .leaf n.nationalNumberPattern (str% "[19]\\d{8}"), .s6], .s6, .comment, .s6, .comment, .s6,
   .elem n.fixedLine []
    [.s8,
     .empty n.possibleLengths [(n.national, str% "9")], .s8,
     .leaf n.exampleNumber (str% "153123456"), .s8,
     .leaf n.nationalNumberPattern (str% "\n          1(?:\n            5\\d|\n            8[35-7]\n          )\\d{6}\n        "), .s6], .s6,
   .elem n.mobile []
    [.s8,
     .empty n.possibleLengths [(n.national, str% "9")], .s8,
     .leaf n.exampleNumber (str% "911231234"), .s8,
     .leaf n.nationalNumberPattern (str% "\n          (?:\n            1[0-2]|\n            9[0-3569]\n          )\\d{7}\n        "), .s6], .s4]

/-- what stands before this territory -/
noncomputable def SE_before : List Node :=
  [.l4, .comment, .s4, .comment, .s4, .comment, .s4, .comment, .s4]
/-- its attributes -/
noncomputable def SE_attrs : List (Str × Str) := [(n.id, str% "SE"), (n.countryCode, str% "46"), (n.internationalPrefix, str% "00"), (n.nationalPrefix, str% "0"), (n.mobileNumberPortableRegion, str% "true")]
/-- its content -/
noncomputable def SE : List Node :=
  [.s6,
   .elem n.availableFormats []
    [.s8, .comment, .s8,
     .elem n.numberFormat [(n.pattern, str% "(\\d{2})(\\d{2,3})(\\d{2})"), (n.nationalPrefixFormattingRule, str% "$NP$FG")]
      [.s10,
       .leaf n.leadingDigits (str% "20"), .s10,
       .leaf n.format (str% "$1-$2 $3"), .s10,
       .leaf n.intlFormat (str% "$1 $2 $3"), .s8], .s8, .comment, .s8,
     .elem n.numberFormat [(n.pattern, str% "(\\d{3})(\\d{4})"), (n.nationalPrefixFormattingRule, str% "$NP$FG")]
      [.s10,
       .leaf n.leadingDigits (str% "\n            9(?:\n              00|\n              39|\n              44|\n              9\n            )\n          "), .s10,
       .leaf n.format (str% "$1-$2"), .s10,
       .leaf n.intlFormat (str% "$1 $2"), .s8], .s8, .comment, .s8,
     .elem n.numberFormat [(n.pattern, str% "(\\d{2})(\\d{3})(\\d{2})"), (n.nationalPrefixFormattingRule, str% "$NP$FG")]
      [.s10,
       .leaf n.leadingDigits (str% "\n            [12][136]|\n            3[356]|\n            4[0246]|\n            6[03]|\n            90[1-9]\n          "), .s10,
       .leaf n.format (str% "$1-$2 $3"), .s10,
       .leaf n.intlFormat (str% "$1 $2 $3"), .s8], .s8, .comment, .s8,
     .elem n.numberFormat [(n.pattern, str% "(\\d)(\\d{2,3})(\\d{2})(\\d{2})"), (n.nationalPrefixFormattingRule, str% "$NP$FG")]
      [.s10,
       .leaf n.leadingDigits (str% "8"), .s10,
       .leaf n.format (str% "$1-$2 $3 $4"), .s10,
       .leaf n.intlFormat (str% "$1 $2 $3 $4"), .s8], .s8, .comment, .s8,
     .elem n.numberFormat [(n.pattern, str% "(\\d{3})(\\d{2,3})(\\d{2})"), (n.nationalPrefixFormattingRule, str% "$NP$FG")]
      [.s10,
       .leaf n.leadingDigits (str% "\n            1[2457]|\n            2(?:\n              [247-9]|\n              5[0138]\n            )|\n            3[0247-9]|\n            4[1357-9]|\n            5[0-35-9]|\n            6(?:\n              [125689]|\n              4[02-57]|\n              7[0-2]\n            )|\n            9(?:\n              [125-8]|\n              3[02-5]|\n              4[0-3]\n            )\n          "), .s10,
       .leaf n.format (str% "$1-$2 $3"), .s10,
       .leaf n.intlFormat (str% "$1 $2 $3"), .s8], .s8, .comment, .s8,
     .elem n.numberFormat [(n.pattern, str% "(\\d{3})(\\d{2,3})(\\d{3})"), (n.nationalPrefixFormattingRule, str% "$NP$FG")]
      [.s10,
       .leaf n.leadingDigits (str% "\n            9(?:\n              00|\n              39|\n              44\n            )\n          "), .s10,
       .leaf n.format (str% "$1-$2 $3"), .s10,
       .leaf n.intlFormat (str% "$1 $2 $3"), .s8], .s8, .comment, .s8,
     .elem n.numberFormat [(n.pattern, str% "(\\d{2})(\\d{2,3})(\\d{2})(\\d{2})"), (n.nationalPrefixFormattingRule, str% "$NP$FG")]
      [.s10,
       .leaf n.leadingDigits (str% "\n            1[13689]|\n            2[0136]|\n            3[1356]|\n            4[0246]|\n            54|\n            6[03]|\n            90[1-9]\n          "), .s10,
       .leaf n.format (str% "$1-$2 $3 $4"), .s10,
       .leaf n.intlFormat (str% "$1 $2 $3 $4"), .s8], .s8, .comment, .s8,
     .elem n.numberFormat [(n.pattern, str% "(\\d{2})(\\d{3})(\\d{2})(\\d{2})"), (n.nationalPrefixFormattingRule, str% "$NP$FG")]
      [.s10,
       .leaf n.leadingDigits (str% "\n            10|\n            7\n          "), .s10,
       .leaf n.format (str% "$1-$2 $3 $4"), .s10,
       .leaf n.intlFormat (str% "$1 $2 $3 $4"), .s8], .s8, .comment, .s8,
     .elem n.numberFormat [(n.pattern, str% "(\\d)(\\d{3})(\\d{3})(\\d{2})"), (n.nationalPrefixFormattingRule, str% "$NP$FG")]
      [.s10,
       .leaf n.leadingDigits (str% "8"), .s10,
       .leaf n.format (str% "$1-$2 $3 $4"), .s10,
       .leaf n.intlFormat (str% "$1 $2 $3 $4"), .s8], .s8, .comment, .s8,
     .elem n.numberFormat [(n.pattern, str% "(\\d{3})(\\d{2})(\\d{2})(\\d{2})"), (n.nationalPrefixFormattingRule, str% "$NP$FG")]
      [.s10,
       .leaf n.leadingDigits (str% "\n            [13-5]|\n            2(?:\n              [247-9]|\n              5[0138]\n            )|\n            6(?:\n              [124-689]|\n              7[0-2]\n            )|\n            9(?:\n              [125-8]|\n              3[02-5]|\n              4[0-3]\n            )\n          "), .s10,
       .leaf n.format (str% "$1-$2 $3 $4"), .s10,
       .leaf n.intlFormat (str% "$1 $2 $3 $4"), .s8], .s8, .comment, .s8,
     .elem n.numberFormat [(n.pattern, str% "(\\d{3})(\\d{2})(\\d{2})(\\d{3})"), (n.nationalPrefixFormattingRule, str% "$NP$FG")]
      [.s10,
       .leaf n.leadingDigits (str% "9"), .s10,
       .leaf n.format (str% "$1-$2 $3 $4"), .s10,
       .leaf n.intlFormat (str% "$1 $2 $3 $4"), .s8], .s8, .comment, .s8,
     .elem n.numberFormat [(n.pattern, str% "(\\d{3})(\\d{2})(\\d{3})(\\d{2})(\\d{2})"), (n.nationalPrefixFormattingRule, str% "$NP$FG")]
      [.s10,
       .leaf n.leadingDigits (str% "[26]"), .s10,
       .leaf n.format (str% "$1-$2 $3 $4 $5"), .s10,
       .leaf n.intlFormat (str% "$1 $2 $3 $4 $5"), .s8], .s6], .s6,
   .elem n.generalDesc []
    [.s8,
     .leaf n.nationalNumberPattern (str% "\n          (?:\n            [26]\\d\\d|\n            9\n          )\\d{9}|\n          [1-9]\\d{8}|\n          [1-689]\\d{7}|\n          [1-4689]\\d{6}|\n          2\\d{5}\n        "), .s6], .s6,
   .elem n.fixedLine []
    [.s8,
     .empty n.possibleLengths [(n.national, str% "[7-9]")], .s8,
     .leaf n.exampleNumber (str% "8123456"), .s8,
     .leaf n.nationalNumberPattern (str% "\n          (?:\n            (?:\n              [12][136]|\n              3[356]|\n              4[0246]|\n              6[03]|\n              8\\d\n            )\\d|\n            90[1-9]\n          )\\d{4,6}|\n          (?:\n            1(?:\n              2[0-35]|\n              4[0-4]|\n              5[0-25-9]|\n              7[13-6]|\n              [89]\\d\n            )|\n            2(?:\n              2[0-7]|\n              4[0136-8]|\n              5[0138]|\n              7[018]|\n              8[01]|\n              9[0-57]\n            )|\n            3(?:\n              0[0-4]|\n              1\\d|\n              2[0-25]|\n              4[056]|\n              7[0-2]|\n              8[0-3]|\n              9[023]\n            )|\n            4(?:\n              1[013-8]|\n              3[0135]|\n              5[14-79]|\n              7[0-246-9]|\n              8[0156]|\n              9[0-689]\n            )|\n            5(?:\n              0[0-6]|\n              [15][0-5]|\n              2[0-68]|\n              3[0-4]|\n              4\\d|\n              6[03-5]|\n              7[013]|\n              8[0-79]|\n              9[01]\n            )|\n            6(?:\n              1[1-3]|\n              2[0-4]|\n              4[02-57]|\n              5[0-37]|\n              6[0-3]|\n              7[0-2]|\n              8[0247]|\n              9[0-356]\n            )|\n            9(?:\n              1[0-68]|\n              2\\d|\n              3[02-5]|\n              4[0-3]|\n              5[0-4]|\n              [68][01]|\n              7[0135-8]\n            )\n          )\\d{5,6}\n        "), .s6], .s6,
   .elem n.mobile []
    [.s8,
     .empty n.possibleLengths [(n.national, str% "9")], .s8,
     .leaf n.exampleNumber (str% "701234567"), .s8,
     .leaf n.nationalNumberPattern (str% "7[02369]\\d{7}"), .s6], .s6,
   .elem n.pager []
    [.s8,
     .empty n.possibleLengths [(n.national, str% "9")], .s8,
     .leaf n.exampleNumber (str% "740123456"), .s8,
     .leaf n.nationalNumberPattern (str% "74[02-9]\\d{6}"), .s6], .s6,
   .elem n.tollFree []
    [.s8,
     .empty n.possibleLengths [(n.national, str% "[6-9]")], .s8,
     .leaf n.exampleNumber (str% "20123456"), .s8,
     .leaf n.nationalNumberPattern (str% "20\\d{4,7}"), .s6], .s6,
   .elem n.premiumRate []
    [.s8,
     .empty n.possibleLengths [(n.national, str% "[7-10]")], .s8,
     .leaf n.exampleNumber (str% "9001234567"), .s8,
     .leaf n.nationalNumberPattern (str% "\n          649\\d{6}|\n          99[1-59]\\d{4}(?:\n            \\d{3}\n          )?|\n          9(?:\n            00|\n            39|\n            44\n          )[1-8]\\d{3,6}\n        "), .s6], .s6,
   .elem n.sharedCost []
    [.s8,
     .empty n.possibleLengths [(n.national, str% "9")], .s8,
     .leaf n.exampleNumber (str% "771234567"), .s8,
     .leaf n.nationalNumberPattern (str% "77[0-7]\\d{6}"), .s6], .s6,
   .elem n.personalNumber []
    [.s8,
     .empty n.possibleLengths [(n.national, str% "9")], .s8,
     .leaf n.exampleNumber (str% "751234567"), .s8,
     .leaf n.nationalNumberPattern (str% "75[1-8]\\d{6}"), .s6], .s6,
   .elem n.uan []
    [.s8,
     .empty n.possibleLengths [(n.national, str% "9")], .s8,
     .leaf n.exampleNumber (str% "102345678"), .s8,
     .leaf n.nationalNumberPattern (str% "10[1-8]\\d{6}"), .s6], .s6,
   .elem n.voicemail []
    [.s8,
     .empty n.possibleLengths [(n.national, str% "12")], .s8,
     .leaf n.exampleNumber (str% "254123456789"), .s8,
     .leaf n.nationalNumberPattern (str% "\n          (?:\n            25[245]|\n            67[3-68]\n          )\\d{9}\n        "), .s6], .s4]

/-- what stands before this territory -/
noncomputable def SG_before : List Node :=
  [.l4, .comment, .s4, .comment, .s4, .comment, .s4]
/-- its attributes -/
noncomputable def SG_attrs : List (Str × Str) := [(n.id, str% "SG"), (n.countryCode, str% "65"), (n.internationalPrefix, str% "0[0-3]\\d"), (n.mobileNumberPortableRegion, str% "true")]
/-- its content -/
noncomputable def SG : List Node :=
  [.s6,
   .elem n.availableFormats []
    [.s8,
     .elem n.numberFormat [(n.pattern, str% "(\\d{4,5})")]
      [.s10,
       .leaf n.leadingDigits (str% "\n            1[013-9]|\n            77\n          "), .s10,
       .leaf n.leadingDigits (str% "\n            1(?:\n              [013-8]|\n              9(?:\n                0[1-9]|\n                [1-9]\n              )\n            )|\n            77\n          "), .s10,
       .leaf n.format (str% "$1"), .s10,
       .leaf n.intlFormat (str% "NA"), .s8], .s8,
     .elem n.numberFormat [(n.pattern, str% "(\\d{4})(\\d{4})")]
      [.s10,
       .leaf n.leadingDigits (str% "\n            [369]|\n            8(?:\n              0[1-9]|\n              [1-9]\n            )\n          "), .s10,
       .leaf n.format (str% "$1 $2"), .s8], .s8,
     .elem n.numberFormat [(n.pattern, str% "(\\d{3})(\\d{3})(\\d{4})")]
      [.s10,
       .leaf n.leadingDigits (str% "8"), .s10,
       .leaf n.format (str% "$1 $2 $3"), .s8], .s8,
     .elem n.numberFormat [(n.pattern, str% "(\\d{4})(\\d{4})(\\d{3})")]
      [.s10,
       .leaf n.leadingDigits (str% "7"), .s10,
       .leaf n.format (str% "$1 $2 $3"), .s8], .s8,
     .elem n.numberFormat [(n.pattern, str% "(\\d{4})(\\d{3})(\\d{4})")]
      [.s10,
       .leaf n.leadingDigits (str% "1"), .s10,
       .leaf n.format (str% "$1 $2 $3"), .s8], .s6], .s6,
   .elem n.generalDesc []
    [.s8,
     .leaf n.nationalNumberPattern (str% "\n          (?:\n            (?:\n              1\\d|\n              8\n            )\\d\\d|\n            7000\n          )\\d{7}|\n          [3689]\\d{7}\n        "), .s6], .s6,
   .elem n.fixedLine []
    [.s8,
     .empty n.possibleLengths [(n.national, str% "8")], .s8,
     .leaf n.exampleNumber (str% "61234567"), .s8,
     .leaf n.nationalNumberPattern (str% "\n          662[0-24-9]\\d{4}|\n          6(?:\n            [0-578]\\d|\n            6[013-57-9]|\n            9[0-35-9]\n          )\\d{5}\n        "), .s6], .s6, .comment, .s6,
   .elem n.mobile []
    [.s8,
     .empty n.possibleLengths [(n.national, str% "8")], .s8,
     .leaf n.exampleNumber (str% "81234567"), .s8,
     .leaf n.nationalNumberPattern (str% "\n          80[1-9]\\d{5}|\n          (?:\n            8[1-9]|\n            9[0-8]\n          )\\d{6}\n        "), .s6], .s6,
   .elem n.tollFree []
    [.s8,
     .empty n.possibleLengths [(n.national, str% "10,11")], .s8,
     .leaf n.exampleNumber (str% "18001234567"), .s8,
     .leaf n.nationalNumberPattern (str% "\n          (?:\n            18|\n            8\n          )00\\d{7}\n        "), .s6], .s6,
   .elem n.premiumRate []
    [.s8,
     .empty n.possibleLengths [(n.national, str% "11")], .s8,
     .leaf n.exampleNumber (str% "19001234567"), .s8,
     .leaf n.nationalNumberPattern (str% "1900\\d{7}"), .s6], .s6,
   .elem n.voip []
    [.s8,
     .empty n.possibleLengths [(n.national, str% "8")], .s8,
     .leaf n.exampleNumber (str% "31234567"), .s8,
     .leaf n.nationalNumberPattern (str% "\n          (?:\n            3[12]\\d|\n            666\n          )\\d{5}\n        "), .s6], .s6, .comment, .s6,
   .elem n.uan []
    [.s8,
     .empty n.possibleLengths [(n.national, str% "11")], .s8,
     .leaf n.exampleNumber (str% "70001234567"), .s8,
     .leaf n.nationalNumberPattern (str% "7000\\d{7}"), .s6], .s4]

/-- what stands before this territory -/
noncomputable def SH_before : List Node :=
  [.l4, .comment, .s4, .comment, .s4, .comment, .s4]
/-- its attributes -/
noncomputable def SH_attrs : List (Str × Str) := [(n.id, str% "SH"), (n.mainCountryForCode, str% "true"), (n.countryCode, str% "290"), (n.leadingDigits, str% "[256]"), (n.internationalPrefix, str% "00")]
/-- its content -/
noncomputable def SH : List Node :=
  [.s6,
   .elem n.generalDesc []
    [.s8,
     .leaf n.nationalNumberPattern (str% "\n          (?:\n            [256]\\d|\n            8\n          )\\d{3}\n        "), .s6], .s6, .comment, .s6, .comment, .s6, .comment, .s6,
   .elem n.fixedLine []
    [.s8,
     .empty n.possibleLengths [(n.national, str% "4,5")], .s8,
     .leaf n.exampleNumber (str% "22158"), .s8,
     .leaf n.nationalNumberPattern (str% "\n          2(?:\n            [0-57-9]\\d|\n            6[4-9]\n          )\\d\\d\n        "), .s6], .s6, .comment, .s6,
   .elem n.mobile []
    [.s8,
     .empty n.possibleLengths [(n.national, str% "5")], .s8,
     .leaf n.exampleNumber (str% "51234"), .s8,
     .leaf n.nationalNumberPattern (str% "[56]\\d{4}"), .s6], .s6, .comment, .s6,
   .elem n.voip []
    [.s8,
     .empty n.possibleLengths [(n.national, str% "5")], .s8,
     .leaf n.exampleNumber (str% "26212"), .s8,
     .leaf n.nationalNumberPattern (str% "262\\d\\d"), .s6], .s4]

/-- what stands before this territory -/
noncomputable def SI_before : List Node :=
  [.l4, .comment, .s4, .comment, .s4, .comment, .s4]
/-- its attributes -/
noncomputable def SI_attrs : List (Str × Str) := [(n.id, str% "SI"), (n.countryCode, str% "386"), (n.preferredInternationalPrefix, str% "00"), (n.internationalPrefix, str% "00|10(?:22|66|88|99)"), (n.nationalPrefix, str% "0"), (n.mobileNumberPortableRegion, str% "true")]
/-- its content -/
noncomputable def SI : List Node :=
  [.s6,
   .elem n.availableFormats []
    [.s8,
     .elem n.numberFormat [(n.pattern, str% "(\\d{2})(\\d{3,6})"), (n.nationalPrefixFormattingRule, str% "$NP$FG")]
      [.s10,
       .leaf n.leadingDigits (str% "\n            8[09]|\n            9\n          "), .s10,
       .leaf n.format (str% "$1 $2"), .s8], .s8,
     .elem n.numberFormat [(n.pattern, str% "(\\d{3})(\\d{5})"), (n.nationalPrefixFormattingRule, str% "$NP$FG")]
      [.s10,
       .leaf n.leadingDigits (str% "\n            59|\n            8\n          "), .s10,
       .leaf n.format (str% "$1 $2"), .s8], .s8,
     .elem n.numberFormat [(n.pattern, str% "(\\d{2})(\\d{3})(\\d{3})"), (n.nationalPrefixFormattingRule, str% "$NP$FG")]
      [.s10,
       .leaf n.leadingDigits (str% "\n            [37][01]|\n            4[013]|\n            51|\n            6\n          "), .s10,
       .leaf n.format (str% "$1 $2 $3"), .s8], .s8,
     .elem n.numberFormat [(n.pattern, str% "(\\d)(\\d{3})(\\d{2})(\\d{2})"), (n.nationalPrefixFormattingRule, str% "($NP$FG)")]
      [.s10,
       .leaf n.leadingDigits (str% "[1-57]"), .s10,
       .leaf n.format (str% "$1 $2 $3 $4"), .s8], .s6], .s6,
   .elem n.generalDesc []
    [.s8,
     .leaf n.nationalNumberPattern (str% "\n          [1-7]\\d{7}|\n          8\\d{4,7}|\n          90\\d{4,6}\n        "), .s6], .s6, .comment, .s6,
   .elem n.fixedLine []
    [.s8,
     .empty n.possibleLengths [(n.national, str% "8"), (n.localOnly, str% "7")], .s8,
     .leaf n.exampleNumber (str% "12345678"), .s8,
     .leaf n.nationalNumberPattern (str% "\n          (?:\n            [1-357][2-8]|\n            4[24-8]\n          )\\d{6}\n        "), .s6], .s6, .comment, .s6, .comment, .s6, .comment, .s6,
   .elem n.mobile []
    [.s8,
     .empty n.possibleLengths [(n.national, str% "8")], .s8,
     .leaf n.exampleNumber (str% "31234567"), .s8,
     .leaf n.nationalNumberPattern (str% "\n          65(?:\n            [178]\\d|\n            5[56]|\n            6[01]\n          )\\d{4}|\n          (?:\n            [37][01]|\n            4[013]|\n            51|\n            6[489]\n          )\\d{6}\n        "), .s6], .s6,
   .elem n.tollFree []
    [.s8,
     .empty n.possibleLengths [(n.national, str% "[6-8]")], .s8,
     .leaf n.exampleNumber (str% "80123456"), .s8,
     .leaf n.nationalNumberPattern (str% "80\\d{4,6}"), .s6], .s6, .comment, .s6,
   .elem n.premiumRate []
    [.s8,
     .empty n.possibleLengths [(n.national, str% "[5-8]")], .s8,
     .leaf n.exampleNumber (str% "90123456"), .s8,
     .leaf n.nationalNumberPattern (str% "\n          89[1-3]\\d{2,5}|\n          90\\d{4,6}\n        "), .s6], .s6,
   .elem n.voip []
    [.s8,
     .empty n.possibleLengths [(n.national, str% "8")], .s8,
     .leaf n.exampleNumber (str% "59012345"), .s8,
     .leaf n.nationalNumberPattern (str% "\n          (?:\n            59\\d\\d|\n            8(?:\n              1(?:\n                [67]\\d|\n                8[0-589]\n              )|\n              2(?:\n                0\\d|\n                2[0-37-9]|\n                8[0-2489]\n              )|\n              3[389]\\d\n            )\n          )\\d{4}\n        "), .s6], .s4]

/-- what stands before this territory -/
noncomputable def SJ_before : List Node :=
  [.l4, .comment, .s4, .comment, .s4, .comment, .s4, .comment, .s4]
/-- its attributes -/
noncomputable def SJ_attrs : List (Str × Str) := [(n.id, str% "SJ"), (n.countryCode, str% "47"), (n.leadingDigits, str% "79"), (n.internationalPrefix, str% "00")]
/-- its content -/
noncomputable def SJ : List Node :=
  [.s6,
   .elem n.generalDesc []
    [.s8,
     .leaf n.nationalNumberPattern (str% "\n          0\\d{4}|\n          (?:\n            [489]\\d|\n            79\n          )\\d{6}\n        "), .s6], .s6,
   .elem n.fixedLine []
    [.s8,
     .empty n.possibleLengths [(n.national, str% "8")], .s8,
     .leaf n.exampleNumber (str% "79123456"), .s8,
     .leaf n.nationalNumberPattern (str% "79\\d{6}"), .s6], .s6, .comment, .s6,
   .elem n.mobile []
    [.s8,
     .empty n.possibleLengths [(n.national, str% "8")], .s8,
     .leaf n.exampleNumber (str% "41234567"), .s8,
     .leaf n.nationalNumberPattern (str% "[49]\\d{7}"), .s6], .s6,
   .elem n.tollFree []
    [.s8,
     .empty n.possibleLengths [(n.national, str% "8")], .s8,
     .leaf n.exampleNumber (str% "80012345"), .s8,
     .leaf n.nationalNumberPattern (str% "80[01]\\d{5}"), .s6], .s6,
   .elem n.premiumRate []
    [.s8,
     .empty n.possibleLengths [(n.national, str% "8")], .s8,
     .leaf n.exampleNumber (str% "82012345"), .s8,
     .leaf n.nationalNumberPattern (str% "82[09]\\d{5}"), .s6], .s6,
   .elem n.sharedCost []
    [.s8,
     .empty n.possibleLengths [(n.national, str% "8")], .s8,
     .leaf n.exampleNumber (str% "81021234"), .s8,
     .leaf n.nationalNumberPattern (str% "\n          810(?:\n            0[0-6]|\n            [2-8]\\d\n          )\\d{3}\n        "), .s6], .s6,
   .elem n.personalNumber []
    [.s8,
     .empty n.possibleLengths [(n.national, str% "8")], .s8,
     .leaf n.exampleNumber (str% "88012345"), .s8,
     .leaf n.nationalNumberPattern (str% "880\\d{5}"), .s6], .s6,
   .elem n.voip []
    [.s8,
     .empty n.possibleLengths [(n.national, str% "8")], .s8,
     .leaf n.exampleNumber (str% "85012345"), .s8,
     .leaf n.nationalNumberPattern (str% "85[0-5]\\d{5}"), .s6], .s6, .comment, .s6,
   .elem n.uan []
    [.s8,
     .empty n.possibleLengths [(n.national, str% "5,8")], .s8,
     .leaf n.exampleNumber (str% "02000"), .s8,
     .leaf n.nationalNumberPattern (str% "\n          (?:\n            0[235-9]|\n            81(?:\n              0(?:\n                0[7-9]|\n                1\\d\n              )|\n              5\\d\\d\n            )\n          )\\d{3}\n        "), .s6], .s6,
   .elem n.voicemail []
    [.s8,
     .empty n.possibleLengths [(n.national, str% "8")], .s8,
     .leaf n.exampleNumber (str% "81212345"), .s8,
     .leaf n.nationalNumberPattern (str% "81[23]\\d{5}"), .s6], .s4]

/-- what stands before this territory -/
noncomputable def SK_before : List Node :=
  [.l4, .comment, .s4, .comment, .s4, .comment, .s4, .comment, .s4]
/-- its attributes -/
noncomputable def SK_attrs : List (Str × Str) := [(n.id, str% "SK"), (n.countryCode, str% "421"), (n.internationalPrefix, str% "00"), (n.nationalPrefix, str% "0"), (n.mobileNumberPortableRegion, str% "true")]
/-- its content -/
noncomputable def SK : List Node :=
  [.s6,
   .elem n.availableFormats []
    [.s8,
     .elem n.numberFormat [(n.pattern, str% "(\\d)(\\d{2})(\\d{3,4})"), (n.nationalPrefixFormattingRule, str% "$NP$FG")]
      [.s10,
       .leaf n.leadingDigits (str% "21"), .s10,
       .leaf n.format (str% "$1 $2 $3"), .s8], .s8,
     .elem n.numberFormat [(n.pattern, str% "(\\d{2})(\\d{2})(\\d{2,3})"), (n.nationalPrefixFormattingRule, str% "$NP$FG")]
      [.s10,
       .leaf n.leadingDigits (str% "[3-5][1-8]1"), .s10,
       .leaf n.leadingDigits (str% "[3-5][1-8]1[67]"), .s10,
       .leaf n.format (str% "$1 $2 $3"), .s8], .s8,
     .elem n.numberFormat [(n.pattern, str% "(\\d{4})(\\d{3})"), (n.nationalPrefixFormattingRule, str% "$NP$FG")]
      [.s10,
       .leaf n.leadingDigits (str% "909"), .s10,
       .leaf n.leadingDigits (str% "9090"), .s10,
       .leaf n.format (str% "$1 $2"), .s10,
       .leaf n.intlFormat (str% "NA"), .s8], .s8,
     .elem n.numberFormat [(n.pattern, str% "(\\d)(\\d{3})(\\d{3})(\\d{2})"), (n.nationalPrefixFormattingRule, str% "$NP$FG")]
      [.s10,
       .leaf n.leadingDigits (str% "2"), .s10,
       .leaf n.format (str% "$1 $2 $3 $4"), .s8], .s8,
     .elem n.numberFormat [(n.pattern, str% "(\\d{3})(\\d{3})(\\d{3})"), (n.nationalPrefixFormattingRule, str% "$NP$FG")]
      [.s10,
       .leaf n.leadingDigits (str% "[689]"), .s10,
       .leaf n.format (str% "$1 $2 $3"), .s8], .s8,
     .elem n.numberFormat [(n.pattern, str% "(\\d{2})(\\d{3})(\\d{2})(\\d{2})"), (n.nationalPrefixFormattingRule, str% "$NP$FG")]
      [.s10,
       .leaf n.leadingDigits (str% "[3-5]"), .s10,
       .leaf n.format (str% "$1 $2 $3 $4"), .s8], .s6], .s6,
   .elem n.generalDesc []
    [.s8,
     .leaf n.nationalNumberPattern (str% "\n          [2-689]\\d{8}|\n          [2-59]\\d{6}|\n          [2-5]\\d{5}\n        "), .s6], .s6,
   .elem n.noInternationalDialling []
    [.s8,
     .empty n.possibleLengths [(n.national, str% "7,9")], .s8,
     .leaf n.nationalNumberPattern (str% "\n          9090\\d{3}|\n          (?:\n            602|\n            8(?:\n              00|\n              [5-9]\\d\n            )|\n            9(?:\n              00|\n              [78]\\d\n            )\n          )\\d{6}\n        "), .s6], .s6, .comment, .s6,
   .elem n.fixedLine []
    [.s8,
     .empty n.possibleLengths [(n.national, str% "6,7,9")], .s8,
     .leaf n.exampleNumber (str% "221234567"), .s8,
     .leaf n.nationalNumberPattern (str% "\n          (?:\n            2(?:\n              16|\n              [2-9]\\d{3}\n            )|\n            (?:\n              (?:\n                [3-5][1-8]\\d|\n                819\n              )\\d|\n              601[1-5]\n            )\\d\n          )\\d{4}|\n          (?:\n            2|\n            [3-5][1-8]\n          )1[67]\\d{3}|\n          [3-5][1-8]16\\d\\d\n        "), .s6], .s6, .comment, .s6,
   .elem n.mobile []
    [.s8,
     .empty n.possibleLengths [(n.national, str% "9")], .s8,
     .leaf n.exampleNumber (str% "912123456"), .s8,
     .leaf n.nationalNumberPattern (str% "\n          909[1-9]\\d{5}|\n          9(?:\n            0[1-8]|\n            1[0-24-9]|\n            4[03-57-9]|\n            5\\d\n          )\\d{6}\n        "), .s6], .s6,
   .elem n.pager []
    [.s8,
     .empty n.possibleLengths [(n.national, str% "7")], .s8,
     .leaf n.exampleNumber (str% "9090123"), .s8,
     .leaf n.nationalNumberPattern (str% "9090\\d{3}"), .s6], .s6,
   .elem n.tollFree []
    [.s8,
     .empty n.possibleLengths [(n.national, str% "9")], .s8,
     .leaf n.exampleNumber (str% "800123456"), .s8,
     .leaf n.nationalNumberPattern (str% "800\\d{6}"), .s6], .s6,
   .elem n.premiumRate []
    [.s8,
     .empty n.possibleLengths [(n.national, str% "9")], .s8,
     .leaf n.exampleNumber (str% "900123456"), .s8,
     .leaf n.nationalNumberPattern (str% "\n          9(?:\n            00|\n            [78]\\d\n          )\\d{6}\n        "), .s6], .s6,
   .elem n.sharedCost []
    [.s8,
     .empty n.possibleLengths [(n.national, str% "9")], .s8,
     .leaf n.exampleNumber (str% "850123456"), .s8,
     .leaf n.nationalNumberPattern (str% "8[5-9]\\d{7}"), .s6], .s6,
   .elem n.voip []
    [.s8,
     .empty n.possibleLengths [(n.national, str% "9")], .s8,
     .leaf n.exampleNumber (str% "690123456"), .s8,
     .leaf n.nationalNumberPattern (str% "\n          6(?:\n            02|\n            5[0-4]|\n            9[0-6]\n          )\\d{6}\n        "), .s6], .s6,
   .elem n.uan []
    [.s8,
     .empty n.possibleLengths [(n.national, str% "9")], .s8,
     .leaf n.exampleNumber (str% "961234567"), .s8,
     .leaf n.nationalNumberPattern (str% "96\\d{7}"), .s6], .s4]

/-- what stands before this territory -/
noncomputable def SL_before : List Node :=
  [.l4, .comment, .s4, .comment, .s4]
/-- its attributes -/
noncomputable def SL_attrs : List (Str × Str) := [(n.id, str% "SL"), (n.countryCode, str% "232"), (n.internationalPrefix, str% "00"), (n.nationalPrefix, str% "0")]
/-- its content -/
noncomputable def SL : List Node :=
  [.s6,
   .elem n.availableFormats []
    [.s8, .comment, .s8,
     .elem n.numberFormat [(n.pattern, str% "(\\d{2})(\\d{6})"), (n.nationalPrefixFormattingRule, str% "($NP$FG)")]
      [.s10,
       .leaf n.leadingDigits (str% "[236-9]"), .s10,
       .leaf n.format (str% "$1 $2"), .s8], .s6], .s6,
   .elem n.generalDesc []
    [.s8,
     .leaf n.nationalNumberPattern (str% "\n          (?:\n            [237-9]\\d|\n            66\n          )\\d{6}\n        "), .s6], .s6,
   .elem n.fixedLine []
    [.s8,
     .empty n.possibleLengths [(n.national, str% "8"), (n.localOnly, str% "6")], .s8,
     .leaf n.exampleNumber (str% "22221234"), .s8,
     .leaf n.nationalNumberPattern (str% "22[2-4][2-9]\\d{4}"), .s6], .s6,
   .elem n.mobile []
    [.s8,
     .empty n.possibleLengths [(n.national, str% "8")], .s8,
     .leaf n.exampleNumber (str% "25123456"), .s8,
     .leaf n.nationalNumberPattern (str% "\n          (?:\n            25|\n            3[0-5]|\n            66|\n            7\\d|\n            8[08]|\n            9[09]\n          )\\d{6}\n        "), .s6], .s4]

/-- what stands before this territory -/
noncomputable def SM_before : List Node :=
  [.l4, .comment, .s4, .comment, .s4, .comment, .s4, .comment, .s4, .comment, .s4, .comment, .s4]
/-- its attributes -/
noncomputable def SM_attrs : List (Str × Str) := [(n.id, str% "SM"), (n.countryCode, str% "378"), (n.internationalPrefix, str% "00"), (n.nationalPrefixForParsing, str% "([89]\\d{5})$"), (n.nationalPrefixTransformRule, str% "0549$1")]
/-- its content -/
noncomputable def SM : List Node :=
  [.s6,
   .elem n.availableFormats []
    [.s8,
     .elem n.numberFormat [(n.pattern, str% "(\\d{6})")]
      [.s10,
       .leaf n.leadingDigits (str% "[89]"), .s10,
       .leaf n.format (str% "$1"), .s10,
       .leaf n.intlFormat (str% "NA"), .s8], .s8, .comment, .s8,
     .elem n.numberFormat [(n.pattern, str% "(\\d{2})(\\d{2})(\\d{2})(\\d{2})")]
      [.s10,
       .leaf n.leadingDigits (str% "[5-7]"), .s10,
       .leaf n.format (str% "$1 $2 $3 $4"), .s8], .s8, .comment, .s8,
     .elem n.numberFormat [(n.pattern, str% "(\\d{4})(\\d{6})")]
      [.s10,
       .leaf n.leadingDigits (str% "0"), .s10,
       .leaf n.format (str% "$1 $2"), .s8], .s6], .s6,
   .elem n.generalDesc []
    [.s8,
     .leaf n.nationalNumberPattern (str% "\n          (?:\n            0549|\n            [5-7]\\d\n          )\\d{6}\n        "), .s6], .s6, .comment, .s6,
   .elem n.fixedLine []
    [.s8,
     .empty n.possibleLengths [(n.national, str% "10"), (n.localOnly, str% "6")], .s8,
     .leaf n.exampleNumber (str% "0549886377"), .s8,
     .leaf n.nationalNumberPattern (str% "\n          0549(?:\n            8[0157-9]|\n            9\\d\n          )\\d{4}\n        "), .s6], .s6,
   .elem n.mobile []
    [.s8,
     .empty n.possibleLengths [(n.national, str% "8")], .s8,
     .leaf n.exampleNumber (str% "66661212"), .s8,
     .leaf n.nationalNumberPattern (str% "6[16]\\d{6}"), .s6], .s6, .comment, .s6,
   .elem n.premiumRate []
    [.s8,
     .empty n.possibleLengths [(n.national, str% "8")], .s8,
     .leaf n.exampleNumber (str% "71123456"), .s8,
     .leaf n.nationalNumberPattern (str% "7[178]\\d{6}"), .s6], .s6,
   .elem n.voip []
    [.s8,
     .empty n.possibleLengths [(n.national, str% "8")], .s8,
     .leaf n.exampleNumber (str% "58001110"), .s8,
     .leaf n.nationalNumberPattern (str% "5[158]\\d{6}"), .s6], .s4]

/-- what stands before this territory -/
noncomputable def SN_before : List Node :=
  [.l4, .comment, .s4, .comment, .s4, .comment, .s4]
/-- its attributes -/
noncomputable def SN_attrs : List (Str × Str) := [(n.id, str% "SN"), (n.countryCode, str% "221"), (n.internationalPrefix, str% "00")]
/-- its content -/
noncomputable def SN : List Node :=
  [.s6,
   .elem n.availableFormats []
    [.s8,
     .elem n.numberFormat [(n.pattern, str% "(\\d{3})(\\d{2})(\\d{2})(\\d{2})")]
      [.s10,
       .leaf n.leadingDigits (str% "8"), .s10,
       .leaf n.format (str% "$1 $2 $3 $4"), .s8], .s8, .comment, .s8,
     .elem n.numberFormat [(n.pattern, str% "(\\d{2})(\\d{3})(\\d{2})(\\d{2})")]
      [.s10,
       .leaf n.leadingDigits (str% "[379]"), .s10,
       .leaf n.format (str% "$1 $2 $3 $4"), .s8], .s6], .s6,
   .elem n.generalDesc []
    [.s8,
     .leaf n.nationalNumberPattern (str% "\n          (?:\n            [378]\\d|\n            93\n          )\\d{7}\n        "), .s6], .s6,
   .elem n.fixedLine []
    [.s8,
     .empty n.possibleLengths [(n.national, str% "9")], .s8,
     .leaf n.exampleNumber (str% "301012345"), .s8,
     .leaf n.nationalNumberPattern (str% "\n          3(?:\n            0(?:\n              1[0-2]|\n              80\n            )|\n            282|\n            3(?:\n              8[1-9]|\n              9[3-9]\n            )|\n            611\n          )\\d{5}\n        "), .s6], .s6,
   .elem n.mobile []
    [.s8,
     .empty n.possibleLengths [(n.national, str% "9")], .s8,
     .leaf n.exampleNumber (str% "701234567"), .s8,
     .leaf n.nationalNumberPattern (str% "\n          7(?:\n            [015-8]\\d|\n            21|\n            90\n          )\\d{6}\n        "), .s6], .s6,
   .elem n.tollFree []
    [.s8,
     .empty n.possibleLengths [(n.national, str% "9")], .s8,
     .leaf n.exampleNumber (str% "800123456"), .s8,
     .leaf n.nationalNumberPattern (str% "800\\d{6}"), .s6], .s6, .comment, .s6,
   .elem n.premiumRate []
    [.s8,
     .empty n.possibleLengths [(n.national, str% "9")], .s8,
     .leaf n.exampleNumber (str% "884123456"), .s8,
     .leaf n.nationalNumberPattern (str% "88[4689]\\d{6}"), .s6], .s6,
   .elem n.sharedCost []
    [.s8,
     .empty n.possibleLengths [(n.national, str% "9")], .s8,
     .leaf n.exampleNumber (str% "810123456"), .s8,
     .leaf n.nationalNumberPattern (str% "81[02468]\\d{6}"), .s6], .s6, .comment, .s6,
   .elem n.voip []
    [.s8,
     .empty n.possibleLengths [(n.national, str% "9")], .s8,
     .leaf n.exampleNumber (str% "933301234"), .s8,
     .leaf n.nationalNumberPattern (str% "\n          (?:\n            3(?:\n              392|\n              9[01]\\d\n            )\\d|\n            93(?:\n              3[13]0|\n              929\n            )\n          )\\d{4}\n        "), .s6], .s4]

/-- what stands before this territory -/
noncomputable def SO_before : List Node :=
  [.l4, .comment, .s4, .comment, .s4, .comment, .s4, .comment, .s4]
/-- its attributes -/
noncomputable def SO_attrs : List (Str × Str) := [(n.id, str% "SO"), (n.countryCode, str% "252"), (n.internationalPrefix, str% "00"), (n.nationalPrefix, str% "0")]
/-- its content -/
noncomputable def SO : List Node :=
  [.s6,
   .elem n.availableFormats []
    [.s8,
     .elem n.numberFormat [(n.pattern, str% "(\\d{2})(\\d{4})")]
      [.s10,
       .leaf n.leadingDigits (str% "8[125]"), .s10,
       .leaf n.format (str% "$1 $2"), .s8], .s8,
     .elem n.numberFormat [(n.pattern, str% "(\\d{6})")]
      [.s10,
       .leaf n.leadingDigits (str% "[134]"), .s10,
       .leaf n.format (str% "$1"), .s8], .s8, .comment, .s8,
     .elem n.numberFormat [(n.pattern, str% "(\\d)(\\d{6})")]
      [.s10,
       .leaf n.leadingDigits (str% "\n            [15]|\n            2[0-79]|\n            3[0-46-8]|\n            4[0-7]\n          "), .s10,
       .leaf n.format (str% "$1 $2"), .s8], .s8,
     .elem n.numberFormat [(n.pattern, str% "(\\d{2})(\\d{5,7})")]
      [.s10,
       .leaf n.leadingDigits (str% "\n            1|\n            28|\n            9[2-9]\n          "), .s10,
       .leaf n.format (str% "$1 $2"), .s8], .s8,
     .elem n.numberFormat [(n.pattern, str% "(\\d)(\\d{7})")]
      [.s10,
       .leaf n.leadingDigits (str% "\n            [267]|\n            904\n          "), .s10,
       .leaf n.format (str% "$1 $2"), .s8], .s8,
     .elem n.numberFormat [(n.pattern, str% "(\\d{2})(\\d{3})(\\d{4})")]
      [.s10,
       .leaf n.leadingDigits (str% "[346-9]"), .s10,
       .leaf n.format (str% "$1 $2 $3"), .s8], .s6], .s6,
   .elem n.generalDesc []
    [.s8,
     .leaf n.nationalNumberPattern (str% "\n          [346-9]\\d{8}|\n          [12679]\\d{7}|\n          [1-5]\\d{6}|\n          [1348]\\d{5}\n        "), .s6], .s6, .comment, .s6,
   .elem n.fixedLine []
    [.s8,
     .empty n.possibleLengths [(n.national, str% "6,7")], .s8,
     .leaf n.exampleNumber (str% "4012345"), .s8,
     .leaf n.nationalNumberPattern (str% "\n          (?:\n            1\\d|\n            2[0-79]|\n            3[0-46-8]|\n            4[0-7]|\n            5[57-9]\n          )\\d{5}|\n          (?:\n            [134]\\d|\n            8[125]\n          )\\d{4}\n        "), .s6], .s6, .comment, .s6,
   .elem n.mobile []
    [.s8,
     .empty n.possibleLengths [(n.national, str% "[7-9]")], .s8,
     .leaf n.exampleNumber (str% "71123456"), .s8,
     .leaf n.nationalNumberPattern (str% "\n          (?:\n            (?:\n              15|\n              (?:\n                3[59]|\n                4[89]|\n                6\\d|\n                7[0-35-9]|\n                8[08]\n              )\\d|\n              9(?:\n                0\\d|\n                [2-9]\n              )\n            )\\d|\n            2(?:\n              4\\d|\n              8\n            )\n          )\\d{5}|\n          (?:\n            [67]\\d\\d|\n            904\n          )\\d{5}\n        "), .s6], .s4]

/-- what stands before this territory -/
noncomputable def SR_before : List Node :=
  [.l4, .comment, .s4, .comment, .s4]
/-- its attributes -/
noncomputable def SR_attrs : List (Str × Str) := [(n.id, str% "SR"), (n.countryCode, str% "597"), (n.internationalPrefix, str% "00")]
/-- its content -/
noncomputable def SR : List Node :=
  [.s6,
   .elem n.availableFormats []
    [.s8,
     .elem n.numberFormat [(n.pattern, str% "(\\d{2})(\\d{2})(\\d{2})")]
      [.s10,
       .leaf n.leadingDigits (str% "56"), .s10,
       .leaf n.format (str% "$1-$2-$3"), .s8], .s8, .comment, .s8,
     .elem n.numberFormat [(n.pattern, str% "(\\d{3})(\\d{3})")]
      [.s10,
       .leaf n.leadingDigits (str% "[2-5]"), .s10,
       .leaf n.format (str% "$1-$2"), .s8], .s8,
     .elem n.numberFormat [(n.pattern, str% "(\\d{3})(\\d{4})")]
      [.s10,
       .leaf n.leadingDigits (str% "[6-9]"), .s10,
       .leaf n.format (str% "$1-$2"), .s8], .s6], .s6,
   .elem n.generalDesc []
    [.s8,
     .leaf n.nationalNumberPattern (str% "\n          (?:\n            [2-5]|\n            [6-9]\\d\n          )\\d{5}\n        "), .s6], .s6, .comment, .s6,
   .elem n.fixedLine []
    [.s8,
     .empty n.possibleLengths [(n.national, str% "6")], .s8,
     .leaf n.exampleNumber (str% "211234"), .s8,
     .leaf n.nationalNumberPattern (str% "\n          (?:\n            2[1-3]|\n            3[0-7]|\n            4\\d|\n            5[2-578]\n          )\\d{4}\n        "), .s6], .s6,
   .elem n.mobile []
    [.s8,
     .empty n.possibleLengths [(n.national, str% "7")], .s8,
     .leaf n.exampleNumber (str% "7412345"), .s8,
     .leaf n.nationalNumberPattern (str% "\n          (?:\n            6[08]|\n            7[124-7]|\n            8[1-9]\n          )\\d{5}\n        "), .s6], .s6,
   .elem n.tollFree []
    [.s8,
     .empty n.possibleLengths [(n.national, str% "7")], .s8,
     .leaf n.exampleNumber (str% "8012345"), .s8,
     .leaf n.nationalNumberPattern (str% "80\\d{5}"), .s6], .s6,
   .elem n.premiumRate []
    [.s8,
     .empty n.possibleLengths [(n.national, str% "7")], .s8,
     .leaf n.exampleNumber (str% "9012345"), .s8,
     .leaf n.nationalNumberPattern (str% "90\\d{5}"), .s6], .s6,
   .elem n.voip []
    [.s8,
     .empty n.possibleLengths [(n.national, str% "6,7")], .s8,
     .leaf n.exampleNumber (str% "561234"), .s8,
     .leaf n.nationalNumberPattern (str% "\n          (?:\n            56|\n            91\\d\n          )\\d{4}\n        "), .s6], .s4]

/-- what stands before this territory -/
noncomputable def SS_before : List Node :=
  [.l4, .comment, .s4, .comment, .s4, .comment, .s4]
/-- its attributes -/
noncomputable def SS_attrs : List (Str × Str) := [(n.id, str% "SS"), (n.countryCode, str% "211"), (n.internationalPrefix, str% "00"), (n.nationalPrefix, str% "0")]
/-- its content -/
noncomputable def SS : List Node :=
  [.s6,
   .elem n.availableFormats []
    [.s8,
     .elem n.numberFormat [(n.pattern, str% "(\\d{3})(\\d{3})(\\d{3})"), (n.nationalPrefixFormattingRule, str% "$NP$FG")]
      [.s10,
       .leaf n.leadingDigits (str% "[19]"), .s10,
       .leaf n.format (str% "$1 $2 $3"), .s8], .s6], .s6,
   .elem n.generalDesc []
    [.s8,
     .leaf n.nationalNumberPattern (str% "[19]\\d{8}"), .s6], .s6,
   .elem n.fixedLine []
    [.s8,
     .empty n.possibleLengths [(n.national, str% "9")], .s8,
     .leaf n.exampleNumber (str% "181234567"), .s8,
     .leaf n.nationalNumberPattern (str% "1[89]\\d{7}"), .s6], .s6,
   .elem n.mobile []
    [.s8,
     .empty n.possibleLengths [(n.national, str% "9")], .s8,
     .leaf n.exampleNumber (str% "977123456"), .s8,
     .leaf n.nationalNumberPattern (str% "\n          (?:\n            12|\n            9[1257-9]\n          )\\d{7}\n        "), .s6], .s4]

/-- what stands before this territory -/
noncomputable def ST_before : List Node :=
  [.l4, .comment, .s4, .comment, .s4]
/-- its attributes -/
noncomputable def ST_attrs : List (Str × Str) := [(n.id, str% "ST"), (n.countryCode, str% "239"), (n.internationalPrefix, str% "00")]
/-- its content -/
noncomputable def ST : List Node :=
  [.s6,
   .elem n.availableFormats []
    [.s8,
     .elem n.numberFormat [(n.pattern, str% "(\\d{3})(\\d{4})")]
      [.s10,
       .leaf n.leadingDigits (str% "[29]"), .s10,
       .leaf n.format (str% "$1 $2"), .s8], .s6], .s6,
   .elem n.generalDesc []
    [.s8,
     .leaf n.nationalNumberPattern (str% "\n          (?:\n            22|\n            9\\d\n          )\\d{5}\n        "), .s6], .s6,
   .elem n.fixedLine []
    [.s8,
     .empty n.possibleLengths [(n.national, str% "7")], .s8,
     .leaf n.exampleNumber (str% "2221234"), .s8,
     .leaf n.nationalNumberPattern (str% "22\\d{5}"), .s6], .s6, .comment, .s6,
   .elem n.mobile []
    [.s8,
     .empty n.possibleLengths [(n.national, str% "7")], .s8,
     .leaf n.exampleNumber (str% "9812345"), .s8,
     .leaf n.nationalNumberPattern (str% "\n          900[5-9]\\d{3}|\n          9(?:\n            0[1-9]|\n            [89]\\d\n          )\\d{4}\n        "), .s6], .s4]

/-- what stands before this territory -/
noncomputable def SV_before : List Node :=
  [.l4, .comment, .s4, .comment, .s4, .comment, .s4]
/-- its attributes -/
noncomputable def SV_attrs : List (Str × Str) := [(n.id, str% "SV"), (n.countryCode, str% "503"), (n.internationalPrefix, str% "00")]
/-- its content -/
noncomputable def SV : List Node :=
  [.s6,
   .elem n.availableFormats []
    [.s8,
     .elem n.numberFormat [(n.pattern, str% "(\\d{3})(\\d{4})")]
      [.s10,
       .leaf n.leadingDigits (str% "[89]"), .s10,
       .leaf n.format (str% "$1 $2"), .s8], .s8,
     .elem n.numberFormat [(n.pattern, str% "(\\d{4})(\\d{4})")]
      [.s10,
       .leaf n.leadingDigits (str% "[25-7]"), .s10,
       .leaf n.format (str% "$1 $2"), .s8], .s8,
     .elem n.numberFormat [(n.pattern, str% "(\\d{3})(\\d{4})(\\d{4})")]
      [.s10,
       .leaf n.leadingDigits (str% "[89]"), .s10,
       .leaf n.format (str% "$1 $2 $3"), .s8], .s6], .s6,
   .elem n.generalDesc []
    [.s8,
     .leaf n.nationalNumberPattern (str% "\n          [25-7]\\d{7}|\n          (?:\n            80\\d|\n            900\n          )\\d{4}(?:\n            \\d{4}\n          )?\n        "), .s6], .s6, .comment, .s6,
   .elem n.fixedLine []
    [.s8,
     .empty n.possibleLengths [(n.national, str% "8")], .s8,
     .leaf n.exampleNumber (str% "21234567"), .s8,
     .leaf n.nationalNumberPattern (str% "\n          2(?:\n            79(?:\n              0[0347-9]|\n              [1-9]\\d\n            )|\n            89(?:\n              0[024589]|\n              [1-9]\\d\n            )\n          )\\d{3}|\n          2(?:\n            [1-69]\\d|\n            [78][0-8]\n          )\\d{5}\n        "), .s6], .s6,
   .elem n.mobile []
    [.s8,
     .empty n.possibleLengths [(n.national, str% "8")], .s8,
     .leaf n.exampleNumber (str% "70123456"), .s8,
     .leaf n.nationalNumberPattern (str% "[5-7]\\d{7}"), .s6], .s6, .comment, .s6,
   .elem n.tollFree []
    [.s8,
     .empty n.possibleLengths [(n.national, str% "7,11")], .s8,
     .leaf n.exampleNumber (str% "8001234"), .s8,
     .leaf n.nationalNumberPattern (str% "\n          800\\d{8}|\n          80[01]\\d{4}\n        "), .s6], .s6, .comment, .s6,
   .elem n.premiumRate []
    [.s8,
     .empty n.possibleLengths [(n.national, str% "7,11")], .s8,
     .leaf n.exampleNumber (str% "9001234"), .s8,
     .leaf n.nationalNumberPattern (str% "\n          900\\d{4}(?:\n            \\d{4}\n          )?\n        "), .s6], .s4]

/-- what stands before this territory -/
noncomputable def SX_before : List Node :=
  [.l4, .comment, .s4, .comment, .s4, .comment, .s4, .comment, .s4]
/-- its attributes -/
noncomputable def SX_attrs : List (Str × Str) := [(n.id, str% "SX"), (n.countryCode, str% "1"), (n.leadingDigits, str% "721"), (n.internationalPrefix, str% "011"), (n.nationalPrefix, str% "1"), (n.nationalPrefixForParsing, str% "(5\\d{6})$|1"), (n.nationalPrefixTransformRule, str% "721$1"), (n.mobileNumberPortableRegion, str% "true")]
/-- its content -/
noncomputable def SX : List Node :=
  [.s6,
   .elem n.generalDesc []
    [.s8,
     .leaf n.nationalNumberPattern (str% "\n          7215\\d{6}|\n          (?:\n            [58]\\d\\d|\n            900\n          )\\d{7}\n        "), .s6], .s6,
   .elem n.fixedLine []
    [.s8,
     .empty n.possibleLengths [(n.national, str% "10"), (n.localOnly, str% "7")], .s8,
     .leaf n.exampleNumber (str% "7215425678"), .s8,
     .leaf n.nationalNumberPattern (str% "\n          7215(?:\n            4[2-8]|\n            8[39]|\n            9[056]\n          )\\d{4}\n        "), .s6], .s6, .comment, .s6,
   .elem n.mobile []
    [.s8,
     .empty n.possibleLengths [(n.national, str% "10"), (n.localOnly, str% "7")], .s8,
     .leaf n.exampleNumber (str% "7215205678"), .s8,
     .leaf n.nationalNumberPattern (str% "\n          7215(?:\n            1[02]|\n            2\\d|\n            5[034679]|\n            8[0-24-8]\n          )\\d{4}\n        "), .s6], .s6,
   .elem n.tollFree []
    [.s8,
     .empty n.possibleLengths [(n.national, str% "10")], .s8,
     .leaf n.exampleNumber (str% "8002123456"), .s8,
     .leaf n.nationalNumberPattern (str% "\n          8(?:\n            00|\n            33|\n            44|\n            55|\n            66|\n            77|\n            88\n          )[2-9]\\d{6}\n        "), .s6], .s6,
   .elem n.premiumRate []
    [.s8,
     .empty n.possibleLengths [(n.national, str% "10")], .s8,
     .leaf n.exampleNumber (str% "9002123456"), .s8,
     .leaf n.nationalNumberPattern (str% "900[2-9]\\d{6}"), .s6], .s6, .comment, .s6,
   .elem n.personalNumber []
    [.s8,
     .empty n.possibleLengths [(n.national, str% "10")], .s8,
     .leaf n.exampleNumber (str% "5002345678"), .s8,
     .leaf n.nationalNumberPattern (str% "\n          52(?:\n            3(?:\n              [2-46-9][02-9]\\d|\n              5(?:\n                [02-46-9]\\d|\n                5[0-46-9]\n              )\n            )|\n            4(?:\n              [2-478][02-9]\\d|\n              5(?:\n                [034]\\d|\n                2[024-9]|\n                5[0-46-9]\n              )|\n              6(?:\n                0[1-9]|\n                [2-9]\\d\n              )|\n              9(?:\n                [05-9]\\d|\n                2[0-5]|\n                49\n              )\n            )\n          )\\d{4}|\n          52[34][2-9]1[02-9]\\d{4}|\n          5(?:\n            00|\n            2[125-9]|\n            3[23]|\n            44|\n            66|\n            77|\n            88\n          )[2-9]\\d{6}\n        "), .s6], .s4]

/-- what stands before this territory -/
noncomputable def SY_before : List Node :=
  [.l4, .comment, .s4, .comment, .s4, .comment, .s4, .comment, .s4]
/-- its attributes -/
noncomputable def SY_attrs : List (Str × Str) := [(n.id, str% "SY"), (n.countryCode, str% "963"), (n.internationalPrefix, str% "00"), (n.nationalPrefix, str% "0")]
/-- its content -/
noncomputable def SY : List Node :=
  [.s6,
   .elem n.availableFormats []
    [.s8,
     .elem n.numberFormat [(n.pattern, str% "(\\d{2})(\\d{3})(\\d{3,4})"), (n.nationalPrefixFormattingRule, str% "$NP$FG"), (n.nationalPrefixOptionalWhenFormatting, str% "true")]
      [.s10,
       .leaf n.leadingDigits (str% "\n            [1-4]|\n            5[1-3]\n          "), .s10,
       .leaf n.format (str% "$1 $2 $3"), .s8], .s8,
     .elem n.numberFormat [(n.pattern, str% "(\\d{3})(\\d{3})(\\d{3})"), (n.nationalPrefixFormattingRule, str% "$NP$FG"), (n.nationalPrefixOptionalWhenFormatting, str% "true")]
      [.s10,
       .leaf n.leadingDigits (str% "[59]"), .s10,
       .leaf n.format (str% "$1 $2 $3"), .s8], .s6], .s6,
   .elem n.generalDesc []
    [.s8,
     .leaf n.nationalNumberPattern (str% "\n          [1-359]\\d{8}|\n          [1-5]\\d{7}\n        "), .s6], .s6, .comment, .s6,
   .elem n.fixedLine []
    [.s8,
     .empty n.possibleLengths [(n.national, str% "8,9"), (n.localOnly, str% "6,7")], .s8,
     .leaf n.exampleNumber (str% "112345678"), .s8,
     .leaf n.nationalNumberPattern (str% "\n          21\\d{6,7}|\n          (?:\n            1(?:\n              [14]\\d|\n              [2356]\n            )|\n            2[235]|\n            3(?:\n              [13]\\d|\n              4\n            )|\n            4[134]|\n            5[1-3]\n          )\\d{6}\n        "), .s6], .s6, .comment, .s6,
   .elem n.mobile []
    [.s8,
     .empty n.possibleLengths [(n.national, str% "9")], .s8,
     .leaf n.exampleNumber (str% "944567890"), .s8,
     .leaf n.nationalNumberPattern (str% "\n          (?:\n            50|\n            9[1-9]\n          )\\d{7}\n        "), .s6], .s4]

/-- what stands before this territory -/
noncomputable def SZ_before : List Node :=
  [.l4, .comment, .s4, .comment, .s4]
/-- its attributes -/
noncomputable def SZ_attrs : List (Str × Str) := [(n.id, str% "SZ"), (n.countryCode, str% "268"), (n.internationalPrefix, str% "00")]
/-- its content -/
noncomputable def SZ : List Node :=
  [.s6,
   .elem n.availableFormats []
    [.s8,
     .elem n.numberFormat [(n.pattern, str% "(\\d{4})(\\d{4})")]
      [.s10,
       .leaf n.leadingDigits (str% "[0237]"), .s10,
       .leaf n.format (str% "$1 $2"), .s8], .s8,
     .elem n.numberFormat [(n.pattern, str% "(\\d{5})(\\d{4})")]
      [.s10,
       .leaf n.leadingDigits (str% "9"), .s10,
       .leaf n.format (str% "$1 $2"), .s8], .s6], .s6,
   .elem n.generalDesc []
    [.s8,
     .leaf n.nationalNumberPattern (str% "\n          0800\\d{4}|\n          (?:\n            [237]\\d|\n            900\n          )\\d{6}\n        "), .s6], .s6,
   .elem n.noInternationalDialling []
    [.s8,
     .empty n.possibleLengths [(n.national, str% "8")], .s8,
     .leaf n.nationalNumberPattern (str% "0800\\d{4}"), .s6], .s6,
   .elem n.fixedLine []
    [.s8,
     .empty n.possibleLengths [(n.national, str% "8")], .s8,
     .leaf n.exampleNumber (str% "22171234"), .s8,
     .leaf n.nationalNumberPattern (str% "[23][2-5]\\d{6}"), .s6], .s6,
   .elem n.mobile []
    [.s8,
     .empty n.possibleLengths [(n.national, str% "8")], .s8,
     .leaf n.exampleNumber (str% "76123456"), .s8,
     .leaf n.nationalNumberPattern (str% "7[5-9]\\d{6}"), .s6], .s6,
   .elem n.tollFree []
    [.s8,
     .empty n.possibleLengths [(n.national, str% "8")], .s8,
     .leaf n.exampleNumber (str% "08001234"), .s8,
     .leaf n.nationalNumberPattern (str% "0800\\d{4}"), .s6], .s6,
   .elem n.premiumRate []
    [.s8,
     .empty n.possibleLengths [(n.national, str% "9")], .s8,
     .leaf n.exampleNumber (str% "900012345"), .s8,
     .leaf n.nationalNumberPattern (str% "900\\d{6}"), .s6], .s6,
   .elem n.voip []
    [.s8,
     .empty n.possibleLengths [(n.national, str% "8")], .s8,
     .leaf n.exampleNumber (str% "70012345"), .s8,
     .leaf n.nationalNumberPattern (str% "70\\d{6}"), .s6], .s4]

/-- what stands before this territory -/
noncomputable def TA_before : List Node :=
  [.l4, .comment, .s4, .comment, .s4, .comment, .s4]
/-- its attributes -/
noncomputable def TA_attrs : List (Str × Str) := [(n.id, str% "TA"), (n.countryCode, str% "290"), (n.leadingDigits, str% "8"), (n.internationalPrefix, str% "00")]
/-- its content -/
noncomputable def TA : List Node :=
  [.s6,
   .elem n.generalDesc []
    [.s8,
     .leaf n.nationalNumberPattern (str% "8\\d{3}"), .s6], .s6,
   .elem n.fixedLine []
    [.s8,
     .empty n.possibleLengths [(n.national, str% "4")], .s8,
     .leaf n.exampleNumber (str% "8999"), .s8,
     .leaf n.nationalNumberPattern (str% "8\\d{3}"), .s6], .s4]

/-- what stands before this territory -/
noncomputable def TC_before : List Node :=
  [.l4, .comment, .s4, .comment, .s4, .comment, .s4]
/-- its attributes -/
noncomputable def TC_attrs : List (Str × Str) := [(n.id, str% "TC"), (n.countryCode, str% "1"), (n.leadingDigits, str% "649"), (n.internationalPrefix, str% "011"), (n.nationalPrefix, str% "1"), (n.nationalPrefixForParsing, str% "([2-479]\\d{6})$|1"), (n.nationalPrefixTransformRule, str% "649$1"), (n.mobileNumberPortableRegion, str% "true")]
/-- its content -/
noncomputable def TC : List Node :=
  [.s6,
   .elem n.generalDesc []
    [.s8,
     .leaf n.nationalNumberPattern (str% "\n          (?:\n            [58]\\d\\d|\n            649|\n            900\n          )\\d{7}\n        "), .s6], .s6,
   .elem n.fixedLine []
    [.s8,
     .empty n.possibleLengths [(n.national, str% "10"), (n.localOnly, str% "7")], .s8,
     .leaf n.exampleNumber (str% "6497121234"), .s8,
     .leaf n.nationalNumberPattern (str% "\n          649(?:\n            266|\n            712|\n            9(?:\n              4\\d|\n              50\n            )\n          )\\d{4}\n        "), .s6], .s6, .comment, .s6,
   .elem n.mobile []
    [.s8,
     .empty n.possibleLengths [(n.national, str% "10"), (n.localOnly, str% "7")], .s8,
     .leaf n.exampleNumber (str% "6492311234"), .s8,
     .leaf n.nationalNumberPattern (str% "\n          649(?:\n            2(?:\n              3[129]|\n              4[1-79]\n            )|\n            3\\d\\d|\n            4[34][1-3]\n          )\\d{4}\n        "), .s6], .s6,
   .elem n.tollFree []
    [.s8,
     .empty n.possibleLengths [(n.national, str% "10")], .s8,
     .leaf n.exampleNumber (str% "8002345678"), .s8,
     .leaf n.nationalNumberPattern (str% "\n          8(?:\n            00|\n            33|\n            44|\n            55|\n            66|\n            77|\n            88\n          )[2-9]\\d{6}\n        "), .s6], .s6,
   .elem n.premiumRate []
    [.s8,
     .empty n.possibleLengths [(n.national, str% "10")], .s8,
     .leaf n.exampleNumber (str% "9002345678"), .s8,
     .leaf n.nationalNumberPattern (str% "900[2-9]\\d{6}"), .s6], .s6, .comment, .s6,
   .elem n.personalNumber []
    [.s8,
     .empty n.possibleLengths [(n.national, str% "10")], .s8,
     .leaf n.exampleNumber (str% "5002345678"), .s8,
     .leaf n.nationalNumberPattern (str% "\n          52(?:\n            3(?:\n              [2-46-9][02-9]\\d|\n              5(?:\n                [02-46-9]\\d|\n                5[0-46-9]\n              )\n            )|\n            4(?:\n              [2-478][02-9]\\d|\n              5(?:\n                [034]\\d|\n                2[024-9]|\n                5[0-46-9]\n              )|\n              6(?:\n                0[1-9]|\n                [2-9]\\d\n              )|\n              9(?:\n                [05-9]\\d|\n                2[0-5]|\n                49\n              )\n            )\n          )\\d{4}|\n          52[34][2-9]1[02-9]\\d{4}|\n          5(?:\n            00|\n            2[125-9]|\n            3[23]|\n            44|\n            66|\n            77|\n            88\n          )[2-9]\\d{6}\n        "), .s6], .s6,
   .elem n.voip []
    [.s8,
     .empty n.possibleLengths [(n.national, str% "10"), (n.localOnly, str% "7")], .s8,
     .leaf n.exampleNumber (str% "6497101234"), .s8,
     .leaf n.nationalNumberPattern (str% "\n          649(?:\n            71[01]|\n            966\n          )\\d{4}\n        "), .s6], .s4]

/-- what stands before this territory -/
noncomputable def TD_before : List Node :=
  [.l4, .comment, .s4, .comment, .s4, .comment, .s4]
/-- its attributes -/
noncomputable def TD_attrs : List (Str × Str) := [(n.id, str% "TD"), (n.countryCode, str% "235"), (n.preferredInternationalPrefix, str% "00"), (n.internationalPrefix, str% "00|16")]
/-- its content -/
noncomputable def TD : List Node :=
  [.s6,
   .elem n.availableFormats []
    [.s8,
     .elem n.numberFormat [(n.pattern, str% "(\\d{2})(\\d{2})(\\d{2})(\\d{2})")]
      [.s10,
       .leaf n.leadingDigits (str% "[236-9]"), .s10,
       .leaf n.format (str% "$1 $2 $3 $4"), .s8], .s6], .s6,
   .elem n.generalDesc []
    [.s8,
     .leaf n.nationalNumberPattern (str% "\n          (?:\n            22|\n            [3689]\\d|\n            77\n          )\\d{6}\n        "), .s6], .s6,
   .elem n.fixedLine []
    [.s8,
     .empty n.possibleLengths [(n.national, str% "8")], .s8,
     .leaf n.exampleNumber (str% "22501234"), .s8,
     .leaf n.nationalNumberPattern (str% "\n          22(?:\n            [37-9]0|\n            5[0-5]|\n            6[89]\n          )\\d{4}\n        "), .s6], .s6, .comment, .s6, .comment, .s6,
   .elem n.mobile []
    [.s8,
     .empty n.possibleLengths [(n.national, str% "8")], .s8,
     .leaf n.exampleNumber (str% "63012345"), .s8,
     .leaf n.nationalNumberPattern (str% "\n          (?:\n            3[01]|\n            [69]\\d|\n            77|\n            8[5-7]\n          )\\d{6}\n        "), .s6], .s4]

/-- what stands before this territory -/
noncomputable def TG_before : List Node :=
  [.l4, .comment, .s4, .comment, .s4]
/-- its attributes -/
noncomputable def TG_attrs : List (Str × Str) := [(n.id, str% "TG"), (n.countryCode, str% "228"), (n.internationalPrefix, str% "00")]
/-- its content -/
noncomputable def TG : List Node :=
  [.s6,
   .elem n.availableFormats []
    [.s8, .comment, .s8,
     .elem n.numberFormat [(n.pattern, str% "(\\d{2})(\\d{2})(\\d{2})(\\d{2})")]
      [.s10,
       .leaf n.leadingDigits (str% "[279]"), .s10,
       .leaf n.format (str% "$1 $2 $3 $4"), .s8], .s6], .s6,
   .elem n.generalDesc []
    [.s8,
     .leaf n.nationalNumberPattern (str% "[279]\\d{7}"), .s6], .s6,
   .elem n.fixedLine []
    [.s8,
     .empty n.possibleLengths [(n.national, str% "8")], .s8,
     .leaf n.exampleNumber (str% "22212345"), .s8,
     .leaf n.nationalNumberPattern (str% "\n          2(?:\n            2[2-7]|\n            3[23]|\n            4[45]|\n            55|\n            6[67]|\n            77\n          )\\d{5}\n        "), .s6], .s6,
   .elem n.mobile []
    [.s8,
     .empty n.possibleLengths [(n.national, str% "8")], .s8,
     .leaf n.exampleNumber (str% "90112345"), .s8,
     .leaf n.nationalNumberPattern (str% "\n          (?:\n            7[0-289]|\n            9[0-36-9]\n          )\\d{6}\n        "), .s6], .s4]

/-- what stands before this territory -/
noncomputable def TH_before : List Node :=
  [.l4, .comment, .s4, .comment, .s4, .comment, .s4, .comment, .s4, .comment, .s4]
/-- its attributes -/
noncomputable def TH_attrs : List (Str × Str) := [(n.id, str% "TH"), (n.countryCode, str% "66"), (n.internationalPrefix, str% "00[1-9]"), (n.nationalPrefix, str% "0"), (n.mobileNumberPortableRegion, str% "true")]
/-- its content -/
noncomputable def TH : List Node :=
  [.s6,
   .elem n.availableFormats []
    [.s8, .comment, .s8,
     .elem n.numberFormat [(n.pattern, str% "(\\d)(\\d{3})(\\d{4})"), (n.nationalPrefixFormattingRule, str% "$NP$FG")]
      [.s10,
       .leaf n.leadingDigits (str% "2"), .s10,
       .leaf n.format (str% "$1 $2 $3"), .s8], .s8,
     .elem n.numberFormat [(n.pattern, str% "(\\d{2})(\\d{3})(\\d{3,4})"), (n.nationalPrefixFormattingRule, str% "$NP$FG")]
      [.s10,
       .leaf n.leadingDigits (str% "[13-9]"), .s10,
       .leaf n.format (str% "$1 $2 $3"), .s8], .s8,
     .elem n.numberFormat [(n.pattern, str% "(\\d{4})(\\d{3})(\\d{3})")]
      [.s10,
       .leaf n.leadingDigits (str% "1"), .s10,
       .leaf n.format (str% "$1 $2 $3"), .s8], .s6], .s6,
   .elem n.generalDesc []
    [.s8,
     .leaf n.nationalNumberPattern (str% "\n          (?:\n            001800|\n            [2-57]|\n            [689]\\d\n          )\\d{7}|\n          1\\d{7,9}\n        "), .s6], .s6, .comment, .s6,
   .elem n.fixedLine []
    [.s8,
     .empty n.possibleLengths [(n.national, str% "8")], .s8,
     .leaf n.exampleNumber (str% "21234567"), .s8,
     .leaf n.nationalNumberPattern (str% "\n          (?:\n            1[0689]|\n            2\\d|\n            3[2-9]|\n            4[2-5]|\n            5[2-6]|\n            7[3-7]\n          )\\d{6}\n        "), .s6], .s6, .comment, .s6,
   .elem n.mobile []
    [.s8,
     .empty n.possibleLengths [(n.national, str% "9")], .s8,
     .leaf n.exampleNumber (str% "812345678"), .s8,
     .leaf n.nationalNumberPattern (str% "\n          (?:\n            (?:\n              14|\n              [89]\\d\n            )\\d\\d|\n            6(?:\n              [1-6]\\d\\d|\n              7(?:\n                1[0-8]|\n                2[4-7]|\n                3[1-6]\n              )\n            )\n          )\\d{5}\n        "), .s6], .s6, .comment, .s6,
   .elem n.tollFree []
    [.s8,
     .empty n.possibleLengths [(n.national, str% "10,13")], .s8,
     .leaf n.exampleNumber (str% "1800123456"), .s8,
     .leaf n.nationalNumberPattern (str% "\n          (?:\n            001800\\d|\n            1800\n          )\\d{6}\n        "), .s6], .s6,
   .elem n.premiumRate []
    [.s8,
     .empty n.possibleLengths [(n.national, str% "10")], .s8,
     .leaf n.exampleNumber (str% "1900123456"), .s8,
     .leaf n.nationalNumberPattern (str% "1900\\d{6}"), .s6], .s6, .comment, .s6,
   .elem n.voip []
    [.s8,
     .empty n.possibleLengths [(n.national, str% "9")], .s8,
     .leaf n.exampleNumber (str% "601234567"), .s8,
     .leaf n.nationalNumberPattern (str% "6[08]\\d{7}"), .s6], .s4]

/-- what stands before this territory -/
noncomputable def TJ_before : List Node :=
  [.l4, .comment, .s4, .comment, .s4, .comment, .s4, .comment, .s4]
/-- its attributes -/
noncomputable def TJ_attrs : List (Str × Str) := [(n.id, str% "TJ"), (n.countryCode, str% "992"), (n.preferredInternationalPrefix, str% "8~10"), (n.internationalPrefix, str% "810")]
/-- its content -/
noncomputable def TJ : List Node :=
  [.s6,
   .elem n.availableFormats []
    [.s8,
     .elem n.numberFormat [(n.pattern, str% "(\\d{6})(\\d)(\\d{2})")]
      [.s10,
       .leaf n.leadingDigits (str% "331"), .s10,
       .leaf n.leadingDigits (str% "3317"), .s10,
       .leaf n.format (str% "$1 $2 $3"), .s8], .s8,
     .elem n.numberFormat [(n.pattern, str% "(\\d{3})(\\d{2})(\\d{4})")]
      [.s10,
       .leaf n.leadingDigits (str% "\n            44[02-479]|\n            [34]7\n          "), .s10,
       .leaf n.format (str% "$1 $2 $3"), .s8], .s8,
     .elem n.numberFormat [(n.pattern, str% "(\\d{4})(\\d)(\\d{4})")]
      [.s10,
       .leaf n.leadingDigits (str% "\n            3(?:\n              [1245]|\n              3[12]\n            )\n          "), .s10,
       .leaf n.format (str% "$1 $2 $3"), .s8], .s8,
     .elem n.numberFormat [(n.pattern, str% "(\\d{2})(\\d{3})(\\d{4})")]
      [.s10,
       .leaf n.leadingDigits (str% "\\d"), .s10,
       .leaf n.format (str% "$1 $2 $3"), .s8], .s6], .s6,
   .elem n.generalDesc []
    [.s8,
     .leaf n.nationalNumberPattern (str% "\n          (?:\n            [0-57-9]\\d|\n            66\n          )\\d{7}\n        "), .s6], .s6,
   .elem n.fixedLine []
    [.s8,
     .empty n.possibleLengths [(n.national, str% "9"), (n.localOnly, str% "3,[5-7]")], .s8,
     .leaf n.exampleNumber (str% "372123456"), .s8,
     .leaf n.nationalNumberPattern (str% "\n          (?:\n            3(?:\n              1[3-5]|\n              2[245]|\n              3[12]|\n              4[24-7]|\n              5[25]|\n              72\n            )|\n            4(?:\n              46|\n              74|\n              87\n            )\n          )\\d{6}\n        "), .s6], .s6, .comment, .s6,
   .elem n.mobile []
    [.s8,
     .empty n.possibleLengths [(n.national, str% "9")], .s8,
     .leaf n.exampleNumber (str% "917123456"), .s8,
     .leaf n.nationalNumberPattern (str% "\n          (?:\n            33[03-9]|\n            4(?:\n              1[18]|\n              4[02-479]\n            )|\n            81[1-9]\n          )\\d{6}|\n          (?:\n            [09]\\d|\n            1[0-27-9]|\n            2[0-27]|\n            3[08]|\n            40|\n            5[05]|\n            66|\n            7[0157-9]|\n            8[07-9]\n          )\\d{7}\n        "), .s6], .s4]

/-- what stands before this territory -/
noncomputable def TK_before : List Node :=
  [.l4, .comment, .s4, .comment, .s4]
/-- its attributes -/
noncomputable def TK_attrs : List (Str × Str) := [(n.id, str% "TK"), (n.countryCode, str% "690"), (n.internationalPrefix, str% "00")]
/-- its content -/
noncomputable def TK : List Node :=
  [.s6,
   .elem n.generalDesc []
    [.s8,
     .leaf n.nationalNumberPattern (str% "[2-47]\\d{3,6}"), .s6], .s6, .comment, .s6,
   .elem n.fixedLine []
    [.s8,
     .empty n.possibleLengths [(n.national, str% "[4-7]")], .s8,
     .leaf n.exampleNumber (str% "3101"), .s8,
     .leaf n.nationalNumberPattern (str% "\n          (?:\n            2[2-4]|\n            [34]\\d\n          )\\d{2,5}\n        "), .s6], .s6, .comment, .s6,
   .elem n.mobile []
    [.s8,
     .empty n.possibleLengths [(n.national, str% "[4-7]")], .s8,
     .leaf n.exampleNumber (str% "7290"), .s8,
     .leaf n.nationalNumberPattern (str% "7[2-4]\\d{2,5}"), .s6], .s4]

/-- what stands before this territory -/
noncomputable def TL_before : List Node :=
  [.l4, .comment, .s4, .comment, .s4]
/-- its attributes -/
noncomputable def TL_attrs : List (Str × Str) := [(n.id, str% "TL"), (n.countryCode, str% "670"), (n.internationalPrefix, str% "00")]
/-- its content -/
noncomputable def TL : List Node :=
  [.s6,
   .elem n.availableFormats []
    [.s8,
     .elem n.numberFormat [(n.pattern, str% "(\\d{3})(\\d{4})")]
      [.s10,
       .leaf n.leadingDigits (str% "\n            [2-489]|\n            70\n          "), .s10,
       .leaf n.format (str% "$1 $2"), .s8], .s8, .comment, .s8,
     .elem n.numberFormat [(n.pattern, str% "(\\d{4})(\\d{4})")]
      [.s10,
       .leaf n.leadingDigits (str% "7"), .s10,
       .leaf n.format (str% "$1 $2"), .s8], .s6], .s6,
   .elem n.generalDesc []
    [.s8,
     .leaf n.nationalNumberPattern (str% "\n          7\\d{7}|\n          (?:\n            [2-47]\\d|\n            [89]0\n          )\\d{5}\n        "), .s6], .s6,
   .elem n.fixedLine []
    [.s8,
     .empty n.possibleLengths [(n.national, str% "7")], .s8,
     .leaf n.exampleNumber (str% "2112345"), .s8,
     .leaf n.nationalNumberPattern (str% "\n          (?:\n            2[1-5]|\n            3[1-9]|\n            4[1-4]\n          )\\d{5}\n        "), .s6], .s6,
   .elem n.mobile []
    [.s8,
     .empty n.possibleLengths [(n.national, str% "8")], .s8,
     .leaf n.exampleNumber (str% "77212345"), .s8,
     .leaf n.nationalNumberPattern (str% "7[2-8]\\d{6}"), .s6], .s6,
   .elem n.tollFree []
    [.s8,
     .empty n.possibleLengths [(n.national, str% "7")], .s8,
     .leaf n.exampleNumber (str% "8012345"), .s8,
     .leaf n.nationalNumberPattern (str% "80\\d{5}"), .s6], .s6,
   .elem n.premiumRate []
    [.s8,
     .empty n.possibleLengths [(n.national, str% "7")], .s8,
     .leaf n.exampleNumber (str% "9012345"), .s8,
     .leaf n.nationalNumberPattern (str% "90\\d{5}"), .s6], .s6, .comment, .s6, .comment, .s6,
   .elem n.personalNumber []
    [.s8,
     .empty n.possibleLengths [(n.national, str% "7")], .s8,
     .leaf n.exampleNumber (str% "7012345"), .s8,
     .leaf n.nationalNumberPattern (str% "70\\d{5}"), .s6], .s4]

/-- the nodes of this module -/
noncomputable def chunk13 : List (List Node × List (Str × Str) × List Node) :=
  [(SD_before, SD_attrs, SD), (SE_before, SE_attrs, SE), (SG_before, SG_attrs, SG), (SH_before, SH_attrs, SH),
   (SI_before, SI_attrs, SI), (SJ_before, SJ_attrs, SJ), (SK_before, SK_attrs, SK), (SL_before, SL_attrs, SL),
   (SM_before, SM_attrs, SM), (SN_before, SN_attrs, SN), (SO_before, SO_attrs, SO), (SR_before, SR_attrs, SR),
   (SS_before, SS_attrs, SS), (ST_before, ST_attrs, ST), (SV_before, SV_attrs, SV), (SX_before, SX_attrs, SX),
   (SY_before, SY_attrs, SY), (SZ_before, SZ_attrs, SZ), (TA_before, TA_attrs, TA), (TC_before, TC_attrs, TC),
   (TD_before, TD_attrs, TD), (TG_before, TG_attrs, TG), (TH_before, TH_attrs, TH), (TJ_before, TJ_attrs, TJ),
   (TK_before, TK_attrs, TK), (TL_before, TL_attrs, TL)]

end Phone.Data.X
