import Verif.Data.XNames
/-! Territories of `/repo/assets/PhoneNumberMetadata.xml` as trees. Generated by `tools/gen_xml.py`; do not edit. -/

set_option maxRecDepth 100000
namespace Phone.Data.X
open Phone.Xml

/-- what stands before this territory -/
noncomputable def BM_before : List Node :=
  [.l4, .comment, .s4, .comment, .s4, .comment, .s4]
/-- its attributes -/
noncomputable def BM_attrs : List (Str × Str) := [(n.id, str% "BM"), (n.countryCode, str% "1"), (n.leadingDigits, str% "441"), (n.internationalPrefix, str% "011"), (n.nationalPrefix, str% "1"), (n.nationalPrefixForParsing, str% "([2-9]\\d{6})$|1"), (n.nationalPrefixTransformRule, str% "441$1"), (n.mobileNumberPortableRegion, str% "true")]
/-- its content -/
noncomputable def BM : List Node :=
  [.s6,
   .elem n.generalDesc []
    [.s8,
     .leaf n.nationalNumberPattern (str% "\n          (?:\n            441|\n            [58]\\d\\d|\n            900\n          )\\d{7}\n        "), .s6], .s6,
   .elem n.fixedLine []
    [.s8,
     .empty n.possibleLengths [(n.national, str% "10"), (n.localOnly, str% "7")], .s8,
     .leaf n.exampleNumber (str% "4414123456"), .s8,
     .leaf n.nationalNumberPattern (str% "\n          441(?:\n            [46]\\d\\d|\n            5(?:\n              4\\d|\n              60|\n              89\n            )\n          )\\d{4}\n        "), .s6], .s6,
   .elem n.mobile []
    [.s8,
     .empty n.possibleLengths [(n.national, str% "10"), (n.localOnly, str% "7")], .s8,
     .leaf n.exampleNumber (str% "4413701234"), .s8,
     .leaf n.nationalNumberPattern (str% "\n          441(?:\n            [2378]\\d|\n            5[0-39]|\n            9[02]\n          )\\d{5}\n        "), .s6], .s6,
   .elem n.tollFree []
    [.s8,
     .empty n.possibleLengths [(n.national, str% "10")], .s8,
     .leaf n.exampleNumber (str% "8002123456"), .s8,
     .leaf n.nationalNumberPattern (str% "\n          8(?:\n            00|\n            33|\n            44|\n            55|\n            66|\n            77|\n            88\n          )[2-9]\\d{6}\n        "), .s6], .s6,
   .elem n.premiumRate []
    [.s8,
     .empty n.possibleLengths [(n.national, str% "10")], .s8,
     .leaf n.exampleNumber (str% "9002123456"), .s8,
     .leaf n.nationalNumberPattern (str% "900[2-9]\\d{6}"), .s6], .s6, .comment, .s6,
   .elem n.personalNumber []
    [.s8,
     .empty n.possibleLengths [(n.national, str% "10")], .s8,
     .leaf n.exampleNumber (str% "5002345678"), .s8,
     .leaf n.nationalNumberPattern (str% "\n          52(?:\n            3(?:\n              [2-46-9][02-9]\\d|\n              5(?:\n                [02-46-9]\\d|\n                5[0-46-9]\n              )\n            )|\n            4(?:\n              [2-478][02-9]\\d|\n              5(?:\n                [034]\\d|\n                2[024-9]|\n                5[0-46-9]\n              )|\n              6(?:\n                0[1-9]|\n                [2-9]\\d\n              )|\n              9(?:\n                [05-9]\\d|\n                2[0-5]|\n                49\n              )\n            )\n          )\\d{4}|\n          52[34][2-9]1[02-9]\\d{4}|\n          5(?:\n            00|\n            2[125-9]|\n            3[23]|\n            44|\n            66|\n            77|\n            88\n          )[2-9]\\d{6}\n        "), .s6], .s4]

/-- what stands before this territory -/
noncomputable def BN_before : List Node :=
  [.l4, .comment, .s4, .comment, .s4, .comment, .s4]
/-- its attributes -/
noncomputable def BN_attrs : List (Str × Str) := [(n.id, str% "BN"), (n.countryCode, str% "673"), (n.internationalPrefix, str% "00")]
/-- its content -/
noncomputable def BN : List Node :=
  [.s6,
   .elem n.availableFormats []
    [.s8,
     .elem n.numberFormat [(n.pattern, str% "(\\d{3})(\\d{4})")]
      [.s10,
       .leaf n.leadingDigits (str% "[2-578]"), .s10,
       .leaf n.format (str% "$1 $2"), .s8], .s6], .s6,
   .elem n.generalDesc []
    [.s8,
     .leaf n.nationalNumberPattern (str% "[2-578]\\d{6}"), .s6], .s6,
   .elem n.fixedLine []
    [.s8,
     .empty n.possibleLengths [(n.national, str% "7")], .s8,
     .leaf n.exampleNumber (str% "2345678"), .s8,
     .leaf n.nationalNumberPattern (str% "\n          22[0-7]\\d{4}|\n          (?:\n            2[013-9]|\n            [34]\\d|\n            5[0-25-9]\n          )\\d{5}\n        "), .s6], .s6,
   .elem n.mobile []
    [.s8,
     .empty n.possibleLengths [(n.national, str% "7")], .s8,
     .leaf n.exampleNumber (str% "7123456"), .s8,
     .leaf n.nationalNumberPattern (str% "\n          (?:\n            22[89]|\n            [78]\\d\\d\n          )\\d{4}\n        "), .s6], .s6,
   .elem n.voip []
    [.s8,
     .empty n.possibleLengths [(n.national, str% "7")], .s8,
     .leaf n.exampleNumber (str% "5345678"), .s8,
     .leaf n.nationalNumberPattern (str% "5[34]\\d{5}"), .s6], .s4]

/-- what stands before this territory -/
noncomputable def BO_before : List Node :=
  [.l4, .comment, .s4, .comment, .s4, .comment, .s4]
/-- its attributes -/
noncomputable def BO_attrs : List (Str × Str) := [(n.id, str% "BO"), (n.countryCode, str% "591"), (n.internationalPrefix, str% "00(?:1\\d)?"), (n.nationalPrefix, str% "0"), (n.nationalPrefixForParsing, str% "0(1\\d)?")]
/-- its content -/
noncomputable def BO : List Node :=
  [.s6,
   .elem n.availableFormats []
    [.s8,
     .elem n.numberFormat [(n.pattern, str% "(\\d)(\\d{7})"), (n.carrierCodeFormattingRule, str% "$NP$CC $FG")]
      [.s10,
       .leaf n.leadingDigits (str% "\n            [23]|\n            4[46]|\n            50\n          "), .s10,
       .leaf n.format (str% "$1 $2"), .s8], .s8,
     .elem n.numberFormat [(n.pattern, str% "(\\d{8})"), (n.carrierCodeFormattingRule, str% "$NP$CC $FG")]
      [.s10,
       .leaf n.leadingDigits (str% "[5-7]"), .s10,
       .leaf n.format (str% "$1"), .s8], .s8,
     .elem n.numberFormat [(n.pattern, str% "(\\d{3})(\\d{2})(\\d{4})"), (n.carrierCodeFormattingRule, str% "$NP$CC $FG")]
      [.s10,
       .leaf n.leadingDigits (str% "8"), .s10,
       .leaf n.format (str% "$1 $2 $3"), .s8], .s6], .s6,
   .elem n.generalDesc []
    [.s8,
     .leaf n.nationalNumberPattern (str% "\n          (?:\n            [2-7]\\d\\d|\n            8001\n          )\\d{5}\n        "), .s6], .s6,
   .elem n.noInternationalDialling []
    [.s8,
     .empty n.possibleLengths [(n.national, str% "9")], .s8,
     .leaf n.nationalNumberPattern (str% "8001[07]\\d{4}"), .s6], .s6,
   .elem n.fixedLine []
    [.s8,
     .empty n.possibleLengths [(n.national, str% "8"), (n.localOnly, str% "7")], .s8,
     .leaf n.exampleNumber (str% "22123456"), .s8,
     .leaf n.nationalNumberPattern (str% "\n          (?:\n            2(?:\n              2\\d\\d|\n              5(?:\n                11|\n                [258]\\d|\n                9[67]\n              )|\n              6(?:\n                12|\n                2\\d|\n                9[34]\n              )|\n              8(?:\n                2[34]|\n                39|\n                62\n              )\n            )|\n            3(?:\n              3\\d\\d|\n              4(?:\n                6\\d|\n                8[24]\n              )|\n              8(?:\n                25|\n                42|\n                5[257]|\n                86|\n                9[25]\n              )|\n              9(?:\n                [27]\\d|\n                3[2-4]|\n                4[248]|\n                5[24]|\n                6[2-6]\n              )\n            )|\n            4(?:\n              4\\d\\d|\n              6(?:\n                11|\n                [24689]\\d|\n                72\n              )\n            )\n          )\\d{4}\n        "), .s6], .s6,
   .elem n.mobile []
    [.s8,
     .empty n.possibleLengths [(n.national, str% "8")], .s8,
     .leaf n.exampleNumber (str% "71234567"), .s8,
     .leaf n.nationalNumberPattern (str% "\n          (?:\n            57|\n            [67]\\d\n          )\\d{6}\n        "), .s6], .s6, .comment, .s6,
   .elem n.tollFree []
    [.s8,
     .empty n.possibleLengths [(n.national, str% "9")], .s8,
     .leaf n.exampleNumber (str% "800171234"), .s8,
     .leaf n.nationalNumberPattern (str% "8001[07]\\d{4}"), .s6], .s6,
   .elem n.voip []
    [.s8,
     .empty n.possibleLengths [(n.national, str% "8"), (n.localOnly, str% "7")], .s8,
     .leaf n.exampleNumber (str% "50123456"), .s8,
     .leaf n.nationalNumberPattern (str% "50\\d{6}"), .s6], .s4]

/-- what stands before this territory -/
noncomputable def BQ_before : List Node :=
  [.l4, .comment, .s4, .comment, .s4, .comment, .s4]
/-- its attributes -/
noncomputable def BQ_attrs : List (Str × Str) := [(n.id, str% "BQ"), (n.countryCode, str% "599"), (n.leadingDigits, str% "[347]"), (n.internationalPrefix, str% "00")]
/-- its content -/
noncomputable def BQ : List Node :=
  [.s6,
   .elem n.generalDesc []
    [.s8,
     .leaf n.nationalNumberPattern (str% "\n          (?:\n            [34]1|\n            7\\d\n          )\\d{5}\n        "), .s6], .s6, .comment, .s6,
   .elem n.fixedLine []
    [.s8,
     .empty n.possibleLengths [(n.national, str% "7")], .s8,
     .leaf n.exampleNumber (str% "7151234"), .s8,
     .leaf n.nationalNumberPattern (str% "\n          (?:\n            318[023]|\n            41(?:\n              6[023]|\n              70\n            )|\n            7(?:\n              1[578]|\n              2[05]|\n              50\n            )\\d\n          )\\d{3}\n        "), .s6], .s6,
   .elem n.mobile []
    [.s8,
     .empty n.possibleLengths [(n.national, str% "7")], .s8,
     .leaf n.exampleNumber (str% "3181234"), .s8,
     .leaf n.nationalNumberPattern (str% "\n          (?:\n            31(?:\n              8[14-8]|\n              9[14578]\n            )|\n            416[14-9]|\n            7(?:\n              0[01]|\n              7[07]|\n              8\\d|\n              9[056]\n            )\\d\n          )\\d{3}\n        "), .s6], .s4]

/-- what stands before this territory -/
noncomputable def BR_before : List Node :=
  [.l4, .comment, .s4, .comment, .s4, .comment, .s4, .comment, .s4, .comment, .s4]
/-- its attributes -/
noncomputable def BR_attrs : List (Str × Str) := [(n.id, str% "BR"), (n.countryCode, str% "55"), (n.internationalPrefix, str% "00(?:1[245]|2[1-35]|31|4[13]|[56]5|99)"), (n.nationalPrefix, str% "0"), (n.nationalPrefixForParsing, str% "\n                 (?:\n                   0|\n                   90\n                 )(?:\n                   (\n                     1[245]|\n                     2[1-35]|\n                     31|\n                     4[13]|\n                     [56]5|\n                     99\n                   )(\n                     \\d{10,11}\n                   )\n                 )?"), (n.nationalPrefixTransformRule, str% "$2"), (n.mobileNumberPortableRegion, str% "true")]
/-- its content -/
noncomputable def BR : List Node :=
  [.s6,
   .elem n.availableFormats []
    [.s8, .comment, .s8,
     .elem n.numberFormat [(n.pattern, str% "(\\d{3,6})")]
      [.s10,
       .leaf n.leadingDigits (str% "\n            1(?:\n              1[25-8]|\n              2[357-9]|\n              3[02-68]|\n              4[12568]|\n              5|\n              6[0-8]|\n              8[015]|\n              9[0-47-9]\n            )|\n            321|\n            610\n          "), .s10,
       .leaf n.format (str% "$1"), .s10,
       .leaf n.intlFormat (str% "NA"), .s8], .s8, .comment, .s8,
     .elem n.numberFormat [(n.pattern, str% "(\\d{4})(\\d{4})")]
      [.s10,
       .leaf n.leadingDigits (str% "\n            300|\n            4(?:\n              0[02]|\n              37|\n              86\n            )\n          "), .s10,
       .leaf n.leadingDigits (str% "\n            300|\n            4(?:\n              0(?:\n                0|\n                20\n              )|\n              370|\n              864\n            )\n          "), .s10,
       .leaf n.format (str% "$1-$2"), .s8], .s8,
     .elem n.numberFormat [(n.pattern, str% "(\\d{4})(\\d{4})")]
      [.s10,
       .leaf n.leadingDigits (str% "[2-57]"), .s10,
       .leaf n.leadingDigits (str% "\n            [2357]|\n            4(?:\n              [0-24-9]|\n              3(?:\n                [0-689]|\n                7[1-9]\n              )\n            )\n          "), .s10,
       .leaf n.format (str% "$1-$2"), .s10,
       .leaf n.intlFormat (str% "NA"), .s8], .s8, .comment, .s8,
     .elem n.numberFormat [(n.pattern, str% "(\\d{3})(\\d{2,3})(\\d{4})"), (n.nationalPrefixFormattingRule, str% "$NP$FG")]
      [.s10,
       .leaf n.leadingDigits (str% "\n            (?:\n              [358]|\n              90\n            )0\n          "), .s10,
       .leaf n.format (str% "$1 $2 $3"), .s8], .s8,
     .elem n.numberFormat [(n.pattern, str% "(\\d{5})(\\d{4})")]
      [.s10,
       .leaf n.leadingDigits (str% "9"), .s10,
       .leaf n.format (str% "$1-$2"), .s10,
       .leaf n.intlFormat (str% "NA"), .s8], .s8, .comment, .s8,
     .elem n.numberFormat [(n.pattern, str% "(\\d{2})(\\d{4})(\\d{4})"), (n.nationalPrefixFormattingRule, str% "($FG)"), (n.carrierCodeFormattingRule, str% "$NP $CC ($FG)")]
      [.s10,
       .leaf n.leadingDigits (str% "\n            (?:\n              [14689][1-9]|\n              2[12478]|\n              3[1-578]|\n              5[13-5]|\n              7[13-579]\n            )[2-57]\n          "), .s10,
       .leaf n.format (str% "$1 $2-$3"), .s8], .s8, .comment, .s8,
     .elem n.numberFormat [(n.pattern, str% "(\\d{2})(\\d{5})(\\d{4})"), (n.nationalPrefixFormattingRule, str% "($FG)"), (n.carrierCodeFormattingRule, str% "$NP $CC ($FG)")]
      [.s10,
       .leaf n.leadingDigits (str% "\n            [16][1-9]|\n            [2-57-9]\n          "), .s10,
       .leaf n.format (str% "$1 $2-$3"), .s8], .s6], .s6,
   .elem n.generalDesc []
    [.s8,
     .leaf n.nationalNumberPattern (str% "\n          [1-467]\\d{9,10}|\n          55[0-46-9]\\d{8}|\n          [34]\\d{7}|\n          55\\d{7,8}|\n          (?:\n            5[0-46-9]|\n            [89]\\d\n          )\\d{7,9}\n        "), .s6], .s6,
   .elem n.noInternationalDialling []
    [.s8,
     .empty n.possibleLengths [(n.national, str% "[8-10]")], .s8,
     .leaf n.nationalNumberPattern (str% "\n          (?:\n            30[03]\\d{3}|\n            4(?:\n              0(?:\n                0\\d|\n                20\n              )|\n              864\n            )\n          )\\d{4}|\n          800\\d{6,7}|\n          300\\d{5}\n        "), .s6], .s6, .comment, .s6,
   .elem n.fixedLine []
    [.s8,
     .empty n.possibleLengths [(n.national, str% "10"), (n.localOnly, str% "8")], .s8,
     .leaf n.exampleNumber (str% "1123456789"), .s8,
     .leaf n.nationalNumberPattern (str% "\n          (?:\n            [14689][1-9]|\n            2[12478]|\n            3[1-578]|\n            5[13-5]|\n            7[13-579]\n          )[2-5]\\d{7}\n        "), .s6], .s6, .comment, .s6, .comment, .s6,
   .elem n.mobile []
    [.s8,
     .empty n.possibleLengths [(n.national, str% "10,11"), (n.localOnly, str% "8,9")], .s8,
     .leaf n.exampleNumber (str% "11961234567"), .s8,
     .leaf n.nationalNumberPattern (str% "\n          (?:\n            [14689][1-9]|\n            2[12478]|\n            3[1-578]|\n            5[13-5]|\n            7[13-579]\n          )(?:\n            7|\n            9\\d\n          )\\d{7}\n        "), .s6], .s6,
   .elem n.tollFree []
    [.s8,
     .empty n.possibleLengths [(n.national, str% "9,10")], .s8,
     .leaf n.exampleNumber (str% "800123456"), .s8,
     .leaf n.nationalNumberPattern (str% "800\\d{6,7}"), .s6], .s6,
   .elem n.premiumRate []
    [.s8,
     .empty n.possibleLengths [(n.national, str% "9,10")], .s8,
     .leaf n.exampleNumber (str% "500123456"), .s8,
     .leaf n.nationalNumberPattern (str% "[59]00\\d{6,7}"), .s6], .s6, .comment, .s6,
   .elem n.sharedCost []
    [.s8,
     .empty n.possibleLengths [(n.national, str% "8,10")], .s8,
     .leaf n.exampleNumber (str% "40041234"), .s8,
     .leaf n.nationalNumberPattern (str% "\n          (?:\n            30[03]\\d{3}|\n            4(?:\n              0(?:\n                0\\d|\n                20\n              )|\n              370|\n              864\n            )\n          )\\d{4}|\n          300\\d{5}\n        "), .s6], .s4]

/-- what stands before this territory -/
noncomputable def BS_before : List Node :=
  [.l4, .comment, .s4, .comment, .s4, .comment, .s4]
/-- its attributes -/
noncomputable def BS_attrs : List (Str × Str) := [(n.id, str% "BS"), (n.countryCode, str% "1"), (n.leadingDigits, str% "242"), (n.internationalPrefix, str% "011"), (n.nationalPrefix, str% "1"), (n.nationalPrefixForParsing, str% "([3-8]\\d{6})$|1"), (n.nationalPrefixTransformRule, str% "242$1"), (n.mobileNumberPortableRegion, str% "true")]
/-- its content -/
noncomputable def BS : List Node :=
  [.s6,
   .elem n.generalDesc []
    [.s8,
     .leaf n.nationalNumberPattern (str% "\n          (?:\n            242|\n            [58]\\d\\d|\n            900\n          )\\d{7}\n        "), .s6], .s6,
   .elem n.fixedLine []
    [.s8,
     .empty n.possibleLengths [(n.national, str% "10"), (n.localOnly, str% "7")], .s8,
     .leaf n.exampleNumber (str% "2423456789"), .s8,
     .leaf n.nationalNumberPattern (str% "\n          242(?:\n            3(?:\n              02|\n              [236][1-9]|\n              4[0-24-9]|\n              5[0-68]|\n              7[347]|\n              8[0-4]|\n              9[2-467]\n            )|\n            461|\n            502|\n            6(?:\n              0[1-5]|\n              12|\n              2[013]|\n              [45]0|\n              7[67]|\n              8[78]|\n              9[89]\n            )|\n            7(?:\n              02|\n              88\n            )\n          )\\d{4}\n        "), .s6], .s6,
   .elem n.mobile []
    [.s8,
     .empty n.possibleLengths [(n.national, str% "10"), (n.localOnly, str% "7")], .s8,
     .leaf n.exampleNumber (str% "2423591234"), .s8,
     .leaf n.nationalNumberPattern (str% "\n          242(?:\n            3(?:\n              5[79]|\n              7[56]|\n              95\n            )|\n            4(?:\n              [23][1-9]|\n              4[1-35-9]|\n              5[1-8]|\n              6[2-8]|\n              7\\d|\n              81\n            )|\n            5(?:\n              2[45]|\n              3[35]|\n              44|\n              5[1-46-9]|\n              65|\n              77\n            )|\n            6[34]6|\n            7(?:\n              27|\n              38\n            )|\n            8(?:\n              0[1-9]|\n              1[02-9]|\n              2\\d|\n              3[0-4]|\n              [89]9\n            )\n          )\\d{4}\n        "), .s6], .s6, .comment, .s6,
   .elem n.tollFree []
    [.s8,
     .empty n.possibleLengths [(n.national, str% "10"), (n.localOnly, str% "7")], .s8,
     .leaf n.exampleNumber (str% "8002123456"), .s8,
     .leaf n.nationalNumberPattern (str% "\n          242300\\d{4}|\n          8(?:\n            00|\n            33|\n            44|\n            55|\n            66|\n            77|\n            88\n          )[2-9]\\d{6}\n        "), .s6], .s6,
   .elem n.premiumRate []
    [.s8,
     .empty n.possibleLengths [(n.national, str% "10")], .s8,
     .leaf n.exampleNumber (str% "9002123456"), .s8,
     .leaf n.nationalNumberPattern (str% "900[2-9]\\d{6}"), .s6], .s6, .comment, .s6,
   .elem n.personalNumber []
    [.s8,
     .empty n.possibleLengths [(n.national, str% "10")], .s8,
     .leaf n.exampleNumber (str% "5002345678"), .s8,
     .leaf n.nationalNumberPattern (str% "\n          52(?:\n            3(?:\n              [2-46-9][02-9]\\d|\n              5(?:\n                [02-46-9]\\d|\n                5[0-46-9]\n              )\n            )|\n            4(?:\n              [2-478][02-9]\\d|\n              5(?:\n                [034]\\d|\n                2[024-9]|\n                5[0-46-9]\n              )|\n              6(?:\n                0[1-9]|\n                [2-9]\\d\n              )|\n              9(?:\n                [05-9]\\d|\n                2[0-5]|\n                49\n              )\n            )\n          )\\d{4}|\n          52[34][2-9]1[02-9]\\d{4}|\n          5(?:\n            00|\n            2[125-9]|\n            3[23]|\n            44|\n            66|\n            77|\n            88\n          )[2-9]\\d{6}\n        "), .s6], .s6, .comment, .s6,
   .elem n.uan []
    [.s8,
     .empty n.possibleLengths [(n.national, str% "10")], .s8,
     .leaf n.exampleNumber (str% "2422250123"), .s8,
     .leaf n.nationalNumberPattern (str% "242225\\d{4}"), .s6], .s4]

/-- what stands before this territory -/
noncomputable def BT_before : List Node :=
  [.l4, .comment, .s4, .comment, .s4, .comment, .s4, .comment, .s4]
/-- its attributes -/
noncomputable def BT_attrs : List (Str × Str) := [(n.id, str% "BT"), (n.countryCode, str% "975"), (n.internationalPrefix, str% "00")]
/-- its content -/
noncomputable def BT : List Node :=
  [.s6,
   .elem n.availableFormats []
    [.s8,
     .elem n.numberFormat [(n.pattern, str% "(\\d{3})(\\d{3})")]
      [.s10,
       .leaf n.leadingDigits (str% "[2-7]"), .s10,
       .leaf n.format (str% "$1 $2"), .s10,
       .leaf n.intlFormat (str% "NA"), .s8], .s8,
     .elem n.numberFormat [(n.pattern, str% "(\\d)(\\d{3})(\\d{3})")]
      [.s10,
       .leaf n.leadingDigits (str% "\n            [2-6]|\n            7[246]|\n            8[2-4]\n          "), .s10,
       .leaf n.format (str% "$1 $2 $3"), .s8], .s8, .comment, .s8,
     .elem n.numberFormat [(n.pattern, str% "(\\d{2})(\\d{2})(\\d{2})(\\d{2})")]
      [.s10,
       .leaf n.leadingDigits (str% "\n            1[67]|\n            [78]\n          "), .s10,
       .leaf n.format (str% "$1 $2 $3 $4"), .s8], .s6], .s6,
   .elem n.generalDesc []
    [.s8,
     .leaf n.nationalNumberPattern (str% "\n          [178]\\d{7}|\n          [2-8]\\d{6}\n        "), .s6], .s6,
   .elem n.fixedLine []
    [.s8,
     .empty n.possibleLengths [(n.national, str% "7"), (n.localOnly, str% "6")], .s8,
     .leaf n.exampleNumber (str% "2345678"), .s8,
     .leaf n.nationalNumberPattern (str% "\n          (?:\n            2[3-6]|\n            [34][5-7]|\n            5[236]|\n            6[2-46]|\n            7[246]|\n            8[2-4]\n          )\\d{5}\n        "), .s6], .s6,
   .elem n.mobile []
    [.s8,
     .empty n.possibleLengths [(n.national, str% "8")], .s8,
     .leaf n.exampleNumber (str% "17123456"), .s8,
     .leaf n.nationalNumberPattern (str% "\n          (?:\n            1[67]|\n            [78]7\n          )\\d{6}\n        "), .s6], .s4]

/-- what stands before this territory -/
noncomputable def BW_before : List Node :=
  [.l4, .comment, .s4, .comment, .s4]
/-- its attributes -/
noncomputable def BW_attrs : List (Str × Str) := [(n.id, str% "BW"), (n.countryCode, str% "267"), (n.internationalPrefix, str% "00")]
/-- its content -/
noncomputable def BW : List Node :=
  [.s6,
   .elem n.availableFormats []
    [.s8,
     .elem n.numberFormat [(n.pattern, str% "(\\d{2})(\\d{5})")]
      [.s10,
       .leaf n.leadingDigits (str% "90"), .s10,
       .leaf n.format (str% "$1 $2"), .s8], .s8,
     .elem n.numberFormat [(n.pattern, str% "(\\d{3})(\\d{4})")]
      [.s10,
       .leaf n.leadingDigits (str% "\n            [24-6]|\n            3[15-9]\n          "), .s10,
       .leaf n.format (str% "$1 $2"), .s8], .s8,
     .elem n.numberFormat [(n.pattern, str% "(\\d{2})(\\d{3})(\\d{3})")]
      [.s10,
       .leaf n.leadingDigits (str% "[37]"), .s10,
       .leaf n.format (str% "$1 $2 $3"), .s8], .s8,
     .elem n.numberFormat [(n.pattern, str% "(\\d{4})(\\d{3})(\\d{3})")]
      [.s10,
       .leaf n.leadingDigits (str% "0"), .s10,
       .leaf n.format (str% "$1 $2 $3"), .s8], .s8,
     .elem n.numberFormat [(n.pattern, str% "(\\d{3})(\\d{4})(\\d{3})")]
      [.s10,
       .leaf n.leadingDigits (str% "8"), .s10,
       .leaf n.format (str% "$1 $2 $3"), .s8], .s6], .s6,
   .elem n.generalDesc []
    [.s8,
     .leaf n.nationalNumberPattern (str% "\n          (?:\n            0800|\n            (?:\n              [37]|\n              800\n            )\\d\n          )\\d{6}|\n          (?:\n            [2-6]\\d|\n            90\n          )\\d{5}\n        "), .s6], .s6, .comment, .s6,
   .elem n.fixedLine []
    [.s8,
     .empty n.possibleLengths [(n.national, str% "7")], .s8,
     .leaf n.exampleNumber (str% "2401234"), .s8,
     .leaf n.nationalNumberPattern (str% "\n          (?:\n            2(?:\n              4[0-48]|\n              6[0-24]|\n              9[0578]\n            )|\n            3(?:\n              1[0-35-9]|\n              55|\n              [69]\\d|\n              7[013]|\n              81\n            )|\n            4(?:\n              6[03]|\n              7[1267]|\n              9[0-5]\n            )|\n            5(?:\n              3[03489]|\n              4[0489]|\n              7[1-47]|\n              88|\n              9[0-49]\n            )|\n            6(?:\n              2[1-35]|\n              5[149]|\n              8[013467]\n            )\n          )\\d{4}\n        "), .s6], .s6, .comment, .s6,
   .elem n.mobile []
    [.s8,
     .empty n.possibleLengths [(n.national, str% "8")], .s8,
     .leaf n.exampleNumber (str% "71123456"), .s8,
     .leaf n.nationalNumberPattern (str% "\n          (?:\n            321|\n            7(?:\n              [1-8]\\d|\n              9[03]\n            )\n          )\\d{5}\n        "), .s6], .s6, .comment, .s6,
   .elem n.tollFree []
    [.s8,
     .empty n.possibleLengths [(n.national, str% "10")], .s8,
     .leaf n.exampleNumber (str% "0800012345"), .s8,
     .leaf n.nationalNumberPattern (str% "\n          (?:\n            0800|\n            800\\d\n          )\\d{6}\n        "), .s6], .s6,
   .elem n.premiumRate []
    [.s8,
     .empty n.possibleLengths [(n.national, str% "7")], .s8,
     .leaf n.exampleNumber (str% "9012345"), .s8,
     .leaf n.nationalNumberPattern (str% "90\\d{5}"), .s6], .s6,
   .elem n.voip []
    [.s8,
     .empty n.possibleLengths [(n.national, str% "8")], .s8,
     .leaf n.exampleNumber (str% "79101234"), .s8,
     .leaf n.nationalNumberPattern (str% "\n          79(?:\n            1(?:\n              [0-2]\\d|\n              3[0-8]\n            )|\n            2[0-7]\\d\n          )\\d{3}\n        "), .s6], .s4]

/-- what stands before this territory -/
noncomputable def BY_before : List Node :=
  [.l4, .comment, .s4, .comment, .s4, .comment, .s4]
/-- its attributes -/
noncomputable def BY_attrs : List (Str × Str) := [(n.id, str% "BY"), (n.countryCode, str% "375"), (n.preferredInternationalPrefix, str% "8~10"), (n.internationalPrefix, str% "810"), (n.nationalPrefix, str% "8"), (n.nationalPrefixForParsing, str% "0|80?"), (n.mobileNumberPortableRegion, str% "true")]
/-- its content -/
noncomputable def BY : List Node :=
  [.s6,
   .elem n.availableFormats []
    [.s8, .comment, .s8,
     .elem n.numberFormat [(n.pattern, str% "(\\d{3})(\\d{3})"), (n.nationalPrefixFormattingRule, str% "$NP $FG")]
      [.s10,
       .leaf n.leadingDigits (str% "800"), .s10,
       .leaf n.format (str% "$1 $2"), .s8], .s8, .comment, .s8,
     .elem n.numberFormat [(n.pattern, str% "(\\d{3})(\\d{2})(\\d{2,4})"), (n.nationalPrefixFormattingRule, str% "$NP $FG")]
      [.s10,
       .leaf n.leadingDigits (str% "800"), .s10,
       .leaf n.format (str% "$1 $2 $3"), .s8], .s8, .comment, .s8,
     .elem n.numberFormat [(n.pattern, str% "(\\d{4})(\\d{2})(\\d{3})"), (n.nationalPrefixFormattingRule, str% "$NP 0$FG")]
      [.s10,
       .leaf n.leadingDigits (str% "\n            1(?:\n              5[169]|\n              6[3-5]|\n              7[179]\n            )|\n            2(?:\n              1[35]|\n              2[34]|\n              3[3-5]\n            )\n          "), .s10,
       .leaf n.leadingDigits (str% "\n            1(?:\n              5[169]|\n              6(?:\n                3[1-3]|\n                4|\n                5[125]\n              )|\n              7(?:\n                1[3-9]|\n                7[0-24-6]|\n                9[2-7]\n              )\n            )|\n            2(?:\n              1[35]|\n              2[34]|\n              3[3-5]\n            )\n          "), .s10,
       .leaf n.format (str% "$1 $2-$3"), .s8], .s8, .comment, .s8,
     .elem n.numberFormat [(n.pattern, str% "(\\d{3})(\\d{2})(\\d{2})(\\d{2})"), (n.nationalPrefixFormattingRule, str% "$NP 0$FG")]
      [.s10,
       .leaf n.leadingDigits (str% "\n            1(?:\n              [56]|\n              7[467]\n            )|\n            2[1-3]\n          "), .s10,
       .leaf n.format (str% "$1 $2-$3-$4"), .s8], .s8, .comment, .s8,
     .elem n.numberFormat [(n.pattern, str% "(\\d{2})(\\d{3})(\\d{2})(\\d{2})"), (n.nationalPrefixFormattingRule, str% "$NP 0$FG")]
      [.s10,
       .leaf n.leadingDigits (str% "[1-4]"), .s10,
       .leaf n.format (str% "$1 $2-$3-$4"), .s8], .s8, .comment, .s8,
     .elem n.numberFormat [(n.pattern, str% "(\\d{3})(\\d{3,4})(\\d{4})"), (n.nationalPrefixFormattingRule, str% "$NP $FG")]
      [.s10,
       .leaf n.leadingDigits (str% "[89]"), .s10,
       .leaf n.format (str% "$1 $2 $3"), .s8], .s6], .s6,
   .elem n.generalDesc []
    [.s8,
     .leaf n.nationalNumberPattern (str% "\n          (?:\n            [12]\\d|\n            33|\n            44|\n            902\n          )\\d{7}|\n          8(?:\n            0[0-79]\\d{5,7}|\n            [1-7]\\d{9}\n          )|\n          8(?:\n            1[0-489]|\n            [5-79]\\d\n          )\\d{7}|\n          8[1-79]\\d{6,7}|\n          8[0-79]\\d{5}|\n          8\\d{5}\n        "), .s6], .s6, .comment, .s6,
   .elem n.noInternationalDialling []
    [.s8,
     .empty n.possibleLengths [(n.national, str% "[6-11]")], .s8,
     .leaf n.nationalNumberPattern (str% "\n          800\\d{3,7}|\n          (?:\n            8(?:\n              0[13]|\n              10|\n              20\\d\n            )|\n            902\n          )\\d{7}\n        "), .s6], .s6, .comment, .s6,
   .elem n.fixedLine []
    [.s8,
     .empty n.possibleLengths [(n.national, str% "9"), (n.localOnly, str% "[5-7]")], .s8,
     .leaf n.exampleNumber (str% "152450911"), .s8,
     .leaf n.nationalNumberPattern (str% "\n          (?:\n            1(?:\n              5(?:\n                1[1-5]|\n                [24]\\d|\n                6[2-4]|\n                9[1-7]\n              )|\n              6(?:\n                [235]\\d|\n                4[1-7]\n              )|\n              7\\d\\d\n            )|\n            2(?:\n              1(?:\n                [246]\\d|\n                3[0-35-9]|\n                5[1-9]\n              )|\n              2(?:\n                [235]\\d|\n                4[0-8]\n              )|\n              3(?:\n                [26]\\d|\n                3[02-79]|\n                4[024-7]|\n                5[03-7]\n              )\n            )\n          )\\d{5}\n        "), .s6], .s6, .comment, .s6,
   .elem n.mobile []
    [.s8,
     .empty n.possibleLengths [(n.national, str% "9")], .s8,
     .leaf n.exampleNumber (str% "294911911"), .s8,
     .leaf n.nationalNumberPattern (str% "\n          (?:\n            2(?:\n              5[5-79]|\n              9[1-9]\n            )|\n            (?:\n              33|\n              44\n            )\\d\n          )\\d{6}\n        "), .s6], .s6, .comment, .s6,
   .elem n.tollFree []
    [.s8,
     .empty n.possibleLengths [(n.national, str% "[6-11]")], .s8,
     .leaf n.exampleNumber (str% "8011234567"), .s8,
     .leaf n.nationalNumberPattern (str% "\n          800\\d{3,7}|\n          8(?:\n            0[13]|\n            20\\d\n          )\\d{7}\n        "), .s6], .s6, .comment, .s6,
   .elem n.premiumRate []
    [.s8,
     .empty n.possibleLengths [(n.national, str% "10")], .s8,
     .leaf n.exampleNumber (str% "9021234567"), .s8,
     .leaf n.nationalNumberPattern (str% "\n          (?:\n            810|\n            902\n          )\\d{7}\n        "), .s6], .s6, .comment, .s6,
   .elem n.voip []
    [.s8,
     .empty n.possibleLengths [(n.national, str% "9")], .s8,
     .leaf n.exampleNumber (str% "249123456"), .s8,
     .leaf n.nationalNumberPattern (str% "249\\d{6}"), .s6], .s4]

/-- what stands before this territory -/
noncomputable def BZ_before : List Node :=
  [.l4, .comment, .s4, .comment, .s4, .comment, .s4]
/-- its attributes -/
noncomputable def BZ_attrs : List (Str × Str) := [(n.id, str% "BZ"), (n.countryCode, str% "501"), (n.internationalPrefix, str% "00")]
/-- its content -/
noncomputable def BZ : List Node :=
  [.s6,
   .elem n.availableFormats []
    [.s8, .comment, .s8,
     .elem n.numberFormat [(n.pattern, str% "(\\d{3})(\\d{4})")]
      [.s10,
       .leaf n.leadingDigits (str% "[2-8]"), .s10,
       .leaf n.format (str% "$1-$2"), .s8], .s8,
     .elem n.numberFormat [(n.pattern, str% "(\\d)(\\d{3})(\\d{4})(\\d{3})")]
      [.s10,
       .leaf n.leadingDigits (str% "0"), .s10,
       .leaf n.format (str% "$1-$2-$3-$4"), .s8], .s6], .s6,
   .elem n.generalDesc []
    [.s8,
     .leaf n.nationalNumberPattern (str% "\n          (?:\n            0800\\d|\n            [2-8]\n          )\\d{6}\n        "), .s6], .s6, .comment, .s6,
   .elem n.fixedLine []
    [.s8,
     .empty n.possibleLengths [(n.national, str% "7")], .s8,
     .leaf n.exampleNumber (str% "2221234"), .s8,
     .leaf n.nationalNumberPattern (str% "\n          (?:\n            2(?:\n              [02]\\d|\n              36|\n              [68]0\n            )|\n            [3-58](?:\n              [02]\\d|\n              [68]0\n            )|\n            7(?:\n              [02]\\d|\n              32|\n              [68]0\n            )\n          )\\d{4}\n        "), .s6], .s6, .comment, .s6,
   .elem n.mobile []
    [.s8,
     .empty n.possibleLengths [(n.national, str% "7")], .s8,
     .leaf n.exampleNumber (str% "6221234"), .s8,
     .leaf n.nationalNumberPattern (str% "6[0-35-7]\\d{5}"), .s6], .s6, .comment, .s6,
   .elem n.tollFree []
    [.s8,
     .empty n.possibleLengths [(n.national, str% "11")], .s8,
     .leaf n.exampleNumber (str% "08001234123"), .s8,
     .leaf n.nationalNumberPattern (str% "0800\\d{7}"), .s6], .s4]

/-- what stands before this territory -/
noncomputable def CA_before : List Node :=
  [.l4, .comment, .s4, .comment, .s4, .comment, .s4]
/-- its attributes -/
noncomputable def CA_attrs : List (Str × Str) := [(n.id, str% "CA"), (n.countryCode, str% "1"), (n.internationalPrefix, str% "011"), (n.nationalPrefix, str% "1"), (n.mobileNumberPortableRegion, str% "true")]
/-- its content -/
noncomputable def CA : List Node :=
  [.s6,
   .elem n.generalDesc []
    [.s8,
     .leaf n.nationalNumberPattern (str% "\n          [2-9]\\d{9}|\n          3\\d{6}\n        "), .s6], .s6,
   .elem n.fixedLine []
    [.s8,
     .empty n.possibleLengths [(n.national, str% "10"), (n.localOnly, str% "7")], .s8,
     .leaf n.exampleNumber (str% "5062345678"), .s8,
     .leaf n.nationalNumberPattern (str% "\n          (?:\n            2(?:\n              04|\n              [23]6|\n              [48]9|\n              5[07]|\n              63\n            )|\n            3(?:\n              06|\n              43|\n              54|\n              6[578]|\n              82\n            )|\n            4(?:\n              03|\n              1[68]|\n              [26]8|\n              3[178]|\n              50|\n              74\n            )|\n            5(?:\n              06|\n              1[49]|\n              48|\n              79|\n              8[147]\n            )|\n            6(?:\n              04|\n              [18]3|\n              39|\n              47|\n              72\n            )|\n            7(?:\n              0[59]|\n              42|\n              53|\n              78|\n              8[02]\n            )|\n            8(?:\n              [06]7|\n              19|\n              25|\n              7[39]\n            )|\n            9(?:\n              0[25]|\n              42\n            )\n          )[2-9]\\d{6}\n        "), .s6], .s6,
   .elem n.mobile []
    [.s8,
     .empty n.possibleLengths [(n.national, str% "10"), (n.localOnly, str% "7")], .s8,
     .leaf n.exampleNumber (str% "5062345678"), .s8,
     .leaf n.nationalNumberPattern (str% "\n          (?:\n            2(?:\n              04|\n              [23]6|\n              [48]9|\n              5[07]|\n              63\n            )|\n            3(?:\n              06|\n              43|\n              54|\n              6[578]|\n              82\n            )|\n            4(?:\n              03|\n              1[68]|\n              [26]8|\n              3[178]|\n              50|\n              74\n            )|\n            5(?:\n              06|\n              1[49]|\n              48|\n              79|\n              8[147]\n            )|\n            6(?:\n              04|\n              [18]3|\n              39|\n              47|\n              72\n            )|\n            7(?:\n              0[59]|\n              42|\n              53|\n              78|\n              8[02]\n            )|\n            8(?:\n              [06]7|\n              19|\n              25|\n              7[39]\n            )|\n            9(?:\n              0[25]|\n              42\n            )\n          )[2-9]\\d{6}\n        "), .s6], .s6,
   .elem n.tollFree []
    [.s8,
     .empty n.possibleLengths [(n.national, str% "10")], .s8,
     .leaf n.exampleNumber (str% "8002123456"), .s8,
     .leaf n.nationalNumberPattern (str% "\n          8(?:\n            00|\n            33|\n            44|\n            55|\n            66|\n            77|\n            88\n          )[2-9]\\d{6}\n        "), .s6], .s6,
   .elem n.premiumRate []
    [.s8,
     .empty n.possibleLengths [(n.national, str% "10")], .s8,
     .leaf n.exampleNumber (str% "9002123456"), .s8,
     .leaf n.nationalNumberPattern (str% "900[2-9]\\d{6}"), .s6], .s6, .comment, .s6,
   .elem n.personalNumber []
    [.s8,
     .empty n.possibleLengths [(n.national, str% "10")], .s8,
     .leaf n.exampleNumber (str% "5219023456"), .s8,
     .leaf n.nationalNumberPattern (str% "\n          52(?:\n            3(?:\n              [2-46-9][02-9]\\d|\n              5(?:\n                [02-46-9]\\d|\n                5[0-46-9]\n              )\n            )|\n            4(?:\n              [2-478][02-9]\\d|\n              5(?:\n                [034]\\d|\n                2[024-9]|\n                5[0-46-9]\n              )|\n              6(?:\n                0[1-9]|\n                [2-9]\\d\n              )|\n              9(?:\n                [05-9]\\d|\n                2[0-5]|\n                49\n              )\n            )\n          )\\d{4}|\n          52[34][2-9]1[02-9]\\d{4}|\n          (?:\n            5(?:\n              2[125-9]|\n              3[23]|\n              44|\n              66|\n              77|\n              88\n            )|\n            6(?:\n              22|\n              33\n            )\n          )[2-9]\\d{6}\n        "), .s6], .s6, .comment, .s6,
   .elem n.voip []
    [.s8,
     .empty n.possibleLengths [(n.national, str% "10")], .s8,
     .leaf n.exampleNumber (str% "6002012345"), .s8,
     .leaf n.nationalNumberPattern (str% "600[2-9]\\d{6}"), .s6], .s6, .comment, .s6,
   .elem n.uan []
    [.s8,
     .empty n.possibleLengths [(n.national, str% "7")], .s8,
     .leaf n.exampleNumber (str% "3101234"), .s8,
     .leaf n.nationalNumberPattern (str% "310\\d{4}"), .s6], .s4]

/-- what stands before this territory -/
noncomputable def CC_before : List Node :=
  [.l4, .comment, .s4, .comment, .s4, .comment, .s4, .comment, .s4, .comment, .s4, .comment, .s4]
/-- its attributes -/
noncomputable def CC_attrs : List (Str × Str) := [(n.id, str% "CC"), (n.countryCode, str% "61"), (n.preferredInternationalPrefix, str% "0011"), (n.internationalPrefix, str% "001[14-689]|14(?:1[14]|34|4[17]|[56]6|7[47]|88)0011"), (n.nationalPrefix, str% "0"), (n.nationalPrefixForParsing, str% "([59]\\d{7})$|0"), (n.nationalPrefixTransformRule, str% "8$1")]
/-- its content -/
noncomputable def CC : List Node :=
  [.s6,
   .elem n.generalDesc []
    [.s8,
     .leaf n.nationalNumberPattern (str% "\n          1(?:\n            [0-79]\\d{8}(?:\n              \\d{2}\n            )?|\n            8[0-24-9]\\d{7}\n          )|\n          [148]\\d{8}|\n          1\\d{5,7}\n        "), .s6], .s6,
   .elem n.fixedLine []
    [.s8,
     .empty n.possibleLengths [(n.national, str% "9"), (n.localOnly, str% "8")], .s8,
     .leaf n.exampleNumber (str% "891621234"), .s8,
     .leaf n.nationalNumberPattern (str% "\n          8(?:\n            51(?:\n              0(?:\n                02|\n                31|\n                60|\n                89\n              )|\n              1(?:\n                18|\n                76\n              )|\n              223\n            )|\n            91(?:\n              0(?:\n                1[0-2]|\n                29\n              )|\n              1(?:\n                [28]2|\n                50|\n                79\n              )|\n              2(?:\n                10|\n                64\n              )|\n              3(?:\n                [06]8|\n                22\n              )|\n              4[29]8|\n              62\\d|\n              70[23]|\n              959\n            )\n          )\\d{3}\n        "), .s6], .s6, .comment, .s6,
   .elem n.mobile []
    [.s8,
     .empty n.possibleLengths [(n.national, str% "9")], .s8,
     .leaf n.exampleNumber (str% "412345678"), .s8,
     .leaf n.nationalNumberPattern (str% "\n          4(?:\n            79[01]|\n            83[0-36-9]|\n            95[0-3]\n          )\\d{5}|\n          4(?:\n            [0-36]\\d|\n            4[047-9]|\n            [58][0-24-9]|\n            7[02-8]|\n            9[0-47-9]\n          )\\d{6}\n        "), .s6], .s6,
   .elem n.tollFree []
    [.s8,
     .empty n.possibleLengths [(n.national, str% "7,10")], .s8,
     .leaf n.exampleNumber (str% "1800123456"), .s8,
     .leaf n.nationalNumberPattern (str% "\n          180(?:\n            0\\d{3}|\n            2\n          )\\d{3}\n        "), .s6], .s6,
   .elem n.premiumRate []
    [.s8,
     .empty n.possibleLengths [(n.national, str% "10")], .s8,
     .leaf n.exampleNumber (str% "1900123456"), .s8,
     .leaf n.nationalNumberPattern (str% "190[0-26]\\d{6}"), .s6], .s6, .comment, .s6,
   .elem n.sharedCost []
    [.s8,
     .empty n.possibleLengths [(n.national, str% "6,8,10,12")], .s8,
     .leaf n.exampleNumber (str% "1300123456"), .s8,
     .leaf n.nationalNumberPattern (str% "\n          13(?:\n            00\\d{6}(?:\n              \\d{2}\n            )?|\n            45[0-4]\\d{3}\n          )|\n          13\\d{4}\n        "), .s6], .s6,
   .elem n.voip []
    [.s8,
     .empty n.possibleLengths [(n.national, str% "9")], .s8,
     .leaf n.exampleNumber (str% "147101234"), .s8,
     .leaf n.nationalNumberPattern (str% "\n          14(?:\n            5(?:\n              1[0458]|\n              [23][458]\n            )|\n            71\\d\n          )\\d{4}\n        "), .s6], .s4]

/-- what stands before this territory -/
noncomputable def CD_before : List Node :=
  [.l4, .comment, .s4, .comment, .s4]
/-- its attributes -/
noncomputable def CD_attrs : List (Str × Str) := [(n.id, str% "CD"), (n.countryCode, str% "243"), (n.internationalPrefix, str% "00"), (n.nationalPrefix, str% "0")]
/-- its content -/
noncomputable def CD : List Node :=
  [.s6,
   .elem n.availableFormats []
    [.s8,
     .elem n.numberFormat [(n.pattern, str% "(\\d{2})(\\d{2})(\\d{3})"), (n.nationalPrefixFormattingRule, str% "$NP$FG")]
      [.s10,
       .leaf n.leadingDigits (str% "88"), .s10,
       .leaf n.format (str% "$1 $2 $3"), .s8], .s8,
     .elem n.numberFormat [(n.pattern, str% "(\\d{2})(\\d{5})"), (n.nationalPrefixFormattingRule, str% "$NP$FG")]
      [.s10,
       .leaf n.leadingDigits (str% "[1-6]"), .s10,
       .leaf n.format (str% "$1 $2"), .s8], .s8,
     .elem n.numberFormat [(n.pattern, str% "(\\d{2})(\\d{2})(\\d{4})"), (n.nationalPrefixFormattingRule, str% "$NP$FG")]
      [.s10,
       .leaf n.leadingDigits (str% "2"), .s10,
       .leaf n.format (str% "$1 $2 $3"), .s8], .s8,
     .elem n.numberFormat [(n.pattern, str% "(\\d{2})(\\d{3})(\\d{4})"), (n.nationalPrefixFormattingRule, str% "$NP$FG")]
      [.s10,
       .leaf n.leadingDigits (str% "1"), .s10,
       .leaf n.format (str% "$1 $2 $3"), .s8], .s8,
     .elem n.numberFormat [(n.pattern, str% "(\\d{3})(\\d{3})(\\d{3})"), (n.nationalPrefixFormattingRule, str% "$NP$FG")]
      [.s10,
       .leaf n.leadingDigits (str% "[89]"), .s10,
       .leaf n.format (str% "$1 $2 $3"), .s8], .s8,
     .elem n.numberFormat [(n.pattern, str% "(\\d{2})(\\d{2})(\\d{3})(\\d{3})"), (n.nationalPrefixFormattingRule, str% "$NP$FG")]
      [.s10,
       .leaf n.leadingDigits (str% "5"), .s10,
       .leaf n.format (str% "$1 $2 $3 $4"), .s8], .s6], .s6,
   .elem n.generalDesc []
    [.s8,
     .leaf n.nationalNumberPattern (str% "\n          (?:\n            (?:\n              [189]|\n              5\\d\n            )\\d|\n            2\n          )\\d{7}|\n          [1-68]\\d{6}\n        "), .s6], .s6,
   .elem n.fixedLine []
    [.s8,
     .empty n.possibleLengths [(n.national, str% "[7-10]")], .s8,
     .leaf n.exampleNumber (str% "1234567"), .s8,
     .leaf n.nationalNumberPattern (str% "\n          (?:\n            (?:\n              12|\n              573\n            )\\d\\d|\n            276\n          )\\d{5}|\n          [1-6]\\d{6}\n        "), .s6], .s6, .comment, .s6,
   .elem n.mobile []
    [.s8,
     .empty n.possibleLengths [(n.national, str% "7,9")], .s8,
     .leaf n.exampleNumber (str% "991234567"), .s8,
     .leaf n.nationalNumberPattern (str% "\n          88\\d{5}|\n          (?:\n            8[0-69]|\n            9[016-9]\n          )\\d{7}\n        "), .s6], .s4]

/-- what stands before this territory -/
noncomputable def CF_before : List Node :=
  [.l4, .comment, .s4, .comment, .s4]
/-- its attributes -/
noncomputable def CF_attrs : List (Str × Str) := [(n.id, str% "CF"), (n.countryCode, str% "236"), (n.internationalPrefix, str% "00")]
/-- its content -/
noncomputable def CF : List Node :=
  [.s6,
   .elem n.availableFormats []
    [.s8,
     .elem n.numberFormat [(n.pattern, str% "(\\d{2})(\\d{2})(\\d{2})(\\d{2})")]
      [.s10,
       .leaf n.leadingDigits (str% "[26-8]"), .s10,
       .leaf n.format (str% "$1 $2 $3 $4"), .s8], .s6], .s6,
   .elem n.generalDesc []
    [.s8,
     .leaf n.nationalNumberPattern (str% "\n          8776\\d{4}|\n          (?:\n            [27]\\d|\n            61\n          )\\d{6}\n        "), .s6], .s6,
   .elem n.fixedLine []
    [.s8,
     .empty n.possibleLengths [(n.national, str% "8")], .s8,
     .leaf n.exampleNumber (str% "21612345"), .s8,
     .leaf n.nationalNumberPattern (str% "\n          (?:\n            2[12]|\n            61\n          )\\d{6}\n        "), .s6], .s6,
   .elem n.mobile []
    [.s8,
     .empty n.possibleLengths [(n.national, str% "8")], .s8,
     .leaf n.exampleNumber (str% "70012345"), .s8,
     .leaf n.nationalNumberPattern (str% "7[02-7]\\d{6}"), .s6], .s6,
   .elem n.premiumRate []
    [.s8,
     .empty n.possibleLengths [(n.national, str% "8")], .s8,
     .leaf n.exampleNumber (str% "87761234"), .s8,
     .leaf n.nationalNumberPattern (str% "8776\\d{4}"), .s6], .s4]

/-- what stands before this territory -/
noncomputable def CG_before : List Node :=
  [.l4, .comment, .s4, .comment, .s4]
/-- its attributes -/
noncomputable def CG_attrs : List (Str × Str) := [(n.id, str% "CG"), (n.countryCode, str% "242"), (n.internationalPrefix, str% "00")]
/-- its content -/
noncomputable def CG : List Node :=
  [.s6,
   .elem n.availableFormats []
    [.s8,
     .elem n.numberFormat [(n.pattern, str% "(\\d)(\\d{4})(\\d{4})")]
      [.s10,
       .leaf n.leadingDigits (str% "8"), .s10,
       .leaf n.format (str% "$1 $2 $3"), .s8], .s8,
     .elem n.numberFormat [(n.pattern, str% "(\\d{2})(\\d{3})(\\d{4})")]
      [.s10,
       .leaf n.leadingDigits (str% "[02]"), .s10,
       .leaf n.format (str% "$1 $2 $3"), .s8], .s6], .s6,
   .elem n.generalDesc []
    [.s8,
     .leaf n.nationalNumberPattern (str% "\n          222\\d{6}|\n          (?:\n            0\\d|\n            80\n          )\\d{7}\n        "), .s6], .s6,
   .elem n.fixedLine []
    [.s8,
     .empty n.possibleLengths [(n.national, str% "9")], .s8,
     .leaf n.exampleNumber (str% "222123456"), .s8,
     .leaf n.nationalNumberPattern (str% "222[1-589]\\d{5}"), .s6], .s6,
   .elem n.mobile []
    [.s8,
     .empty n.possibleLengths [(n.national, str% "9")], .s8,
     .leaf n.exampleNumber (str% "061234567"), .s8,
     .leaf n.nationalNumberPattern (str% "\n          026(?:\n            1[0-5]|\n            6[6-9]\n          )\\d{4}|\n          0(?:\n            [14-6]\\d\\d|\n            2(?:\n              40|\n              5[5-8]|\n              6[07-9]\n            )\n          )\\d{5}\n        "), .s6], .s6, .comment, .s6, .comment, .s6,
   .elem n.premiumRate []
    [.s8,
     .empty n.possibleLengths [(n.national, str% "9")], .s8,
     .leaf n.exampleNumber (str% "800123456"), .s8,
     .leaf n.nationalNumberPattern (str% "80[0-2]\\d{6}"), .s6], .s4]

/-- what stands before this territory -/
noncomputable def CH_before : List Node :=
  [.l4, .comment, .s4, .comment, .s4, .comment, .s4]
/-- its attributes -/
noncomputable def CH_attrs : List (Str × Str) := [(n.id, str% "CH"), (n.countryCode, str% "41"), (n.internationalPrefix, str% "00"), (n.nationalPrefix, str% "0"), (n.mobileNumberPortableRegion, str% "true")]
/-- its content -/
noncomputable def CH : List Node :=
  [.s6,
   .elem n.availableFormats []
    [.s8,
     .elem n.numberFormat [(n.pattern, str% "(\\d{3})(\\d{3})(\\d{3})"), (n.nationalPrefixFormattingRule, str% "$NP$FG")]
      [.s10,
       .leaf n.leadingDigits (str% "\n            8[047]|\n            90\n          "), .s10,
       .leaf n.format (str% "$1 $2 $3"), .s8], .s8,
     .elem n.numberFormat [(n.pattern, str% "(\\d{2})(\\d{3})(\\d{2})(\\d{2})"), (n.nationalPrefixFormattingRule, str% "$NP$FG")]
      [.s10,
       .leaf n.leadingDigits (str% "\n            [2-79]|\n            81\n          "), .s10,
       .leaf n.format (str% "$1 $2 $3 $4"), .s8], .s8,
     .elem n.numberFormat [(n.pattern, str% "(\\d{3})(\\d{2})(\\d{3})(\\d{2})(\\d{2})"), (n.nationalPrefixFormattingRule, str% "$NP$FG")]
      [.s10,
       .leaf n.leadingDigits (str% "8"), .s10,
       .leaf n.format (str% "$1 $2 $3 $4 $5"), .s8], .s6], .s6,
   .elem n.generalDesc []
    [.s8,
     .leaf n.nationalNumberPattern (str% "\n          8\\d{11}|\n          [2-9]\\d{8}\n        "), .s6], .s6,
   .elem n.fixedLine []
    [.s8,
     .empty n.possibleLengths [(n.national, str% "9")], .s8,
     .leaf n.exampleNumber (str% "212345678"), .s8,
     .leaf n.nationalNumberPattern (str% "\n          (?:\n            2[12467]|\n            3[1-4]|\n            4[134]|\n            5[256]|\n            6[12]|\n            [7-9]1\n          )\\d{7}\n        "), .s6], .s6,
   .elem n.mobile []
    [.s8,
     .empty n.possibleLengths [(n.national, str% "9")], .s8,
     .leaf n.exampleNumber (str% "781234567"), .s8,
     .leaf n.nationalNumberPattern (str% "\n          (?:\n            6[89]|\n            7[235-9]\n          )\\d{7}\n        "), .s6], .s6, .comment, .s6,
   .elem n.pager []
    [.s8,
     .empty n.possibleLengths [(n.national, str% "9")], .s8,
     .leaf n.exampleNumber (str% "740123456"), .s8,
     .leaf n.nationalNumberPattern (str% "74[0248]\\d{6}"), .s6], .s6,
   .elem n.tollFree []
    [.s8,
     .empty n.possibleLengths [(n.national, str% "9")], .s8,
     .leaf n.exampleNumber (str% "800123456"), .s8,
     .leaf n.nationalNumberPattern (str% "800\\d{6}"), .s6], .s6,
   .elem n.premiumRate []
    [.s8,
     .empty n.possibleLengths [(n.national, str% "9")], .s8,
     .leaf n.exampleNumber (str% "900123456"), .s8,
     .leaf n.nationalNumberPattern (str% "90[016]\\d{6}"), .s6], .s6,
   .elem n.sharedCost []
    [.s8,
     .empty n.possibleLengths [(n.national, str% "9")], .s8,
     .leaf n.exampleNumber (str% "840123456"), .s8,
     .leaf n.nationalNumberPattern (str% "84[0248]\\d{6}"), .s6], .s6,
   .elem n.personalNumber []
    [.s8,
     .empty n.possibleLengths [(n.national, str% "9")], .s8,
     .leaf n.exampleNumber (str% "878123456"), .s8,
     .leaf n.nationalNumberPattern (str% "878\\d{6}"), .s6], .s6, .comment, .s6,
   .elem n.uan []
    [.s8,
     .empty n.possibleLengths [(n.national, str% "9")], .s8,
     .leaf n.exampleNumber (str% "581234567"), .s8,
     .leaf n.nationalNumberPattern (str% "5[18]\\d{7}"), .s6], .s6,
   .elem n.voicemail []
    [.s8,
     .empty n.possibleLengths [(n.national, str% "12")], .s8,
     .leaf n.exampleNumber (str% "860123456789"), .s8,
     .leaf n.nationalNumberPattern (str% "860\\d{9}"), .s6], .s4]

/-- what stands before this territory -/
noncomputable def CI_before : List Node :=
  [.l4, .comment, .s4, .comment, .s4, .comment, .s4]
/-- its attributes -/
noncomputable def CI_attrs : List (Str × Str) := [(n.id, str% "CI"), (n.countryCode, str% "225"), (n.internationalPrefix, str% "00")]
/-- its content -/
noncomputable def CI : List Node :=
  [.s6,
   .elem n.availableFormats []
    [.s8,
     .elem n.numberFormat [(n.pattern, str% "(\\d{2})(\\d{2})(\\d)(\\d{5})")]
      [.s10,
       .leaf n.leadingDigits (str% "2"), .s10,
       .leaf n.format (str% "$1 $2 $3 $4"), .s8], .s8,
     .elem n.numberFormat [(n.pattern, str% "(\\d{2})(\\d{2})(\\d{2})(\\d{4})")]
      [.s10,
       .leaf n.leadingDigits (str% "0"), .s10,
       .leaf n.format (str% "$1 $2 $3 $4"), .s8], .s6], .s6,
   .elem n.generalDesc []
    [.s8,
     .leaf n.nationalNumberPattern (str% "[02]\\d{9}"), .s6], .s6,
   .elem n.fixedLine []
    [.s8,
     .empty n.possibleLengths [(n.national, str% "10")], .s8,
     .leaf n.exampleNumber (str% "2123456789"), .s8,
     .leaf n.nationalNumberPattern (str% "\n          2(?:\n            [15]\\d{3}|\n            7(?:\n              2(?:\n                0[23]|\n                1[2357]|\n                2[245]|\n                3[45]|\n                4[3-5]\n              )|\n              3(?:\n                06|\n                1[69]|\n                [2-6]7\n              )\n            )\n          )\\d{5}\n        "), .s6], .s6, .comment, .s6,
   .elem n.mobile []
    [.s8,
     .empty n.possibleLengths [(n.national, str% "10")], .s8,
     .leaf n.exampleNumber (str% "0123456789"), .s8,
     .leaf n.nationalNumberPattern (str% "0[157]\\d{8}"), .s6], .s4]

/-- what stands before this territory -/
noncomputable def CK_before : List Node :=
  [.l4, .comment, .s4, .comment, .s4]
/-- its attributes -/
noncomputable def CK_attrs : List (Str × Str) := [(n.id, str% "CK"), (n.countryCode, str% "682"), (n.internationalPrefix, str% "00")]
/-- its content -/
noncomputable def CK : List Node :=
  [.s6,
   .elem n.availableFormats []
    [.s8,
     .elem n.numberFormat [(n.pattern, str% "(\\d{2})(\\d{3})")]
      [.s10,
       .leaf n.leadingDigits (str% "[2-578]"), .s10,
       .leaf n.format (str% "$1 $2"), .s8], .s6], .s6,
   .elem n.generalDesc []
    [.s8,
     .leaf n.nationalNumberPattern (str% "[2-578]\\d{4}"), .s6], .s6,
   .elem n.fixedLine []
    [.s8,
     .empty n.possibleLengths [(n.national, str% "5")], .s8,
     .leaf n.exampleNumber (str% "21234"), .s8,
     .leaf n.nationalNumberPattern (str% "\n          (?:\n            2\\d|\n            3[13-7]|\n            4[1-5]\n          )\\d{3}\n        "), .s6], .s6,
   .elem n.mobile []
    [.s8,
     .empty n.possibleLengths [(n.national, str% "5")], .s8,
     .leaf n.exampleNumber (str% "71234"), .s8,
     .leaf n.nationalNumberPattern (str% "[578]\\d{4}"), .s6], .s4]

/-- what stands before this territory -/
noncomputable def CL_before : List Node :=
  [.l4, .comment, .s4, .comment, .s4, .comment, .s4, .comment, .s4, .comment, .s4, .comment, .s4, .comment, .s4]
/-- its attributes -/
noncomputable def CL_attrs : List (Str × Str) := [(n.id, str% "CL"), (n.countryCode, str% "56"), (n.internationalPrefix, str% "(?:0|1(?:1[0-69]|2[02-5]|5[13-58]|69|7[0167]|8[018]))0"), (n.mobileNumberPortableRegion, str% "true")]
/-- its content -/
noncomputable def CL : List Node :=
  [.s6,
   .elem n.availableFormats []
    [.s8, .comment, .s8,
     .elem n.numberFormat [(n.pattern, str% "(\\d{4})")]
      [.s10,
       .leaf n.leadingDigits (str% "\n            1(?:\n              [03-589]|\n              21\n            )|\n            [29]0|\n            78\n          "), .s10,
       .leaf n.format (str% "$1"), .s10,
       .leaf n.intlFormat (str% "NA"), .s8], .s8, .comment, .s8,
     .elem n.numberFormat [(n.pattern, str% "(\\d{5})(\\d{4})"), (n.nationalPrefixFormattingRule, str% "($FG)")]
      [.s10,
       .leaf n.leadingDigits (str% "219"), .s10,
       .leaf n.leadingDigits (str% "2196"), .s10,
       .leaf n.format (str% "$1 $2"), .s8], .s8,
     .elem n.numberFormat [(n.pattern, str% "(\\d{3})(\\d{3})(\\d{3})")]
      [.s10,
       .leaf n.leadingDigits (str% "\n            60|\n            809\n          "), .s10,
       .leaf n.format (str% "$1 $2 $3"), .s8], .s8, .comment, .s8,
     .elem n.numberFormat [(n.pattern, str% "(\\d{2})(\\d{3})(\\d{4})")]
      [.s10,
       .leaf n.leadingDigits (str% "44"), .s10,
       .leaf n.format (str% "$1 $2 $3"), .s8], .s8, .comment, .s8,
     .elem n.numberFormat [(n.pattern, str% "(\\d)(\\d{4})(\\d{4})"), (n.nationalPrefixFormattingRule, str% "($FG)")]
      [.s10,
       .leaf n.leadingDigits (str% "2[1-36]"), .s10,
       .leaf n.format (str% "$1 $2 $3"), .s8], .s8, .comment, .s8,
     .elem n.numberFormat [(n.pattern, str% "(\\d)(\\d{4})(\\d{4})")]
      [.s10,
       .leaf n.leadingDigits (str% "\n            9(?:\n              10|\n              [2-9]\n            )\n          "), .s10,
       .leaf n.format (str% "$1 $2 $3"), .s8], .s8, .comment, .s8,
     .elem n.numberFormat [(n.pattern, str% "(\\d{2})(\\d{3})(\\d{4})"), (n.nationalPrefixFormattingRule, str% "($FG)")]
      [.s10,
       .leaf n.leadingDigits (str% "\n            3[2-5]|\n            [47]|\n            5[1-3578]|\n            6[13-57]|\n            8(?:\n              0[1-8]|\n              [1-9]\n            )\n          "), .s10,
       .leaf n.format (str% "$1 $2 $3"), .s8], .s8, .comment, .s8,
     .elem n.numberFormat [(n.pattern, str% "(\\d{3})(\\d{3})(\\d{3,4})")]
      [.s10,
       .leaf n.leadingDigits (str% "\n            60|\n            8\n          "), .s10,
       .leaf n.format (str% "$1 $2 $3"), .s8], .s8, .comment, .s8,
     .elem n.numberFormat [(n.pattern, str% "(\\d{4})(\\d{3})(\\d{4})")]
      [.s10,
       .leaf n.leadingDigits (str% "1"), .s10,
       .leaf n.format (str% "$1 $2 $3"), .s8], .s8, .comment, .s8,
     .elem n.numberFormat [(n.pattern, str% "(\\d{3})(\\d{3})(\\d{2})(\\d{3})")]
      [.s10,
       .leaf n.leadingDigits (str% "60"), .s10,
       .leaf n.format (str% "$1 $2 $3 $4"), .s8], .s6], .s6,
   .elem n.generalDesc []
    [.s8,
     .leaf n.nationalNumberPattern (str% "\n          12300\\d{6}|\n          6\\d{9,10}|\n          [2-9]\\d{8}\n        "), .s6], .s6,
   .elem n.noInternationalDialling []
    [.s8,
     .empty n.possibleLengths [(n.national, str% "10,11")], .s8,
     .leaf n.nationalNumberPattern (str% "600\\d{7,8}"), .s6], .s6, .comment, .s6, .comment, .s6, .comment, .s6,
   .elem n.fixedLine []
    [.s8,
     .empty n.possibleLengths [(n.national, str% "9")], .s8,
     .leaf n.exampleNumber (str% "600123456"), .s8,
     .leaf n.nationalNumberPattern (str% "\n          2(?:\n            1982[0-6]|\n            3314[05-9]\n          )\\d{3}|\n          (?:\n            2(?:\n              1(?:\n                160|\n                962\n              )|\n              3(?:\n                (?:\n                  [24]\\d|\n                  50\n                )\\d|\n                3(?:\n                  [034679]\\d|\n                  1[0-35-9]|\n                  2[1-9]|\n                  5[0-24-9]|\n                  8[0-389]\n                )|\n                600\n              )|\n              646[59]\n            )|\n            (?:\n              600|\n              80[1-9]\n            )\\d\\d|\n            9(?:\n              (?:\n                10[0-2]|\n                7[1-9]\\d\n              )\\d|\n              3(?:\n                [0-57-9]\\d\\d|\n                6(?:\n                  0[02-9]|\n                  [1-9]\\d\n                )\n              )|\n              6(?:\n                [0-8]\\d\\d|\n                9(?:\n                  [02-79]\\d|\n                  1[05-9]\n                )\n              )|\n              9(?:\n                [03-9]\\d\\d|\n                1(?:\n                  [0235-9]\\d|\n                  4[0-24-9]\n                )|\n                2(?:\n                  [0-79]\\d|\n                  8[0-46-9]\n                )\n              )\n            )\n          )\\d{4}|\n          (?:\n            22|\n            3[2-5]|\n            [47][1-35]|\n            5[1-3578]|\n            6[13-57]|\n            8[1-9]|\n            9[2458]\n          )\\d{7}\n        "), .s6], .s6, .comment, .s6,
   .elem n.mobile []
    [.s8,
     .empty n.possibleLengths [(n.national, str% "9")], .s8,
     .leaf n.exampleNumber (str% "221234567"), .s8,
     .leaf n.nationalNumberPattern (str% "\n          2(?:\n            1982[0-6]|\n            3314[05-9]\n          )\\d{3}|\n          (?:\n            2(?:\n              1(?:\n                160|\n                962\n              )|\n              3(?:\n                (?:\n                  [24]\\d|\n                  50\n                )\\d|\n                3(?:\n                  [034679]\\d|\n                  1[0-35-9]|\n                  2[1-9]|\n                  5[0-24-9]|\n                  8[0-389]\n                )|\n                600\n              )|\n              646[59]\n            )|\n            80[1-8]\\d\\d|\n            9(?:\n              (?:\n                10[0-2]|\n                7[1-9]\\d\n              )\\d|\n              3(?:\n                [0-57-9]\\d\\d|\n                6(?:\n                  0[02-9]|\n                  [1-9]\\d\n                )\n              )|\n              6(?:\n                [0-8]\\d\\d|\n                9(?:\n                  [02-79]\\d|\n                  1[05-9]\n                )\n              )|\n              9(?:\n                [03-9]\\d\\d|\n                1(?:\n                  [0235-9]\\d|\n                  4[0-24-9]\n                )|\n                2(?:\n                  [0-79]\\d|\n                  8[0-46-9]\n                )\n              )\n            )\n          )\\d{4}|\n          (?:\n            22|\n            3[2-5]|\n            [47][1-35]|\n            5[1-3578]|\n            6[13-57]|\n            8[1-9]|\n            9[2458]\n          )\\d{7}\n        "), .s6], .s6, .comment, .s6, .comment, .s6,
   .elem n.tollFree []
    [.s8,
     .empty n.possibleLengths [(n.national, str% "9,11")], .s8,
     .leaf n.exampleNumber (str% "800123456"), .s8,
     .leaf n.nationalNumberPattern (str% "\n          (?:\n            123|\n            8\n          )00\\d{6}\n        "), .s6], .s6, .comment, .s6,
   .elem n.sharedCost []
    [.s8,
     .empty n.possibleLengths [(n.national, str% "10,11")], .s8,
     .leaf n.exampleNumber (str% "6001234567"), .s8,
     .leaf n.nationalNumberPattern (str% "600\\d{7,8}"), .s6], .s6,
   .elem n.voip []
    [.s8,
     .empty n.possibleLengths [(n.national, str% "9")], .s8,
     .leaf n.exampleNumber (str% "441234567"), .s8,
     .leaf n.nationalNumberPattern (str% "44\\d{7}"), .s6], .s4]

/-- what stands before this territory -/
noncomputable def CM_before : List Node :=
  [.l4, .comment, .s4, .comment, .s4, .comment, .s4]
/-- its attributes -/
noncomputable def CM_attrs : List (Str × Str) := [(n.id, str% "CM"), (n.countryCode, str% "237"), (n.internationalPrefix, str% "00"), (n.mobileNumberPortableRegion, str% "true")]
/-- its content -/
noncomputable def CM : List Node :=
  [.s6,
   .elem n.availableFormats []
    [.s8,
     .elem n.numberFormat [(n.pattern, str% "(\\d{2})(\\d{2})(\\d{2})(\\d{2})")]
      [.s10,
       .leaf n.leadingDigits (str% "88"), .s10,
       .leaf n.format (str% "$1 $2 $3 $4"), .s8], .s8, .comment, .s8,
     .elem n.numberFormat [(n.pattern, str% "(\\d)(\\d{2})(\\d{2})(\\d{2})(\\d{2})")]
      [.s10,
       .leaf n.leadingDigits (str% "\n            [26]|\n            88\n          "), .s10,
       .leaf n.format (str% "$1 $2 $3 $4 $5"), .s8], .s6], .s6,
   .elem n.generalDesc []
    [.s8,
     .leaf n.nationalNumberPattern (str% "\n          [26]\\d{8}|\n          88\\d{6,7}\n        "), .s6], .s6, .comment, .s6,
   .elem n.fixedLine []
    [.s8,
     .empty n.possibleLengths [(n.national, str% "9")], .s8,
     .leaf n.exampleNumber (str% "222123456"), .s8,
     .leaf n.nationalNumberPattern (str% "\n          2(?:\n            22|\n            33\n          )\\d{6}\n        "), .s6], .s6, .comment, .s6,
   .elem n.mobile []
    [.s8,
     .empty n.possibleLengths [(n.national, str% "9")], .s8,
     .leaf n.exampleNumber (str% "671234567"), .s8,
     .leaf n.nationalNumberPattern (str% "\n          (?:\n            24[23]|\n            6(?:\n              [25-9]\\d|\n              4[01]\n            )\n          )\\d{6}\n        "), .s6], .s6, .comment, .s6,
   .elem n.tollFree []
    [.s8,
     .empty n.possibleLengths [(n.national, str% "8,9")], .s8,
     .leaf n.exampleNumber (str% "88012345"), .s8,
     .leaf n.nationalNumberPattern (str% "88\\d{6,7}"), .s6], .s4]

/-- the nodes of this module -/
noncomputable def chunk02 : List (List Node × List (Str × Str) × List Node) :=
  [(BM_before, BM_attrs, BM), (BN_before, BN_attrs, BN), (BO_before, BO_attrs, BO), (BQ_before, BQ_attrs, BQ),
   (BR_before, BR_attrs, BR), (BS_before, BS_attrs, BS), (BT_before, BT_attrs, BT), (BW_before, BW_attrs, BW),
   (BY_before, BY_attrs, BY), (BZ_before, BZ_attrs, BZ), (CA_before, CA_attrs, CA), (CC_before, CC_attrs, CC),
   (CD_before, CD_attrs, CD), (CF_before, CF_attrs, CF), (CG_before, CG_attrs, CG), (CH_before, CH_attrs, CH),
   (CI_before, CI_attrs, CI), (CK_before, CK_attrs, CK), (CL_before, CL_attrs, CL), (CM_before, CM_attrs, CM)]

end Phone.Data.X
