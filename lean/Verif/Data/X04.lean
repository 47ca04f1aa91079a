import Verif.Data.XNames
/-! Territories of `/repo/assets/PhoneNumberMetadata.xml` as trees. Generated by `tools/gen_xml.py`; do not edit. -/

set_option maxRecDepth 100000
namespace Phone.Data.X
open Phone.Xml

/-- what stands before this territory -/
noncomputable def CU_before : List Node :=
  [.l4, .comment, .s4, .comment, .s4]
/-- its attributes -/
noncomputable def CU_attrs : List (Str × Str) := [(n.id, str% "CU"), (n.countryCode, str% "53"), (n.internationalPrefix, str% "119"), (n.nationalPrefix, str% "0")]
/-- its content -/
noncomputable def CU : List Node :=
  [.s6,
   .elem n.availableFormats []
    [.s8,
     .elem n.numberFormat [(n.pattern, str% "(\\d{2})(\\d{4,6})"), (n.nationalPrefixFormattingRule, str% "($NP$FG)")]
      [.s10,
       .leaf n.leadingDigits (str% "\n            2[1-4]|\n            [34]\n          "), .s10,
       .leaf n.format (str% "$1 $2"), .s8], .s8,
     .elem n.numberFormat [(n.pattern, str% "(\\d)(\\d{6,7})"), (n.nationalPrefixFormattingRule, str% "($NP$FG)")]
      [.s10,
       .leaf n.leadingDigits (str% "7"), .s10,
       .leaf n.format (str% "$1 $2"), .s8], .s8,
     .elem n.numberFormat [(n.pattern, str% "(\\d)(\\d{7})"), (n.nationalPrefixFormattingRule, str% "$NP$FG")]
      [.s10,
       .leaf n.leadingDigits (str% "[56]"), .s10,
       .leaf n.format (str% "$1 $2"), .s8], .s8,
     .elem n.numberFormat [(n.pattern, str% "(\\d{3})(\\d{7})"), (n.nationalPrefixFormattingRule, str% "$NP$FG")]
      [.s10,
       .leaf n.leadingDigits (str% "8"), .s10,
       .leaf n.format (str% "$1 $2"), .s8], .s6], .s6,
   .elem n.generalDesc []
    [.s8,
     .leaf n.nationalNumberPattern (str% "\n          (?:\n            [2-7]|\n            8\\d\\d\n          )\\d{7}|\n          [2-47]\\d{6}|\n          [34]\\d{5}\n        "), .s6], .s6, .comment, .s6,
   .elem n.fixedLine []
    [.s8,
     .empty n.possibleLengths [(n.national, str% "[6-8],10"), (n.localOnly, str% "4,5")], .s8,
     .leaf n.exampleNumber (str% "71234567"), .s8,
     .leaf n.nationalNumberPattern (str% "\n          (?:\n            3[23]|\n            4[89]\n          )\\d{4,6}|\n          (?:\n            31|\n            4[36]|\n            8(?:\n              0[25]|\n              78\n            )\\d\n          )\\d{6}|\n          (?:\n            2[1-4]|\n            4[1257]|\n            7\\d\n          )\\d{5,6}\n        "), .s6], .s6,
   .elem n.mobile []
    [.s8,
     .empty n.possibleLengths [(n.national, str% "8")], .s8,
     .leaf n.exampleNumber (str% "51234567"), .s8,
     .leaf n.nationalNumberPattern (str% "\n          (?:\n            5\\d|\n            6[2-4]\n          )\\d{6}\n        "), .s6], .s6,
   .elem n.tollFree []
    [.s8,
     .empty n.possibleLengths [(n.national, str% "10")], .s8,
     .leaf n.exampleNumber (str% "8001234567"), .s8,
     .leaf n.nationalNumberPattern (str% "800\\d{7}"), .s6], .s6,
   .elem n.sharedCost []
    [.s8,
     .empty n.possibleLengths [(n.national, str% "10")], .s8,
     .leaf n.exampleNumber (str% "8071234567"), .s8,
     .leaf n.nationalNumberPattern (str% "807\\d{7}"), .s6], .s4]

/-- what stands before this territory -/
noncomputable def CV_before : List Node :=
  [.l4, .comment, .s4, .comment, .s4]
/-- its attributes -/
noncomputable def CV_attrs : List (Str × Str) := [(n.id, str% "CV"), (n.countryCode, str% "238"), (n.internationalPrefix, str% "0")]
/-- its content -/
noncomputable def CV : List Node :=
  [.s6,
   .elem n.availableFormats []
    [.s8,
     .elem n.numberFormat [(n.pattern, str% "(\\d{3})(\\d{2})(\\d{2})")]
      [.s10,
       .leaf n.leadingDigits (str% "[2-589]"), .s10,
       .leaf n.format (str% "$1 $2 $3"), .s8], .s6], .s6,
   .elem n.generalDesc []
    [.s8,
     .leaf n.nationalNumberPattern (str% "\n          (?:\n            [2-59]\\d\\d|\n            800\n          )\\d{4}\n        "), .s6], .s6,
   .elem n.fixedLine []
    [.s8,
     .empty n.possibleLengths [(n.national, str% "7")], .s8,
     .leaf n.exampleNumber (str% "2211234"), .s8,
     .leaf n.nationalNumberPattern (str% "\n          2(?:\n            2[1-7]|\n            3[0-8]|\n            4[12]|\n            5[1256]|\n            6\\d|\n            7[1-3]|\n            8[1-5]\n          )\\d{4}\n        "), .s6], .s6, .comment, .s6,
   .elem n.mobile []
    [.s8,
     .empty n.possibleLengths [(n.national, str% "7")], .s8,
     .leaf n.exampleNumber (str% "9911234"), .s8,
     .leaf n.nationalNumberPattern (str% "\n          (?:\n            36|\n            5[1-389]|\n            9\\d\n          )\\d{5}\n        "), .s6], .s6,
   .elem n.tollFree []
    [.s8,
     .empty n.possibleLengths [(n.national, str% "7")], .s8,
     .leaf n.exampleNumber (str% "8001234"), .s8,
     .leaf n.nationalNumberPattern (str% "800\\d{4}"), .s6], .s6,
   .elem n.voip []
    [.s8,
     .empty n.possibleLengths [(n.national, str% "7")], .s8,
     .leaf n.exampleNumber (str% "3401234"), .s8,
     .leaf n.nationalNumberPattern (str% "\n          (?:\n            3[3-5]|\n            4[356]\n          )\\d{5}\n        "), .s6], .s4]

/-- what stands before this territory -/
noncomputable def CW_before : List Node :=
  [.l4, .comment, .s4, .comment, .s4, .comment, .s4, .comment, .s4]
/-- its attributes -/
noncomputable def CW_attrs : List (Str × Str) := [(n.id, str% "CW"), (n.mainCountryForCode, str% "true"), (n.countryCode, str% "599"), (n.leadingDigits, str% "[69]"), (n.internationalPrefix, str% "00")]
/-- its content -/
noncomputable def CW : List Node :=
  [.s6,
   .elem n.availableFormats []
    [.s8,
     .elem n.numberFormat [(n.pattern, str% "(\\d{3})(\\d{4})")]
      [.s10,
       .leaf n.leadingDigits (str% "[3467]"), .s10,
       .leaf n.format (str% "$1 $2"), .s8], .s8,
     .elem n.numberFormat [(n.pattern, str% "(\\d)(\\d{3})(\\d{4})")]
      [.s10,
       .leaf n.leadingDigits (str% "9[4-8]"), .s10,
       .leaf n.format (str% "$1 $2 $3"), .s8], .s6], .s6,
   .elem n.generalDesc []
    [.s8,
     .leaf n.nationalNumberPattern (str% "\n          (?:\n            [34]1|\n            60|\n            (?:\n              7|\n              9\\d\n            )\\d\n          )\\d{5}\n        "), .s6], .s6,
   .elem n.fixedLine []
    [.s8,
     .empty n.possibleLengths [(n.national, str% "7,8")], .s8,
     .leaf n.exampleNumber (str% "94351234"), .s8,
     .leaf n.nationalNumberPattern (str% "\n          9(?:\n            4(?:\n              3[0-5]|\n              4[14]|\n              6\\d\n            )|\n            50\\d|\n            7(?:\n              2[014]|\n              3[02-9]|\n              4[4-9]|\n              6[357]|\n              77|\n              8[7-9]\n            )|\n            8(?:\n              3[39]|\n              [46]\\d|\n              7[01]|\n              8[57-9]\n            )\n          )\\d{4}\n        "), .s6], .s6,
   .elem n.mobile []
    [.s8,
     .empty n.possibleLengths [(n.national, str% "7,8")], .s8,
     .leaf n.exampleNumber (str% "95181234"), .s8,
     .leaf n.nationalNumberPattern (str% "\n          953[01]\\d{4}|\n          9(?:\n            5[12467]|\n            6[5-9]\n          )\\d{5}\n        "), .s6], .s6,
   .elem n.pager []
    [.s8,
     .empty n.possibleLengths [(n.national, str% "8")], .s8,
     .leaf n.exampleNumber (str% "95581234"), .s8,
     .leaf n.nationalNumberPattern (str% "955\\d{5}"), .s6], .s6, .comment, .s6,
   .elem n.sharedCost []
    [.s8,
     .empty n.possibleLengths [(n.national, str% "7")], .s8,
     .leaf n.exampleNumber (str% "6001234"), .s8,
     .leaf n.nationalNumberPattern (str% "60[0-2]\\d{4}"), .s6], .s4]

/-- what stands before this territory -/
noncomputable def CX_before : List Node :=
  [.l4, .comment, .s4, .comment, .s4, .comment, .s4, .comment, .s4, .comment, .s4, .comment, .s4]
/-- its attributes -/
noncomputable def CX_attrs : List (Str × Str) := [(n.id, str% "CX"), (n.countryCode, str% "61"), (n.preferredInternationalPrefix, str% "0011"), (n.internationalPrefix, str% "001[14-689]|14(?:1[14]|34|4[17]|[56]6|7[47]|88)0011"), (n.nationalPrefix, str% "0"), (n.nationalPrefixForParsing, str% "([59]\\d{7})$|0"), (n.nationalPrefixTransformRule, str% "8$1")]
/-- its content -/
noncomputable def CX : List Node :=
  [.s6,
   .elem n.generalDesc []
    [.s8,
     .leaf n.nationalNumberPattern (str% "\n          1(?:\n            [0-79]\\d{8}(?:\n              \\d{2}\n            )?|\n            8[0-24-9]\\d{7}\n          )|\n          [148]\\d{8}|\n          1\\d{5,7}\n        "), .s6], .s6,
   .elem n.fixedLine []
    [.s8,
     .empty n.possibleLengths [(n.national, str% "9"), (n.localOnly, str% "8")], .s8,
     .leaf n.exampleNumber (str% "891641234"), .s8,
     .leaf n.nationalNumberPattern (str% "\n          8(?:\n            51(?:\n              0(?:\n                01|\n                30|\n                59|\n                88\n              )|\n              1(?:\n                17|\n                46|\n                75\n              )|\n              2(?:\n                22|\n                35\n              )\n            )|\n            91(?:\n              00[6-9]|\n              1(?:\n                [28]1|\n                49|\n                78\n              )|\n              2(?:\n                09|\n                63\n              )|\n              3(?:\n                12|\n                26|\n                75\n              )|\n              4(?:\n                56|\n                97\n              )|\n              64\\d|\n              7(?:\n                0[01]|\n                1[0-2]\n              )|\n              958\n            )\n          )\\d{3}\n        "), .s6], .s6, .comment, .s6,
   .elem n.mobile []
    [.s8,
     .empty n.possibleLengths [(n.national, str% "9")], .s8,
     .leaf n.exampleNumber (str% "412345678"), .s8,
     .leaf n.nationalNumberPattern (str% "\n          4(?:\n            79[01]|\n            83[0-36-9]|\n            95[0-3]\n          )\\d{5}|\n          4(?:\n            [0-36]\\d|\n            4[047-9]|\n            [58][0-24-9]|\n            7[02-8]|\n            9[0-47-9]\n          )\\d{6}\n        "), .s6], .s6,
   .elem n.tollFree []
    [.s8,
     .empty n.possibleLengths [(n.national, str% "7,10")], .s8,
     .leaf n.exampleNumber (str% "1800123456"), .s8,
     .leaf n.nationalNumberPattern (str% "\n          180(?:\n            0\\d{3}|\n            2\n          )\\d{3}\n        "), .s6], .s6,
   .elem n.premiumRate []
    [.s8,
     .empty n.possibleLengths [(n.national, str% "10")], .s8,
     .leaf n.exampleNumber (str% "1900123456"), .s8,
     .leaf n.nationalNumberPattern (str% "190[0-26]\\d{6}"), .s6], .s6, .comment, .s6,
   .elem n.sharedCost []
    [.s8,
     .empty n.possibleLengths [(n.national, str% "6,8,10,12")], .s8,
     .leaf n.exampleNumber (str% "1300123456"), .s8,
     .leaf n.nationalNumberPattern (str% "\n          13(?:\n            00\\d{6}(?:\n              \\d{2}\n            )?|\n            45[0-4]\\d{3}\n          )|\n          13\\d{4}\n        "), .s6], .s6,
   .elem n.voip []
    [.s8,
     .empty n.possibleLengths [(n.national, str% "9")], .s8,
     .leaf n.exampleNumber (str% "147101234"), .s8,
     .leaf n.nationalNumberPattern (str% "\n          14(?:\n            5(?:\n              1[0458]|\n              [23][458]\n            )|\n            71\\d\n          )\\d{4}\n        "), .s6], .s4]

/-- what stands before this territory -/
noncomputable def CY_before : List Node :=
  [.l4, .comment, .s4, .comment, .s4]
/-- its attributes -/
noncomputable def CY_attrs : List (Str × Str) := [(n.id, str% "CY"), (n.countryCode, str% "357"), (n.internationalPrefix, str% "00"), (n.mobileNumberPortableRegion, str% "true")]
/-- its content -/
noncomputable def CY : List Node :=
  [.s6,
   .elem n.availableFormats []
    [.s8, .comment, .s8,
     .elem n.numberFormat [(n.pattern, str% "(\\d{2})(\\d{6})")]
      [.s10,
       .leaf n.leadingDigits (str% "[257-9]"), .s10,
       .leaf n.format (str% "$1 $2"), .s8], .s6], .s6,
   .elem n.generalDesc []
    [.s8,
     .leaf n.nationalNumberPattern (str% "\n          (?:\n            [279]\\d|\n            [58]0\n          )\\d{6}\n        "), .s6], .s6,
   .elem n.fixedLine []
    [.s8,
     .empty n.possibleLengths [(n.national, str% "8")], .s8,
     .leaf n.exampleNumber (str% "22345678"), .s8,
     .leaf n.nationalNumberPattern (str% "2[2-6]\\d{6}"), .s6], .s6, .comment, .s6,
   .elem n.mobile []
    [.s8,
     .empty n.possibleLengths [(n.national, str% "8")], .s8,
     .leaf n.exampleNumber (str% "96123456"), .s8,
     .leaf n.nationalNumberPattern (str% "\n          9(?:\n            10|\n            [4-79]\\d\n          )\\d{5}\n        "), .s6], .s6,
   .elem n.tollFree []
    [.s8,
     .empty n.possibleLengths [(n.national, str% "8")], .s8,
     .leaf n.exampleNumber (str% "80001234"), .s8,
     .leaf n.nationalNumberPattern (str% "800\\d{5}"), .s6], .s6,
   .elem n.premiumRate []
    [.s8,
     .empty n.possibleLengths [(n.national, str% "8")], .s8,
     .leaf n.exampleNumber (str% "90012345"), .s8,
     .leaf n.nationalNumberPattern (str% "90[09]\\d{5}"), .s6], .s6,
   .elem n.sharedCost []
    [.s8,
     .empty n.possibleLengths [(n.national, str% "8")], .s8,
     .leaf n.exampleNumber (str% "80112345"), .s8,
     .leaf n.nationalNumberPattern (str% "80[1-9]\\d{5}"), .s6], .s6,
   .elem n.personalNumber []
    [.s8,
     .empty n.possibleLengths [(n.national, str% "8")], .s8,
     .leaf n.exampleNumber (str% "70012345"), .s8,
     .leaf n.nationalNumberPattern (str% "700\\d{5}"), .s6], .s6, .comment, .s6,
   .elem n.uan []
    [.s8,
     .empty n.possibleLengths [(n.national, str% "8")], .s8,
     .leaf n.exampleNumber (str% "77123456"), .s8,
     .leaf n.nationalNumberPattern (str% "\n          (?:\n            50|\n            77\n          )\\d{6}\n        "), .s6], .s4]

/-- what stands before this territory -/
noncomputable def CZ_before : List Node :=
  [.l4, .comment, .s4, .comment, .s4, .comment, .s4]
/-- its attributes -/
noncomputable def CZ_attrs : List (Str × Str) := [(n.id, str% "CZ"), (n.countryCode, str% "420"), (n.internationalPrefix, str% "00"), (n.mobileNumberPortableRegion, str% "true")]
/-- its content -/
noncomputable def CZ : List Node :=
  [.s6,
   .elem n.availableFormats []
    [.s8,
     .elem n.numberFormat [(n.pattern, str% "(\\d{3})(\\d{3})(\\d{3})")]
      [.s10,
       .leaf n.leadingDigits (str% "\n            [2-8]|\n            9[015-7]\n          "), .s10,
       .leaf n.format (str% "$1 $2 $3"), .s8], .s8,
     .elem n.numberFormat [(n.pattern, str% "(\\d{2})(\\d{3})(\\d{3})(\\d{2})")]
      [.s10,
       .leaf n.leadingDigits (str% "96"), .s10,
       .leaf n.format (str% "$1 $2 $3 $4"), .s8], .s8,
     .elem n.numberFormat [(n.pattern, str% "(\\d{2})(\\d{3})(\\d{3})(\\d{3})")]
      [.s10,
       .leaf n.leadingDigits (str% "9"), .s10,
       .leaf n.format (str% "$1 $2 $3 $4"), .s8], .s8,
     .elem n.numberFormat [(n.pattern, str% "(\\d{3})(\\d{3})(\\d{3})(\\d{3})")]
      [.s10,
       .leaf n.leadingDigits (str% "9"), .s10,
       .leaf n.format (str% "$1 $2 $3 $4"), .s8], .s6], .s6,
   .elem n.generalDesc []
    [.s8,
     .leaf n.nationalNumberPattern (str% "\n          (?:\n            [2-578]\\d|\n            60\n          )\\d{7}|\n          9\\d{8,11}\n        "), .s6], .s6,
   .elem n.fixedLine []
    [.s8,
     .empty n.possibleLengths [(n.national, str% "9")], .s8,
     .leaf n.exampleNumber (str% "212345678"), .s8,
     .leaf n.nationalNumberPattern (str% "\n          (?:\n            2\\d|\n            3[1257-9]|\n            4[16-9]|\n            5[13-9]\n          )\\d{7}\n        "), .s6], .s6,
   .elem n.mobile []
    [.s8,
     .empty n.possibleLengths [(n.national, str% "9")], .s8,
     .leaf n.exampleNumber (str% "601123456"), .s8,
     .leaf n.nationalNumberPattern (str% "\n          7060\\d{5}|\n          (?:\n            60[1-8]|\n            7(?:\n              0[2-5]|\n              19|\n              [2379]\\d\n            )\n          )\\d{6}\n        "), .s6], .s6,
   .elem n.tollFree []
    [.s8,
     .empty n.possibleLengths [(n.national, str% "9")], .s8,
     .leaf n.exampleNumber (str% "800123456"), .s8,
     .leaf n.nationalNumberPattern (str% "800\\d{6}"), .s6], .s6, .comment, .s6,
   .elem n.premiumRate []
    [.s8,
     .empty n.possibleLengths [(n.national, str% "9")], .s8,
     .leaf n.exampleNumber (str% "900123456"), .s8,
     .leaf n.nationalNumberPattern (str% "\n          9(?:\n            0[05689]|\n            76\n          )\\d{6}\n        "), .s6], .s6,
   .elem n.sharedCost []
    [.s8,
     .empty n.possibleLengths [(n.national, str% "9")], .s8,
     .leaf n.exampleNumber (str% "811234567"), .s8,
     .leaf n.nationalNumberPattern (str% "8[134]\\d{7}"), .s6], .s6,
   .elem n.personalNumber []
    [.s8,
     .empty n.possibleLengths [(n.national, str% "9")], .s8,
     .leaf n.exampleNumber (str% "700123456"), .s8,
     .leaf n.nationalNumberPattern (str% "70[01]\\d{6}"), .s6], .s6,
   .elem n.voip []
    [.s8,
     .empty n.possibleLengths [(n.national, str% "9")], .s8,
     .leaf n.exampleNumber (str% "910123456"), .s8,
     .leaf n.nationalNumberPattern (str% "9[17]0\\d{6}"), .s6], .s6, .comment, .s6,
   .elem n.uan []
    [.s8,
     .empty n.possibleLengths [(n.national, str% "9")], .s8,
     .leaf n.exampleNumber (str% "972123456"), .s8,
     .leaf n.nationalNumberPattern (str% "\n          9(?:\n            5\\d|\n            7[2-4]\n          )\\d{6}\n        "), .s6], .s6,
   .elem n.voicemail []
    [.s8,
     .empty n.possibleLengths [(n.national, str% "[9-12]")], .s8,
     .leaf n.exampleNumber (str% "93123456789"), .s8,
     .leaf n.nationalNumberPattern (str% "\n          9(?:\n            3\\d{9}|\n            6\\d{7,10}\n          )\n        "), .s6], .s4]

/-- what stands before this territory -/
noncomputable def DE_before : List Node :=
  [.l4, .comment, .s4, .comment, .s4, .comment, .s4, .comment, .s4]
/-- its attributes -/
noncomputable def DE_attrs : List (Str × Str) := [(n.id, str% "DE"), (n.countryCode, str% "49"), (n.internationalPrefix, str% "00"), (n.nationalPrefix, str% "0"), (n.mobileNumberPortableRegion, str% "true")]
/-- its content -/
noncomputable def DE : List Node :=
  [.s6,
   .elem n.availableFormats []
    [.s8, .comment, .s8,
     .elem n.numberFormat [(n.pattern, str% "(\\d{2})(\\d{3,13})"), (n.nationalPrefixFormattingRule, str% "$NP$FG")]
      [.s10,
       .leaf n.leadingDigits (str% "\n            3[02]|\n            40|\n            [68]9\n          "), .s10,
       .leaf n.format (str% "$1 $2"), .s8], .s8, .comment, .s8,
     .elem n.numberFormat [(n.pattern, str% "(\\d{6})")]
      [.s10,
       .leaf n.leadingDigits (str% "227"), .s10,
       .leaf n.leadingDigits (str% "2277"), .s10,
       .leaf n.format (str% "$1"), .s10,
       .leaf n.intlFormat (str% "NA"), .s8], .s8, .comment, .s8,
     .elem n.numberFormat [(n.pattern, str% "(\\d{3})(\\d{3,12})"), (n.nationalPrefixFormattingRule, str% "$NP$FG")]
      [.s10,
       .leaf n.leadingDigits (str% "\n            2(?:\n              0[1-389]|\n              1[124]|\n              2[18]|\n              3[14]\n            )|\n            3(?:\n              [35-9][15]|\n              4[015]\n            )|\n            906|\n            (?:\n              2[4-9]|\n              4[2-9]|\n              [579][1-9]|\n              [68][1-8]\n            )1\n          "), .s10,
       .leaf n.leadingDigits (str% "\n            2(?:\n              0[1-389]|\n              12[0-8]\n            )|\n            3(?:\n              [35-9][15]|\n              4[015]\n            )|\n            906|\n            2(?:\n              [13][14]|\n              2[18]\n            )|\n            (?:\n              2[4-9]|\n              4[2-9]|\n              [579][1-9]|\n              [68][1-8]\n            )1\n          "), .s10,
       .leaf n.format (str% "$1 $2"), .s8], .s8, .comment, .s8,
     .elem n.numberFormat [(n.pattern, str% "(\\d{4})(\\d{2,11})"), (n.nationalPrefixFormattingRule, str% "$NP$FG")]
      [.s10,
       .leaf n.leadingDigits (str% "\n            [24-6]|\n            3(?:\n              [3569][02-46-9]|\n              4[2-4679]|\n              7[2-467]|\n              8[2-46-8]\n            )|\n            70[2-8]|\n            8(?:\n              0[2-9]|\n              [1-8]\n            )|\n            90[7-9]|\n            [79][1-9]\n          "), .s10,
       .leaf n.leadingDigits (str% "\n            [24-6]|\n            3(?:\n              3(?:\n                0[1-467]|\n                2[127-9]|\n                3[124578]|\n                7[1257-9]|\n                8[1256]|\n                9[145]\n              )|\n              4(?:\n                2[135]|\n                4[13578]|\n                9[1346]\n              )|\n              5(?:\n                0[14]|\n                2[1-3589]|\n                6[1-4]|\n                7[13468]|\n                8[13568]\n              )|\n              6(?:\n                2[1-489]|\n                3[124-6]|\n                6[13]|\n                7[12579]|\n                8[1-356]|\n                9[135]\n              )|\n              7(?:\n                2[1-7]|\n                4[145]|\n                6[1-5]|\n                7[1-4]\n              )|\n              8(?:\n                21|\n                3[1468]|\n                6|\n                7[1467]|\n                8[136]\n              )|\n              9(?:\n                0[12479]|\n                2[1358]|\n                4[134679]|\n                6[1-9]|\n                7[136]|\n                8[147]|\n                9[1468]\n              )\n            )|\n            70[2-8]|\n            8(?:\n              0[2-9]|\n              [1-8]\n            )|\n            90[7-9]|\n            [79][1-9]|\n            3[68]4[1347]|\n            3(?:\n              47|\n              60\n            )[1356]|\n            3(?:\n              3[46]|\n              46|\n              5[49]\n            )[1246]|\n            3[4579]3[1357]\n          "), .s10,
       .leaf n.format (str% "$1 $2"), .s8], .s8, .comment, .s8,
     .elem n.numberFormat [(n.pattern, str% "(\\d{3})(\\d{4})"), (n.nationalPrefixFormattingRule, str% "$NP$FG")]
      [.s10,
       .leaf n.leadingDigits (str% "138"), .s10,
       .leaf n.format (str% "$1 $2"), .s8], .s8, .comment, .s8,
     .elem n.numberFormat [(n.pattern, str% "(\\d{5})(\\d{2,10})"), (n.nationalPrefixFormattingRule, str% "$NP$FG")]
      [.s10,
       .leaf n.leadingDigits (str% "3"), .s10,
       .leaf n.format (str% "$1 $2"), .s8], .s8, .comment, .s8,
     .elem n.numberFormat [(n.pattern, str% "(\\d{3})(\\d{5,11})"), (n.nationalPrefixFormattingRule, str% "$NP$FG")]
      [.s10,
       .leaf n.leadingDigits (str% "181"), .s10,
       .leaf n.format (str% "$1 $2"), .s8], .s8, .comment, .s8,
     .elem n.numberFormat [(n.pattern, str% "(\\d{3})(\\d)(\\d{4,10})"), (n.nationalPrefixFormattingRule, str% "$NP$FG")]
      [.s10,
       .leaf n.leadingDigits (str% "\n            1(?:\n              3|\n              80\n            )|\n            9\n          "), .s10,
       .leaf n.format (str% "$1 $2 $3"), .s8], .s8, .comment, .s8,
     .elem n.numberFormat [(n.pattern, str% "(\\d{3})(\\d{7,8})"), (n.nationalPrefixFormattingRule, str% "$NP$FG")]
      [.s10,
       .leaf n.leadingDigits (str% "1[67]"), .s10,
       .leaf n.format (str% "$1 $2"), .s8], .s8, .comment, .s8,
     .elem n.numberFormat [(n.pattern, str% "(\\d{3})(\\d{7,12})"), (n.nationalPrefixFormattingRule, str% "$NP$FG")]
      [.s10,
       .leaf n.leadingDigits (str% "8"), .s10,
       .leaf n.format (str% "$1 $2"), .s8], .s8, .comment, .s8,
     .elem n.numberFormat [(n.pattern, str% "(\\d{5})(\\d{6})"), (n.nationalPrefixFormattingRule, str% "$NP$FG")]
      [.s10,
       .leaf n.leadingDigits (str% "185"), .s10,
       .leaf n.leadingDigits (str% "1850"), .s10,
       .leaf n.leadingDigits (str% "18500"), .s10,
       .leaf n.format (str% "$1 $2"), .s8], .s8, .comment, .s8,
     .elem n.numberFormat [(n.pattern, str% "(\\d{3})(\\d{4})(\\d{4})"), (n.nationalPrefixFormattingRule, str% "$NP$FG")]
      [.s10,
       .leaf n.leadingDigits (str% "7"), .s10,
       .leaf n.format (str% "$1 $2 $3"), .s8], .s8, .comment, .s8,
     .elem n.numberFormat [(n.pattern, str% "(\\d{4})(\\d{7})"), (n.nationalPrefixFormattingRule, str% "$NP$FG")]
      [.s10,
       .leaf n.leadingDigits (str% "18[68]"), .s10,
       .leaf n.format (str% "$1 $2"), .s8], .s8, .comment, .s8,
     .elem n.numberFormat [(n.pattern, str% "(\\d{4})(\\d{7})"), (n.nationalPrefixFormattingRule, str% "$NP$FG")]
      [.s10,
       .leaf n.leadingDigits (str% "15[1279]"), .s10,
       .leaf n.format (str% "$1 $2"), .s8], .s8, .comment, .s8,
     .elem n.numberFormat [(n.pattern, str% "(\\d{5})(\\d{6})"), (n.nationalPrefixFormattingRule, str% "$NP$FG")]
      [.s10,
       .leaf n.leadingDigits (str% "15[03568]"), .s10,
       .leaf n.leadingDigits (str% "\n            15(?:\n              [0568]|\n              3[13]\n            )\n          "), .s10,
       .leaf n.format (str% "$1 $2"), .s8], .s8, .comment, .s8,
     .elem n.numberFormat [(n.pattern, str% "(\\d{3})(\\d{8})"), (n.nationalPrefixFormattingRule, str% "$NP$FG")]
      [.s10,
       .leaf n.leadingDigits (str% "18"), .s10,
       .leaf n.format (str% "$1 $2"), .s8], .s8, .comment, .s8,
     .elem n.numberFormat [(n.pattern, str% "(\\d{3})(\\d{2})(\\d{7,8})"), (n.nationalPrefixFormattingRule, str% "$NP$FG")]
      [.s10,
       .leaf n.leadingDigits (str% "\n            1(?:\n              6[023]|\n              7\n            )\n          "), .s10,
       .leaf n.format (str% "$1 $2 $3"), .s8], .s8, .comment, .s8,
     .elem n.numberFormat [(n.pattern, str% "(\\d{4})(\\d{2})(\\d{7})"), (n.nationalPrefixFormattingRule, str% "$NP$FG")]
      [.s10,
       .leaf n.leadingDigits (str% "15[279]"), .s10,
       .leaf n.format (str% "$1 $2 $3"), .s8], .s8, .comment, .s8,
     .elem n.numberFormat [(n.pattern, str% "(\\d{3})(\\d{2})(\\d{8})"), (n.nationalPrefixFormattingRule, str% "$NP$FG")]
      [.s10,
       .leaf n.leadingDigits (str% "15"), .s10,
       .leaf n.format (str% "$1 $2 $3"), .s8], .s6], .s6,
   .elem n.generalDesc []
    [.s8,
     .leaf n.nationalNumberPattern (str% "\n          [2579]\\d{5,14}|\n          49(?:\n            [34]0|\n            69|\n            8\\d\n          )\\d\\d?|\n          49(?:\n            37|\n            49|\n            60|\n            7[089]|\n            9\\d\n          )\\d{1,3}|\n          49(?:\n            2[024-9]|\n            3[2-689]|\n            7[1-7]\n          )\\d{1,8}|\n          (?:\n            1|\n            [368]\\d|\n            4[0-8]\n          )\\d{3,13}|\n          49(?:\n            [015]\\d|\n            2[13]|\n            31|\n            [46][1-8]\n          )\\d{1,9}\n        "), .s6], .s6, .comment, .s6, .comment, .s6,
   .elem n.fixedLine []
    [.s8,
     .empty n.possibleLengths [(n.national, str% "[5-15]"), (n.localOnly, str% "[2-4]")], .s8,
     .leaf n.exampleNumber (str% "30123456"), .s8,
     .leaf n.nationalNumberPattern (str% "\n          32\\d{9,11}|\n          49[1-6]\\d{10}|\n          322\\d{6}|\n          49[0-7]\\d{3,9}|\n          (?:\n            [34]0|\n            [68]9\n          )\\d{3,13}|\n          (?:\n            2(?:\n              0[1-689]|\n              [1-3569]\\d|\n              4[0-8]|\n              7[1-7]|\n              8[0-7]\n            )|\n            3(?:\n              [3569]\\d|\n              4[0-79]|\n              7[1-7]|\n              8[1-8]\n            )|\n            4(?:\n              1[02-9]|\n              [2-48]\\d|\n              5[0-6]|\n              6[0-8]|\n              7[0-79]\n            )|\n            5(?:\n              0[2-8]|\n              [124-6]\\d|\n              [38][0-8]|\n              [79][0-7]\n            )|\n            6(?:\n              0[02-9]|\n              [1-358]\\d|\n              [47][0-8]|\n              6[1-9]\n            )|\n            7(?:\n              0[2-8]|\n              1[1-9]|\n              [27][0-7]|\n              3\\d|\n              [4-6][0-8]|\n              8[0-5]|\n              9[013-7]\n            )|\n            8(?:\n              0[2-9]|\n              1[0-79]|\n              2\\d|\n              3[0-46-9]|\n              4[0-6]|\n              5[013-9]|\n              6[1-8]|\n              7[0-8]|\n              8[0-24-6]\n            )|\n            9(?:\n              0[6-9]|\n              [1-4]\\d|\n              [589][0-7]|\n              6[0-8]|\n              7[0-467]\n            )\n          )\\d{3,12}\n        "), .s6], .s6, .comment, .s6,
   .elem n.mobile []
    [.s8,
     .empty n.possibleLengths [(n.national, str% "10,11")], .s8,
     .leaf n.exampleNumber (str% "15123456789"), .s8,
     .leaf n.nationalNumberPattern (str% "\n          1(?:\n            6[023]|\n            7\\d\n          )\\d{7,8}|\n          15(?:\n            [0-25-9]\\d\\d|\n            3(?:\n              10|\n              33\n            )\n          )\\d{6}\n        "), .s6], .s6,
   .elem n.pager []
    [.s8,
     .empty n.possibleLengths [(n.national, str% "[4-14]")], .s8,
     .leaf n.exampleNumber (str% "16412345"), .s8,
     .leaf n.nationalNumberPattern (str% "\n          16(?:\n            4\\d{1,10}|\n            [89]\\d{1,11}\n          )\n        "), .s6], .s6,
   .elem n.tollFree []
    [.s8,
     .empty n.possibleLengths [(n.national, str% "[10-15]")], .s8,
     .leaf n.exampleNumber (str% "8001234567890"), .s8,
     .leaf n.nationalNumberPattern (str% "800\\d{7,12}"), .s6], .s6, .comment, .s6,
   .elem n.premiumRate []
    [.s8,
     .empty n.possibleLengths [(n.national, str% "10,11")], .s8,
     .leaf n.exampleNumber (str% "9001234567"), .s8,
     .leaf n.nationalNumberPattern (str% "\n          (?:\n            137[7-9]|\n            900(?:\n              [135]|\n              9\\d\n            )\n          )\\d{6}\n        "), .s6], .s6, .comment, .s6,
   .elem n.sharedCost []
    [.s8,
     .empty n.possibleLengths [(n.national, str% "[7-14]")], .s8,
     .leaf n.exampleNumber (str% "18012345"), .s8,
     .leaf n.nationalNumberPattern (str% "\n          180\\d{5,11}|\n          13(?:\n            7[1-6]\\d\\d|\n            8\n          )\\d{4}\n        "), .s6], .s6,
   .elem n.personalNumber []
    [.s8,
     .empty n.possibleLengths [(n.national, str% "11")], .s8,
     .leaf n.exampleNumber (str% "70012345678"), .s8,
     .leaf n.nationalNumberPattern (str% "700\\d{8}"), .s6], .s6, .comment, .s6,
   .elem n.uan []
    [.s8,
     .empty n.possibleLengths [(n.national, str% "[8-14]")], .s8,
     .leaf n.exampleNumber (str% "18500123456"), .s8,
     .leaf n.nationalNumberPattern (str% "\n          18(?:\n            1\\d{5,11}|\n            [2-9]\\d{8}\n          )\n        "), .s6], .s6, .comment, .s6,
   .elem n.voicemail []
    [.s8,
     .empty n.possibleLengths [(n.national, str% "12,13")], .s8,
     .leaf n.exampleNumber (str% "177991234567"), .s8,
     .leaf n.nationalNumberPattern (str% "\n          1(?:\n            6(?:\n              013|\n              255|\n              399\n            )|\n            7(?:\n              (?:\n                [015]1|\n                [69]3\n              )3|\n              [2-4]55|\n              [78]99\n            )\n          )\\d{7,8}|\n          15(?:\n            (?:\n              [03-68]00|\n              113\n            )\\d|\n            2\\d55|\n            7\\d99|\n            9\\d33\n          )\\d{7}\n        "), .s6], .s4]

/-- what stands before this territory -/
noncomputable def DJ_before : List Node :=
  [.l4, .comment, .s4, .comment, .s4]
/-- its attributes -/
noncomputable def DJ_attrs : List (Str × Str) := [(n.id, str% "DJ"), (n.countryCode, str% "253"), (n.internationalPrefix, str% "00")]
/-- its content -/
noncomputable def DJ : List Node :=
  [.s6,
   .elem n.availableFormats []
    [.s8,
     .elem n.numberFormat [(n.pattern, str% "(\\d{2})(\\d{2})(\\d{2})(\\d{2})")]
      [.s10,
       .leaf n.leadingDigits (str% "[27]"), .s10,
       .leaf n.format (str% "$1 $2 $3 $4"), .s8], .s6], .s6,
   .elem n.generalDesc []
    [.s8,
     .leaf n.nationalNumberPattern (str% "\n          (?:\n            2\\d|\n            77\n          )\\d{6}\n        "), .s6], .s6, .comment, .s6,
   .elem n.fixedLine []
    [.s8,
     .empty n.possibleLengths [(n.national, str% "8")], .s8,
     .leaf n.exampleNumber (str% "21360003"), .s8,
     .leaf n.nationalNumberPattern (str% "\n          2(?:\n            1[2-5]|\n            7[45]\n          )\\d{5}\n        "), .s6], .s6,
   .elem n.mobile []
    [.s8,
     .empty n.possibleLengths [(n.national, str% "8")], .s8,
     .leaf n.exampleNumber (str% "77831001"), .s8,
     .leaf n.nationalNumberPattern (str% "77\\d{6}"), .s6], .s4]

/-- what stands before this territory -/
noncomputable def DK_before : List Node :=
  [.l4, .comment, .s4, .comment, .s4, .comment, .s4, .comment, .s4, .comment, .s4]
/-- its attributes -/
noncomputable def DK_attrs : List (Str × Str) := [(n.id, str% "DK"), (n.countryCode, str% "45"), (n.internationalPrefix, str% "00"), (n.mobileNumberPortableRegion, str% "true")]
/-- its content -/
noncomputable def DK : List Node :=
  [.s6,
   .elem n.availableFormats []
    [.s8,
     .elem n.numberFormat [(n.pattern, str% "(\\d{2})(\\d{2})(\\d{2})(\\d{2})")]
      [.s10,
       .leaf n.leadingDigits (str% "[2-9]"), .s10,
       .leaf n.format (str% "$1 $2 $3 $4"), .s8], .s6], .s6,
   .elem n.generalDesc []
    [.s8,
     .leaf n.nationalNumberPattern (str% "[2-9]\\d{7}"), .s6], .s6, .comment, .s6,
   .elem n.fixedLine []
    [.s8,
     .empty n.possibleLengths [(n.national, str% "8")], .s8,
     .leaf n.exampleNumber (str% "32123456"), .s8,
     .leaf n.nationalNumberPattern (str% "\n          (?:\n            2(?:\n              [0-59][1-9]|\n              [6-8]\\d\n            )|\n            3(?:\n              [0-3][1-9]|\n              4[13]|\n              5[1-58]|\n              6[1347-9]|\n              7\\d|\n              8[1-8]|\n              9[1-79]\n            )|\n            4(?:\n              [0-25][1-9]|\n              [34][2-9]|\n              6[13-579]|\n              7[13579]|\n              8[1-47]|\n              9[127]\n            )|\n            5(?:\n              [0-36][1-9]|\n              4[146-9]|\n              5[3-57-9]|\n              7[568]|\n              8[1-358]|\n              9[1-69]\n            )|\n            6(?:\n              [0135][1-9]|\n              2[1-68]|\n              4[2-8]|\n              6[1689]|\n              [78]\\d|\n              9[15689]\n            )|\n            7(?:\n              [0-69][1-9]|\n              7[3-9]|\n              8[147]\n            )|\n            8(?:\n              [16-9][1-9]|\n              2[1-58]\n            )|\n            9(?:\n              [1-47-9][1-9]|\n              6\\d\n            )\n          )\\d{5}\n        "), .s6], .s6,
   .elem n.mobile []
    [.s8,
     .empty n.possibleLengths [(n.national, str% "8")], .s8,
     .leaf n.exampleNumber (str% "34412345"), .s8,
     .leaf n.nationalNumberPattern (str% "\n          (?:\n            2[6-8]|\n            37|\n            6[78]|\n            96\n          )\\d{6}|\n          (?:\n            2[0-59]|\n            3[0-689]|\n            [457]\\d|\n            6[0-69]|\n            8[126-9]|\n            9[1-47-9]\n          )[1-9]\\d{5}\n        "), .s6], .s6,
   .elem n.tollFree []
    [.s8,
     .empty n.possibleLengths [(n.national, str% "8")], .s8,
     .leaf n.exampleNumber (str% "80123456"), .s8,
     .leaf n.nationalNumberPattern (str% "80\\d{6}"), .s6], .s6,
   .elem n.premiumRate []
    [.s8,
     .empty n.possibleLengths [(n.national, str% "8")], .s8,
     .leaf n.exampleNumber (str% "90123456"), .s8,
     .leaf n.nationalNumberPattern (str% "90\\d{6}"), .s6], .s4]

/-- what stands before this territory -/
noncomputable def DM_before : List Node :=
  [.l4, .comment, .s4, .comment, .s4, .comment, .s4]
/-- its attributes -/
noncomputable def DM_attrs : List (Str × Str) := [(n.id, str% "DM"), (n.countryCode, str% "1"), (n.leadingDigits, str% "767"), (n.internationalPrefix, str% "011"), (n.nationalPrefix, str% "1"), (n.nationalPrefixForParsing, str% "([2-7]\\d{6})$|1"), (n.nationalPrefixTransformRule, str% "767$1"), (n.mobileNumberPortableRegion, str% "true")]
/-- its content -/
noncomputable def DM : List Node :=
  [.s6,
   .elem n.generalDesc []
    [.s8,
     .leaf n.nationalNumberPattern (str% "\n          (?:\n            [58]\\d\\d|\n            767|\n            900\n          )\\d{7}\n        "), .s6], .s6,
   .elem n.fixedLine []
    [.s8,
     .empty n.possibleLengths [(n.national, str% "10"), (n.localOnly, str% "7")], .s8,
     .leaf n.exampleNumber (str% "7674201234"), .s8,
     .leaf n.nationalNumberPattern (str% "\n          767(?:\n            2(?:\n              55|\n              66\n            )|\n            4(?:\n              2[01]|\n              4[0-25-9]\n            )|\n            50[0-4]\n          )\\d{4}\n        "), .s6], .s6, .comment, .s6,
   .elem n.mobile []
    [.s8,
     .empty n.possibleLengths [(n.national, str% "10"), (n.localOnly, str% "7")], .s8,
     .leaf n.exampleNumber (str% "7672251234"), .s8,
     .leaf n.nationalNumberPattern (str% "\n          767(?:\n            2(?:\n              [2-4689]5|\n              7[5-7]\n            )|\n            31[5-7]|\n            61[1-8]|\n            70[1-6]\n          )\\d{4}\n        "), .s6], .s6,
   .elem n.tollFree []
    [.s8,
     .empty n.possibleLengths [(n.national, str% "10")], .s8,
     .leaf n.exampleNumber (str% "8002123456"), .s8,
     .leaf n.nationalNumberPattern (str% "\n          8(?:\n            00|\n            33|\n            44|\n            55|\n            66|\n            77|\n            88\n          )[2-9]\\d{6}\n        "), .s6], .s6,
   .elem n.premiumRate []
    [.s8,
     .empty n.possibleLengths [(n.national, str% "10")], .s8,
     .leaf n.exampleNumber (str% "9002123456"), .s8,
     .leaf n.nationalNumberPattern (str% "900[2-9]\\d{6}"), .s6], .s6, .comment, .s6,
   .elem n.personalNumber []
    [.s8,
     .empty n.possibleLengths [(n.national, str% "10")], .s8,
     .leaf n.exampleNumber (str% "5002345678"), .s8,
     .leaf n.nationalNumberPattern (str% "\n          52(?:\n            3(?:\n              [2-46-9][02-9]\\d|\n              5(?:\n                [02-46-9]\\d|\n                5[0-46-9]\n              )\n            )|\n            4(?:\n              [2-478][02-9]\\d|\n              5(?:\n                [034]\\d|\n                2[024-9]|\n                5[0-46-9]\n              )|\n              6(?:\n                0[1-9]|\n                [2-9]\\d\n              )|\n              9(?:\n                [05-9]\\d|\n                2[0-5]|\n                49\n              )\n            )\n          )\\d{4}|\n          52[34][2-9]1[02-9]\\d{4}|\n          5(?:\n            00|\n            2[125-9]|\n            3[23]|\n            44|\n            66|\n            77|\n            88\n          )[2-9]\\d{6}\n        "), .s6], .s4]

/-- what stands before this territory -/
noncomputable def DO_before : List Node :=
  [.l4, .comment, .s4, .comment, .s4, .comment, .s4]
/-- its attributes -/
noncomputable def DO_attrs : List (Str × Str) := [(n.id, str% "DO"), (n.countryCode, str% "1"), (n.leadingDigits, str% "8001|8[024]9"), (n.internationalPrefix, str% "011"), (n.nationalPrefix, str% "1"), (n.mobileNumberPortableRegion, str% "true")]
/-- its content -/
noncomputable def DO : List Node :=
  [.s6,
   .elem n.generalDesc []
    [.s8,
     .leaf n.nationalNumberPattern (str% "\n          (?:\n            [58]\\d\\d|\n            900\n          )\\d{7}\n        "), .s6], .s6, .comment, .s6,
   .elem n.fixedLine []
    [.s8,
     .empty n.possibleLengths [(n.national, str% "10"), (n.localOnly, str% "7")], .s8,
     .leaf n.exampleNumber (str% "8092345678"), .s8,
     .leaf n.nationalNumberPattern (str% "\n          8(?:\n            [04]9[2-9]\\d\\d|\n            29(?:\n              2(?:\n                [0-59]\\d|\n                6[04-9]|\n                7[0-27]|\n                8[0237-9]\n              )|\n              3(?:\n                [0-35-9]\\d|\n                4[7-9]\n              )|\n              [45]\\d\\d|\n              6(?:\n                [0-27-9]\\d|\n                [3-5][1-9]|\n                6[0135-8]\n              )|\n              7(?:\n                0[013-9]|\n                [1-37]\\d|\n                4[1-35689]|\n                5[1-4689]|\n                6[1-57-9]|\n                8[1-79]|\n                9[1-8]\n              )|\n              8(?:\n                0[146-9]|\n                1[0-48]|\n                [248]\\d|\n                3[1-79]|\n                5[01589]|\n                6[013-68]|\n                7[124-8]|\n                9[0-8]\n              )|\n              9(?:\n                [0-24]\\d|\n                3[02-46-9]|\n                5[0-79]|\n                60|\n                7[0169]|\n                8[57-9]|\n                9[02-9]\n              )\n            )\n          )\\d{4}\n        "), .s6], .s6,
   .elem n.mobile []
    [.s8,
     .empty n.possibleLengths [(n.national, str% "10"), (n.localOnly, str% "7")], .s8,
     .leaf n.exampleNumber (str% "8092345678"), .s8,
     .leaf n.nationalNumberPattern (str% "8[024]9[2-9]\\d{6}"), .s6], .s6,
   .elem n.tollFree []
    [.s8,
     .empty n.possibleLengths [(n.national, str% "10")], .s8,
     .leaf n.exampleNumber (str% "8002123456"), .s8,
     .leaf n.nationalNumberPattern (str% "\n          800(?:\n            14|\n            [2-9]\\d\n          )\\d{5}|\n          8[024]9[01]\\d{6}|\n          8(?:\n            33|\n            44|\n            55|\n            66|\n            77|\n            88\n          )[2-9]\\d{6}\n        "), .s6], .s6,
   .elem n.premiumRate []
    [.s8,
     .empty n.possibleLengths [(n.national, str% "10")], .s8,
     .leaf n.exampleNumber (str% "9002123456"), .s8,
     .leaf n.nationalNumberPattern (str% "900[2-9]\\d{6}"), .s6], .s6, .comment, .s6,
   .elem n.personalNumber []
    [.s8,
     .empty n.possibleLengths [(n.national, str% "10")], .s8,
     .leaf n.exampleNumber (str% "5002345678"), .s8,
     .leaf n.nationalNumberPattern (str% "\n          52(?:\n            3(?:\n              [2-46-9][02-9]\\d|\n              5(?:\n                [02-46-9]\\d|\n                5[0-46-9]\n              )\n            )|\n            4(?:\n              [2-478][02-9]\\d|\n              5(?:\n                [034]\\d|\n                2[024-9]|\n                5[0-46-9]\n              )|\n              6(?:\n                0[1-9]|\n                [2-9]\\d\n              )|\n              9(?:\n                [05-9]\\d|\n                2[0-5]|\n                49\n              )\n            )\n          )\\d{4}|\n          52[34][2-9]1[02-9]\\d{4}|\n          5(?:\n            00|\n            2[125-9]|\n            3[23]|\n            44|\n            66|\n            77|\n            88\n          )[2-9]\\d{6}\n        "), .s6], .s4]

/-- what stands before this territory -/
noncomputable def DZ_before : List Node :=
  [.l4, .comment, .s4, .comment, .s4, .comment, .s4]
/-- its attributes -/
noncomputable def DZ_attrs : List (Str × Str) := [(n.id, str% "DZ"), (n.countryCode, str% "213"), (n.internationalPrefix, str% "00"), (n.nationalPrefix, str% "0")]
/-- its content -/
noncomputable def DZ : List Node :=
  [.s6,
   .elem n.availableFormats []
    [.s8, .comment, .s8,
     .elem n.numberFormat [(n.pattern, str% "(\\d{2})(\\d{2})(\\d{2})(\\d{2})"), (n.nationalPrefixFormattingRule, str% "$NP$FG")]
      [.s10,
       .leaf n.leadingDigits (str% "[1-4]"), .s10,
       .leaf n.format (str% "$1 $2 $3 $4"), .s8], .s8,
     .elem n.numberFormat [(n.pattern, str% "(\\d{2})(\\d{3})(\\d{2})(\\d{2})"), (n.nationalPrefixFormattingRule, str% "$NP$FG")]
      [.s10,
       .leaf n.leadingDigits (str% "9"), .s10,
       .leaf n.format (str% "$1 $2 $3 $4"), .s8], .s8,
     .elem n.numberFormat [(n.pattern, str% "(\\d{3})(\\d{2})(\\d{2})(\\d{2})"), (n.nationalPrefixFormattingRule, str% "$NP$FG")]
      [.s10,
       .leaf n.leadingDigits (str% "[5-8]"), .s10,
       .leaf n.format (str% "$1 $2 $3 $4"), .s8], .s6], .s6,
   .elem n.generalDesc []
    [.s8,
     .leaf n.nationalNumberPattern (str% "\n          (?:\n            [1-4]|\n            [5-79]\\d|\n            80\n          )\\d{7}\n        "), .s6], .s6, .comment, .s6, .comment, .s6,
   .elem n.fixedLine []
    [.s8,
     .empty n.possibleLengths [(n.national, str% "8,9")], .s8,
     .leaf n.exampleNumber (str% "12345678"), .s8,
     .leaf n.nationalNumberPattern (str% "\n          9619\\d{5}|\n          (?:\n            [1-3]\\d|\n            4[013-689]\n          )\\d{6}\n        "), .s6], .s6, .comment, .s6,
   .elem n.mobile []
    [.s8,
     .empty n.possibleLengths [(n.national, str% "9")], .s8,
     .leaf n.exampleNumber (str% "551234567"), .s8,
     .leaf n.nationalNumberPattern (str% "\n          5(?:\n            4[0-29]|\n            6[0-4]\n          )\\d{6}|\n          (?:\n            55|\n            6\\d|\n            7[7-9]\n          )\\d{7}\n        "), .s6], .s6,
   .elem n.tollFree []
    [.s8,
     .empty n.possibleLengths [(n.national, str% "9")], .s8,
     .leaf n.exampleNumber (str% "800123456"), .s8,
     .leaf n.nationalNumberPattern (str% "800\\d{6}"), .s6], .s6,
   .elem n.premiumRate []
    [.s8,
     .empty n.possibleLengths [(n.national, str% "9")], .s8,
     .leaf n.exampleNumber (str% "808123456"), .s8,
     .leaf n.nationalNumberPattern (str% "80[3-689]1\\d{5}"), .s6], .s6, .comment, .s6,
   .elem n.sharedCost []
    [.s8,
     .empty n.possibleLengths [(n.national, str% "9")], .s8,
     .leaf n.exampleNumber (str% "801123456"), .s8,
     .leaf n.nationalNumberPattern (str% "80[12]1\\d{5}"), .s6], .s6,
   .elem n.voip []
    [.s8,
     .empty n.possibleLengths [(n.national, str% "9")], .s8,
     .leaf n.exampleNumber (str% "983123456"), .s8,
     .leaf n.nationalNumberPattern (str% "98[23]\\d{6}"), .s6], .s4]

/-- what stands before this territory -/
noncomputable def EC_before : List Node :=
  [.l4, .comment, .s4, .comment, .s4, .comment, .s4, .comment, .s4]
/-- its attributes -/
noncomputable def EC_attrs : List (Str × Str) := [(n.id, str% "EC"), (n.countryCode, str% "593"), (n.internationalPrefix, str% "00"), (n.nationalPrefix, str% "0"), (n.mobileNumberPortableRegion, str% "true")]
/-- its content -/
noncomputable def EC : List Node :=
  [.s6,
   .elem n.availableFormats []
    [.s8,
     .elem n.numberFormat [(n.pattern, str% "(\\d{3})(\\d{4})")]
      [.s10,
       .leaf n.leadingDigits (str% "[2-7]"), .s10,
       .leaf n.format (str% "$1-$2"), .s10,
       .leaf n.intlFormat (str% "NA"), .s8], .s8,
     .elem n.numberFormat [(n.pattern, str% "(\\d)(\\d{3})(\\d{4})"), (n.nationalPrefixFormattingRule, str% "($NP$FG)")]
      [.s10,
       .leaf n.leadingDigits (str% "[2-7]"), .s10,
       .leaf n.format (str% "$1 $2-$3"), .s10,
       .leaf n.intlFormat (str% "$1-$2-$3"), .s8], .s8, .comment, .s8,
     .elem n.numberFormat [(n.pattern, str% "(\\d{2})(\\d{3})(\\d{4})"), (n.nationalPrefixFormattingRule, str% "$NP$FG")]
      [.s10,
       .leaf n.leadingDigits (str% "9"), .s10,
       .leaf n.format (str% "$1 $2 $3"), .s8], .s8,
     .elem n.numberFormat [(n.pattern, str% "(\\d{4})(\\d{3})(\\d{3,4})")]
      [.s10,
       .leaf n.leadingDigits (str% "1"), .s10,
       .leaf n.format (str% "$1 $2 $3"), .s8], .s6], .s6,
   .elem n.generalDesc []
    [.s8,
     .leaf n.nationalNumberPattern (str% "\n          1\\d{9,10}|\n          (?:\n            [2-7]|\n            9\\d\n          )\\d{7}\n        "), .s6], .s6,
   .elem n.fixedLine []
    [.s8,
     .empty n.possibleLengths [(n.national, str% "8"), (n.localOnly, str% "7")], .s8,
     .leaf n.exampleNumber (str% "22123456"), .s8,
     .leaf n.nationalNumberPattern (str% "[2-7][2-7]\\d{6}"), .s6], .s6,
   .elem n.mobile []
    [.s8,
     .empty n.possibleLengths [(n.national, str% "9")], .s8,
     .leaf n.exampleNumber (str% "991234567"), .s8,
     .leaf n.nationalNumberPattern (str% "\n          964[0-2]\\d{5}|\n          9(?:\n            39|\n            [57][89]|\n            6[0-36-9]|\n            [89]\\d\n          )\\d{6}\n        "), .s6], .s6,
   .elem n.tollFree []
    [.s8,
     .empty n.possibleLengths [(n.national, str% "10,11")], .s8,
     .leaf n.exampleNumber (str% "18001234567"), .s8,
     .leaf n.nationalNumberPattern (str% "\n          1800\\d{7}|\n          1[78]00\\d{6}\n        "), .s6], .s6,
   .elem n.voip []
    [.s8,
     .empty n.possibleLengths [(n.national, str% "8")], .s8,
     .leaf n.exampleNumber (str% "28901234"), .s8,
     .leaf n.nationalNumberPattern (str% "[2-7]890\\d{4}"), .s6], .s4]

/-- what stands before this territory -/
noncomputable def EE_before : List Node :=
  [.l4, .comment, .s4, .comment, .s4]
/-- its attributes -/
noncomputable def EE_attrs : List (Str × Str) := [(n.id, str% "EE"), (n.countryCode, str% "372"), (n.internationalPrefix, str% "00"), (n.mobileNumberPortableRegion, str% "true")]
/-- its content -/
noncomputable def EE : List Node :=
  [.s6,
   .elem n.availableFormats []
    [.s8,
     .elem n.numberFormat [(n.pattern, str% "(\\d{3})(\\d{4})")]
      [.s10,
       .leaf n.leadingDigits (str% "\n            [369]|\n            4[3-8]|\n            5(?:\n              [0-2]|\n              5[0-478]|\n              6[45]\n            )|\n            7[1-9]|\n            88\n          "), .s10,
       .leaf n.leadingDigits (str% "\n            [369]|\n            4[3-8]|\n            5(?:\n              [02]|\n              1(?:\n                [0-8]|\n                95\n              )|\n              5[0-478]|\n              6(?:\n                4[0-4]|\n                5[1-589]\n              )\n            )|\n            7[1-9]|\n            88\n          "), .s10,
       .leaf n.format (str% "$1 $2"), .s8], .s8,
     .elem n.numberFormat [(n.pattern, str% "(\\d{4})(\\d{3,4})")]
      [.s10,
       .leaf n.leadingDigits (str% "\n            [45]|\n            8(?:\n              00|\n              [1-49]\n            )\n          "), .s10,
       .leaf n.leadingDigits (str% "\n            [45]|\n            8(?:\n              00[1-9]|\n              [1-49]\n            )\n          "), .s10,
       .leaf n.format (str% "$1 $2"), .s8], .s8,
     .elem n.numberFormat [(n.pattern, str% "(\\d{2})(\\d{2})(\\d{4})")]
      [.s10,
       .leaf n.leadingDigits (str% "7"), .s10,
       .leaf n.format (str% "$1 $2 $3"), .s8], .s8,
     .elem n.numberFormat [(n.pattern, str% "(\\d{4})(\\d{3})(\\d{3})")]
      [.s10,
       .leaf n.leadingDigits (str% "8"), .s10,
       .leaf n.format (str% "$1 $2 $3"), .s8], .s6], .s6,
   .elem n.generalDesc []
    [.s8,
     .leaf n.nationalNumberPattern (str% "\n          8\\d{9}|\n          [4578]\\d{7}|\n          (?:\n            [3-8]\\d|\n            90\n          )\\d{5}\n        "), .s6], .s6,
   .elem n.noInternationalDialling []
    [.s8,
     .empty n.possibleLengths [(n.national, str% "7")], .s8,
     .leaf n.nationalNumberPattern (str% "800[2-9]\\d{3}"), .s6], .s6,
   .elem n.fixedLine []
    [.s8,
     .empty n.possibleLengths [(n.national, str% "7")], .s8,
     .leaf n.exampleNumber (str% "3212345"), .s8,
     .leaf n.nationalNumberPattern (str% "\n          (?:\n            3[23589]|\n            4[3-8]|\n            6\\d|\n            7[1-9]|\n            88\n          )\\d{5}\n        "), .s6], .s6, .comment, .s6,
   .elem n.mobile []
    [.s8,
     .empty n.possibleLengths [(n.national, str% "7,8")], .s8,
     .leaf n.exampleNumber (str% "51234567"), .s8,
     .leaf n.nationalNumberPattern (str% "\n          (?:\n            5\\d{5}|\n            8(?:\n              1(?:\n                0(?:\n                  0(?:\n                    00|\n                    [178]\\d\n                  )|\n                  [3-9]\\d\\d\n                )|\n                (?:\n                  1(?:\n                    0[2-6]|\n                    1\\d\n                  )|\n                  [2-79]\\d\\d\n                )\\d\n              )|\n              2(?:\n                0(?:\n                  0(?:\n                    00|\n                    4\\d\n                  )|\n                  (?:\n                    19|\n                    [2-7]\\d\n                  )\\d\n                )|\n                (?:\n                  (?:\n                    [124-69]\\d|\n                    3[5-9]\n                  )\\d|\n                  7(?:\n                    [0-79]\\d|\n                    8[013-9]\n                  )|\n                  8(?:\n                    [2-6]\\d|\n                    7[01]\n                  )\n                )\\d\n              )|\n              [349]\\d{4}\n            )\n          )\\d\\d|\n          5(?:\n            (?:\n              [02]\\d|\n              5[0-478]\n            )\\d|\n            1(?:\n              [0-8]\\d|\n              95\n            )|\n            6(?:\n              4[0-4]|\n              5[1-589]\n            )\n          )\\d{3}\n        "), .s6], .s6,
   .elem n.tollFree []
    [.s8,
     .empty n.possibleLengths [(n.national, str% "7,8,10")], .s8,
     .leaf n.exampleNumber (str% "80012345"), .s8,
     .leaf n.nationalNumberPattern (str% "\n          800(?:\n            (?:\n              0\\d\\d|\n              1\n            )\\d|\n            [2-9]\n          )\\d{3}\n        "), .s6], .s6, .comment, .s6,
   .elem n.premiumRate []
    [.s8,
     .empty n.possibleLengths [(n.national, str% "7,8")], .s8,
     .leaf n.exampleNumber (str% "9001234"), .s8,
     .leaf n.nationalNumberPattern (str% "\n          (?:\n            40\\d\\d|\n            900\n          )\\d{4}\n        "), .s6], .s6,
   .elem n.personalNumber []
    [.s8,
     .empty n.possibleLengths [(n.national, str% "8")], .s8,
     .leaf n.exampleNumber (str% "70012345"), .s8,
     .leaf n.nationalNumberPattern (str% "70[0-2]\\d{5}"), .s6], .s4]

/-- what stands before this territory -/
noncomputable def EG_before : List Node :=
  [.l4, .comment, .s4, .comment, .s4]
/-- its attributes -/
noncomputable def EG_attrs : List (Str × Str) := [(n.id, str% "EG"), (n.countryCode, str% "20"), (n.internationalPrefix, str% "00"), (n.nationalPrefix, str% "0"), (n.mobileNumberPortableRegion, str% "true")]
/-- its content -/
noncomputable def EG : List Node :=
  [.s6,
   .elem n.availableFormats []
    [.s8,
     .elem n.numberFormat [(n.pattern, str% "(\\d)(\\d{7,8})"), (n.nationalPrefixFormattingRule, str% "$NP$FG")]
      [.s10,
       .leaf n.leadingDigits (str% "[23]"), .s10,
       .leaf n.format (str% "$1 $2"), .s8], .s8,
     .elem n.numberFormat [(n.pattern, str% "(\\d{2})(\\d{6,7})"), (n.nationalPrefixFormattingRule, str% "$NP$FG")]
      [.s10,
       .leaf n.leadingDigits (str% "\n            1[35]|\n            [4-6]|\n            8[2468]|\n            9[235-7]\n          "), .s10,
       .leaf n.format (str% "$1 $2"), .s8], .s8,
     .elem n.numberFormat [(n.pattern, str% "(\\d{3})(\\d{3})(\\d{4})"), (n.nationalPrefixFormattingRule, str% "$NP$FG")]
      [.s10,
       .leaf n.leadingDigits (str% "[89]"), .s10,
       .leaf n.format (str% "$1 $2 $3"), .s8], .s8,
     .elem n.numberFormat [(n.pattern, str% "(\\d{2})(\\d{8})"), (n.nationalPrefixFormattingRule, str% "$NP$FG")]
      [.s10,
       .leaf n.leadingDigits (str% "1"), .s10,
       .leaf n.format (str% "$1 $2"), .s8], .s6], .s6,
   .elem n.generalDesc []
    [.s8,
     .leaf n.nationalNumberPattern (str% "\n          [189]\\d{8,9}|\n          [24-6]\\d{8}|\n          [135]\\d{7}\n        "), .s6], .s6, .comment, .s6,
   .elem n.fixedLine []
    [.s8,
     .empty n.possibleLengths [(n.national, str% "8,9"), (n.localOnly, str% "6,7")], .s8,
     .leaf n.exampleNumber (str% "234567890"), .s8,
     .leaf n.nationalNumberPattern (str% "\n          13[23]\\d{6}|\n          (?:\n            15|\n            57\n          )\\d{6,7}|\n          (?:\n            2\\d|\n            3|\n            4[05-8]|\n            5[05]|\n            6[24-689]|\n            8[2468]|\n            9[235-7]\n          )\\d{7}\n        "), .s6], .s6,
   .elem n.mobile []
    [.s8,
     .empty n.possibleLengths [(n.national, str% "10")], .s8,
     .leaf n.exampleNumber (str% "1001234567"), .s8,
     .leaf n.nationalNumberPattern (str% "1[0-25]\\d{8}"), .s6], .s6,
   .elem n.tollFree []
    [.s8,
     .empty n.possibleLengths [(n.national, str% "10")], .s8,
     .leaf n.exampleNumber (str% "8001234567"), .s8,
     .leaf n.nationalNumberPattern (str% "800\\d{7}"), .s6], .s6,
   .elem n.premiumRate []
    [.s8,
     .empty n.possibleLengths [(n.national, str% "10")], .s8,
     .leaf n.exampleNumber (str% "9001234567"), .s8,
     .leaf n.nationalNumberPattern (str% "900\\d{7}"), .s6], .s4]

/-- what stands before this territory -/
noncomputable def EH_before : List Node :=
  [.l4, .comment, .s4, .comment, .s4, .comment, .s4, .comment, .s4]
/-- its attributes -/
noncomputable def EH_attrs : List (Str × Str) := [(n.id, str% "EH"), (n.countryCode, str% "212"), (n.internationalPrefix, str% "00"), (n.nationalPrefix, str% "0")]
/-- its content -/
noncomputable def EH : List Node :=
  [.s6,
   .elem n.generalDesc []
    [.s8,
     .leaf n.nationalNumberPattern (str% "[5-8]\\d{8}"), .s6], .s6,
   .elem n.fixedLine []
    [.s8,
     .empty n.possibleLengths [(n.national, str% "9")], .s8,
     .leaf n.exampleNumber (str% "528812345"), .s8,
     .leaf n.nationalNumberPattern (str% "528[89]\\d{5}"), .s6], .s6, .comment, .s6,
   .elem n.mobile []
    [.s8,
     .empty n.possibleLengths [(n.national, str% "9")], .s8,
     .leaf n.exampleNumber (str% "650123456"), .s8,
     .leaf n.nationalNumberPattern (str% "\n          (?:\n            6(?:\n              [0-79]\\d|\n              8[0-247-9]\n            )|\n            7(?:\n              [016-8]\\d|\n              2[0-8]|\n              5[0-5]\n            )\n          )\\d{6}\n        "), .s6], .s6,
   .elem n.tollFree []
    [.s8,
     .empty n.possibleLengths [(n.national, str% "9")], .s8,
     .leaf n.exampleNumber (str% "801234567"), .s8,
     .leaf n.nationalNumberPattern (str% "80[0-7]\\d{6}"), .s6], .s6,
   .elem n.premiumRate []
    [.s8,
     .empty n.possibleLengths [(n.national, str% "9")], .s8,
     .leaf n.exampleNumber (str% "891234567"), .s8,
     .leaf n.nationalNumberPattern (str% "89\\d{7}"), .s6], .s6, .comment, .s6,
   .elem n.voip []
    [.s8,
     .empty n.possibleLengths [(n.national, str% "9")], .s8,
     .leaf n.exampleNumber (str% "592401234"), .s8,
     .leaf n.nationalNumberPattern (str% "\n          (?:\n            592(?:\n              4[0-2]|\n              93\n            )|\n            80[89]\\d\\d\n          )\\d{4}\n        "), .s6], .s4]

/-- what stands before this territory -/
noncomputable def ER_before : List Node :=
  [.l4, .comment, .s4, .comment, .s4]
/-- its attributes -/
noncomputable def ER_attrs : List (Str × Str) := [(n.id, str% "ER"), (n.countryCode, str% "291"), (n.internationalPrefix, str% "00"), (n.nationalPrefix, str% "0")]
/-- its content -/
noncomputable def ER : List Node :=
  [.s6,
   .elem n.availableFormats []
    [.s8,
     .elem n.numberFormat [(n.pattern, str% "(\\d)(\\d{3})(\\d{3})"), (n.nationalPrefixFormattingRule, str% "$NP$FG")]
      [.s10,
       .leaf n.leadingDigits (str% "[178]"), .s10,
       .leaf n.format (str% "$1 $2 $3"), .s8], .s6], .s6,
   .elem n.generalDesc []
    [.s8,
     .leaf n.nationalNumberPattern (str% "[178]\\d{6}"), .s6], .s6, .comment, .s6,
   .elem n.fixedLine []
    [.s8,
     .empty n.possibleLengths [(n.national, str% "7"), (n.localOnly, str% "6")], .s8,
     .leaf n.exampleNumber (str% "8370362"), .s8,
     .leaf n.nationalNumberPattern (str% "\n          (?:\n            1(?:\n              1[12568]|\n              [24]0|\n              55|\n              6[146]\n            )|\n            8\\d\\d\n          )\\d{4}\n        "), .s6], .s6, .comment, .s6,
   .elem n.mobile []
    [.s8,
     .empty n.possibleLengths [(n.national, str% "7")], .s8,
     .leaf n.exampleNumber (str% "7123456"), .s8,
     .leaf n.nationalNumberPattern (str% "\n          (?:\n            17[1-3]|\n            7\\d\\d\n          )\\d{4}\n        "), .s6], .s4]

/-- what stands before this territory -/
noncomputable def ES_before : List Node :=
  [.l4, .comment, .s4, .comment, .s4]
/-- its attributes -/
noncomputable def ES_attrs : List (Str × Str) := [(n.id, str% "ES"), (n.countryCode, str% "34"), (n.internationalPrefix, str% "00"), (n.mobileNumberPortableRegion, str% "true")]
/-- its content -/
noncomputable def ES : List Node :=
  [.s6,
   .elem n.availableFormats []
    [.s8, .comment, .s8,
     .elem n.numberFormat [(n.pattern, str% "(\\d{4})")]
      [.s10,
       .leaf n.leadingDigits (str% "905"), .s10,
       .leaf n.format (str% "$1"), .s10,
       .leaf n.intlFormat (str% "NA"), .s8], .s8, .comment, .s8,
     .elem n.numberFormat [(n.pattern, str% "(\\d{6})")]
      [.s10,
       .leaf n.leadingDigits (str% "[79]9"), .s10,
       .leaf n.format (str% "$1"), .s10,
       .leaf n.intlFormat (str% "NA"), .s8], .s8, .comment, .s8,
     .elem n.numberFormat [(n.pattern, str% "(\\d{3})(\\d{3})(\\d{3})")]
      [.s10,
       .leaf n.leadingDigits (str% "[89]00"), .s10,
       .leaf n.format (str% "$1 $2 $3"), .s8], .s8,
     .elem n.numberFormat [(n.pattern, str% "(\\d{3})(\\d{2})(\\d{2})(\\d{2})")]
      [.s10,
       .leaf n.leadingDigits (str% "[5-9]"), .s10,
       .leaf n.format (str% "$1 $2 $3 $4"), .s8], .s6], .s6,
   .elem n.generalDesc []
    [.s8,
     .leaf n.nationalNumberPattern (str% "[5-9]\\d{8}"), .s6], .s6, .comment, .s6,
   .elem n.fixedLine []
    [.s8,
     .empty n.possibleLengths [(n.national, str% "9")], .s8,
     .leaf n.exampleNumber (str% "810123456"), .s8,
     .leaf n.nationalNumberPattern (str% "\n          96906(?:\n            0[0-8]|\n            1[1-9]|\n            [2-9]\\d\n          )\\d\\d|\n          9(?:\n            69(?:\n              0[0-57-9]|\n              [1-9]\\d\n            )|\n            73(?:\n              [0-8]\\d|\n              9[1-9]\n            )\n          )\\d{4}|\n          (?:\n            8(?:\n              [1356]\\d|\n              [28][0-8]|\n              [47][1-9]\n            )|\n            9(?:\n              [135]\\d|\n              [268][0-8]|\n              4[1-9]|\n              7[124-9]\n            )\n          )\\d{6}\n        "), .s6], .s6, .comment, .s6,
   .elem n.mobile []
    [.s8,
     .empty n.possibleLengths [(n.national, str% "9")], .s8,
     .leaf n.exampleNumber (str% "612345678"), .s8,
     .leaf n.nationalNumberPattern (str% "\n          96906(?:\n            09|\n            10\n          )\\d\\d|\n          (?:\n            590(?:\n              10[0-2]|\n              600\n            )|\n            97390\\d\n          )\\d{3}|\n          (?:\n            6\\d|\n            7[1-48]\n          )\\d{7}\n        "), .s6], .s6,
   .elem n.tollFree []
    [.s8,
     .empty n.possibleLengths [(n.national, str% "9")], .s8,
     .leaf n.exampleNumber (str% "800123456"), .s8,
     .leaf n.nationalNumberPattern (str% "[89]00\\d{6}"), .s6], .s6,
   .elem n.premiumRate []
    [.s8,
     .empty n.possibleLengths [(n.national, str% "9")], .s8,
     .leaf n.exampleNumber (str% "803123456"), .s8,
     .leaf n.nationalNumberPattern (str% "80[367]\\d{6}"), .s6], .s6,
   .elem n.sharedCost []
    [.s8,
     .empty n.possibleLengths [(n.national, str% "9")], .s8,
     .leaf n.exampleNumber (str% "901123456"), .s8,
     .leaf n.nationalNumberPattern (str% "90[12]\\d{6}"), .s6], .s6,
   .elem n.personalNumber []
    [.s8,
     .empty n.possibleLengths [(n.national, str% "9")], .s8,
     .leaf n.exampleNumber (str% "701234567"), .s8,
     .leaf n.nationalNumberPattern (str% "70\\d{7}"), .s6], .s6, .comment, .s6,
   .elem n.uan []
    [.s8,
     .empty n.possibleLengths [(n.national, str% "9")], .s8,
     .leaf n.exampleNumber (str% "511234567"), .s8,
     .leaf n.nationalNumberPattern (str% "51\\d{7}"), .s6], .s4]

/-- the nodes of this module -/
noncomputable def chunk04 : List (List Node × List (Str × Str) × List Node) :=
  [(CU_before, CU_attrs, CU), (CV_before, CV_attrs, CV), (CW_before, CW_attrs, CW), (CX_before, CX_attrs, CX),
   (CY_before, CY_attrs, CY), (CZ_before, CZ_attrs, CZ), (DE_before, DE_attrs, DE), (DJ_before, DJ_attrs, DJ),
   (DK_before, DK_attrs, DK), (DM_before, DM_attrs, DM), (DO_before, DO_attrs, DO), (DZ_before, DZ_attrs, DZ),
   (EC_before, EC_attrs, EC), (EE_before, EE_attrs, EE), (EG_before, EG_attrs, EG), (EH_before, EH_attrs, EH),
   (ER_before, ER_attrs, ER), (ES_before, ES_attrs, ES)]

end Phone.Data.X
