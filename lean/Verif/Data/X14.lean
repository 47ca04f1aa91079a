import Verif.Data.XNames
/-! Territories of `/repo/assets/PhoneNumberMetadata.xml` as trees. Generated by `tools/gen_xml.py`; do not edit. -/

set_option maxRecDepth 100000
namespace Phone.Data.X
open Phone.Xml

/-- what stands before this territory -/
noncomputable def TM_before : List Node :=
  [.l4, .comment, .s4, .comment, .s4, .comment, .s4, .comment, .s4]
/-- its attributes -/
noncomputable def TM_attrs : List (Str × Str) := [(n.id, str% "TM"), (n.countryCode, str% "993"), (n.preferredInternationalPrefix, str% "8~10"), (n.internationalPrefix, str% "810"), (n.nationalPrefix, str% "8")]
/-- its content -/
noncomputable def TM : List Node :=
  [.s6,
   .elem n.availableFormats []
    [.s8, .comment, .s8,
     .elem n.numberFormat [(n.pattern, str% "(\\d{2})(\\d{2})(\\d{2})(\\d{2})"), (n.nationalPrefixFormattingRule, str% "($NP $FG)")]
      [.s10,
       .leaf n.leadingDigits (str% "12"), .s10,
       .leaf n.format (str% "$1 $2-$3-$4"), .s8], .s8,
     .elem n.numberFormat [(n.pattern, str% "(\\d{3})(\\d)(\\d{2})(\\d{2})"), (n.nationalPrefixFormattingRule, str% "($NP $FG)")]
      [.s10,
       .leaf n.leadingDigits (str% "[1-5]"), .s10,
       .leaf n.format (str% "$1 $2-$3-$4"), .s8], .s8,
     .elem n.numberFormat [(n.pattern, str% "(\\d{2})(\\d{6})"), (n.nationalPrefixFormattingRule, str% "$NP $FG")]
      [.s10,
       .leaf n.leadingDigits (str% "[67]"), .s10,
       .leaf n.format (str% "$1 $2"), .s8], .s6], .s6,
   .elem n.generalDesc []
    [.s8,
     .leaf n.nationalNumberPattern (str% "\n          (?:\n            [1-6]\\d|\n            71\n          )\\d{6}\n        "), .s6], .s6, .comment, .s6,
   .elem n.fixedLine []
    [.s8,
     .empty n.possibleLengths [(n.national, str% "8")], .s8,
     .leaf n.exampleNumber (str% "12345678"), .s8,
     .leaf n.nationalNumberPattern (str% "\n          (?:\n            1(?:\n              2\\d|\n              3[1-9]\n            )|\n            2(?:\n              22|\n              4[0-35-8]\n            )|\n            3(?:\n              22|\n              4[03-9]\n            )|\n            4(?:\n              22|\n              3[128]|\n              4\\d|\n              6[15]\n            )|\n            5(?:\n              22|\n              5[7-9]|\n              6[014-689]\n            )\n          )\\d{5}\n        "), .s6], .s6, .comment, .s6,
   .elem n.mobile []
    [.s8,
     .empty n.possibleLengths [(n.national, str% "8")], .s8,
     .leaf n.exampleNumber (str% "66123456"), .s8,
     .leaf n.nationalNumberPattern (str% "\n          (?:\n            6\\d|\n            71\n          )\\d{6}\n        "), .s6], .s4]

/-- what stands before this territory -/
noncomputable def TN_before : List Node :=
  [.l4, .comment, .s4, .comment, .s4, .comment, .s4, .comment, .s4]
/-- its attributes -/
noncomputable def TN_attrs : List (Str × Str) := [(n.id, str% "TN"), (n.countryCode, str% "216"), (n.internationalPrefix, str% "00")]
/-- its content -/
noncomputable def TN : List Node :=
  [.s6,
   .elem n.availableFormats []
    [.s8,
     .elem n.numberFormat [(n.pattern, str% "(\\d{2})(\\d{3})(\\d{3})")]
      [.s10,
       .leaf n.leadingDigits (str% "[2-57-9]"), .s10,
       .leaf n.format (str% "$1 $2 $3"), .s8], .s6], .s6,
   .elem n.generalDesc []
    [.s8,
     .leaf n.nationalNumberPattern (str% "[2-57-9]\\d{7}"), .s6], .s6, .comment, .s6,
   .elem n.fixedLine []
    [.s8,
     .empty n.possibleLengths [(n.national, str% "8")], .s8,
     .leaf n.exampleNumber (str% "30010123"), .s8,
     .leaf n.nationalNumberPattern (str% "\n          81200\\d{3}|\n          (?:\n            3[0-2]|\n            7\\d\n          )\\d{6}\n        "), .s6], .s6, .comment, .s6,
   .elem n.mobile []
    [.s8,
     .empty n.possibleLengths [(n.national, str% "8")], .s8,
     .leaf n.exampleNumber (str% "20123456"), .s8,
     .leaf n.nationalNumberPattern (str% "\n          3(?:\n            001|\n            [12]40\n          )\\d{4}|\n          (?:\n            (?:\n              [259]\\d|\n              4[0-8]\n            )\\d|\n            3(?:\n              1[1-35]|\n              6[0-4]|\n              91\n            )\n          )\\d{5}\n        "), .s6], .s6, .comment, .s6,
   .elem n.tollFree []
    [.s8,
     .empty n.possibleLengths [(n.national, str% "8")], .s8,
     .leaf n.exampleNumber (str% "80101234"), .s8,
     .leaf n.nationalNumberPattern (str% "8010\\d{4}"), .s6], .s6,
   .elem n.premiumRate []
    [.s8,
     .empty n.possibleLengths [(n.national, str% "8")], .s8,
     .leaf n.exampleNumber (str% "88123456"), .s8,
     .leaf n.nationalNumberPattern (str% "88\\d{6}"), .s6], .s6, .comment, .s6,
   .elem n.sharedCost []
    [.s8,
     .empty n.possibleLengths [(n.national, str% "8")], .s8,
     .leaf n.exampleNumber (str% "81101234"), .s8,
     .leaf n.nationalNumberPattern (str% "8[12]10\\d{4}"), .s6], .s4]

/-- what stands before this territory -/
noncomputable def TO_before : List Node :=
  [.l4, .comment, .s4, .comment, .s4, .comment, .s4]
/-- its attributes -/
noncomputable def TO_attrs : List (Str × Str) := [(n.id, str% "TO"), (n.countryCode, str% "676"), (n.internationalPrefix, str% "00")]
/-- its content -/
noncomputable def TO : List Node :=
  [.s6,
   .elem n.availableFormats []
    [.s8,
     .elem n.numberFormat [(n.pattern, str% "(\\d{2})(\\d{3})")]
      [.s10,
       .leaf n.leadingDigits (str% "\n            [2-4]|\n            50|\n            6[09]|\n            7[0-24-69]|\n            8[05]\n          "), .s10,
       .leaf n.format (str% "$1-$2"), .s8], .s8,
     .elem n.numberFormat [(n.pattern, str% "(\\d{4})(\\d{3})")]
      [.s10,
       .leaf n.leadingDigits (str% "0"), .s10,
       .leaf n.format (str% "$1 $2"), .s8], .s8, .comment, .s8,
     .elem n.numberFormat [(n.pattern, str% "(\\d{3})(\\d{4})")]
      [.s10,
       .leaf n.leadingDigits (str% "[5-9]"), .s10,
       .leaf n.format (str% "$1 $2"), .s8], .s6], .s6,
   .elem n.generalDesc []
    [.s8,
     .leaf n.nationalNumberPattern (str% "\n          (?:\n            0800|\n            (?:\n              [5-8]\\d\\d|\n              999\n            )\\d\n          )\\d{3}|\n          [2-8]\\d{4}\n        "), .s6], .s6,
   .elem n.fixedLine []
    [.s8,
     .empty n.possibleLengths [(n.national, str% "5")], .s8,
     .leaf n.exampleNumber (str% "20123"), .s8,
     .leaf n.nationalNumberPattern (str% "\n          (?:\n            2\\d|\n            3[0-8]|\n            4[0-4]|\n            50|\n            6[09]|\n            7[0-24-69]|\n            8[05]\n          )\\d{3}\n        "), .s6], .s6, .comment, .s6,
   .elem n.mobile []
    [.s8,
     .empty n.possibleLengths [(n.national, str% "7")], .s8,
     .leaf n.exampleNumber (str% "7715123"), .s8,
     .leaf n.nationalNumberPattern (str% "\n          (?:\n            5(?:\n              4[0-5]|\n              5[4-6]\n            )|\n            6(?:\n              [09]\\d|\n              3[02]|\n              8[15-9]\n            )|\n            (?:\n              7\\d|\n              8[46-9]\n            )\\d|\n            999\n          )\\d{4}\n        "), .s6], .s6,
   .elem n.tollFree []
    [.s8,
     .empty n.possibleLengths [(n.national, str% "7")], .s8,
     .leaf n.exampleNumber (str% "0800222"), .s8,
     .leaf n.nationalNumberPattern (str% "0800\\d{3}"), .s6], .s6,
   .elem n.voip []
    [.s8,
     .empty n.possibleLengths [(n.national, str% "7")], .s8,
     .leaf n.exampleNumber (str% "5510123"), .s8,
     .leaf n.nationalNumberPattern (str% "55[0-37-9]\\d{4}"), .s6], .s4]

/-- what stands before this territory -/
noncomputable def TR_before : List Node :=
  [.l4, .comment, .s4, .comment, .s4, .comment, .s4, .comment, .s4, .comment, .s4]
/-- its attributes -/
noncomputable def TR_attrs : List (Str × Str) := [(n.id, str% "TR"), (n.countryCode, str% "90"), (n.internationalPrefix, str% "00"), (n.nationalPrefix, str% "0"), (n.mobileNumberPortableRegion, str% "true")]
/-- its content -/
noncomputable def TR : List Node :=
  [.s6,
   .elem n.availableFormats []
    [.s8, .comment, .s8,
     .elem n.numberFormat [(n.pattern, str% "(\\d{3})(\\d)(\\d{3})"), (n.nationalPrefixOptionalWhenFormatting, str% "true")]
      [.s10,
       .leaf n.leadingDigits (str% "444"), .s10,
       .leaf n.format (str% "$1 $2 $3"), .s10,
       .leaf n.intlFormat (str% "NA"), .s8], .s8, .comment, .s8,
     .elem n.numberFormat [(n.pattern, str% "(\\d{3})(\\d{3})(\\d{4})"), (n.nationalPrefixFormattingRule, str% "$NP$FG"), (n.nationalPrefixOptionalWhenFormatting, str% "true")]
      [.s10,
       .leaf n.leadingDigits (str% "\n            512|\n            8[01589]|\n            90\n          "), .s10,
       .leaf n.format (str% "$1 $2 $3"), .s8], .s8, .comment, .s8,
     .elem n.numberFormat [(n.pattern, str% "(\\d{3})(\\d{3})(\\d{2})(\\d{2})"), (n.nationalPrefixFormattingRule, str% "$NP$FG"), (n.nationalPrefixOptionalWhenFormatting, str% "true")]
      [.s10,
       .leaf n.leadingDigits (str% "5[0-79]"), .s10,
       .leaf n.format (str% "$1 $2 $3 $4"), .s8], .s8, .comment, .s8,
     .elem n.numberFormat [(n.pattern, str% "(\\d{3})(\\d{3})(\\d{2})(\\d{2})"), (n.nationalPrefixFormattingRule, str% "($NP$FG)"), (n.nationalPrefixOptionalWhenFormatting, str% "true")]
      [.s10,
       .leaf n.leadingDigits (str% "\n            [24][1-8]|\n            3[1-9]\n          "), .s10,
       .leaf n.format (str% "$1 $2 $3 $4"), .s8], .s8, .comment, .s8,
     .elem n.numberFormat [(n.pattern, str% "(\\d{3})(\\d{3})(\\d{6,7})"), (n.nationalPrefixFormattingRule, str% "$NP$FG"), (n.nationalPrefixOptionalWhenFormatting, str% "true")]
      [.s10,
       .leaf n.leadingDigits (str% "80"), .s10,
       .leaf n.format (str% "$1 $2 $3"), .s8], .s6], .s6,
   .elem n.generalDesc []
    [.s8,
     .leaf n.nationalNumberPattern (str% "\n          4\\d{6}|\n          8\\d{11,12}|\n          (?:\n            [2-58]\\d\\d|\n            900\n          )\\d{7}\n        "), .s6], .s6,
   .elem n.noInternationalDialling []
    [.s8,
     .empty n.possibleLengths [(n.national, str% "7,10")], .s8,
     .leaf n.nationalNumberPattern (str% "\n          (?:\n            444|\n            811\\d{3}\n          )\\d{4}\n        "), .s6], .s6, .comment, .s6,
   .elem n.fixedLine []
    [.s8,
     .empty n.possibleLengths [(n.national, str% "10")], .s8,
     .leaf n.exampleNumber (str% "2123456789"), .s8,
     .leaf n.nationalNumberPattern (str% "\n          (?:\n            2(?:\n              1[26]|\n              [28][2468]|\n              [3-5][268]|\n              [67][246]\n            )|\n            3(?:\n              [13][28]|\n              [24-6][2468]|\n              [78][02468]|\n              92\n            )|\n            4(?:\n              [16][246]|\n              [23578][2468]|\n              4[26]\n            )\n          )\\d{7}\n        "), .s6], .s6, .comment, .s6,
   .elem n.mobile []
    [.s8,
     .empty n.possibleLengths [(n.national, str% "10")], .s8,
     .leaf n.exampleNumber (str% "5012345678"), .s8,
     .leaf n.nationalNumberPattern (str% "\n          561(?:\n            011|\n            61\\d\n          )\\d{4}|\n          5(?:\n            [03-5]\\d|\n            1[06]|\n            24|\n            6[24]|\n            7[245]|\n            9[46]\n          )\\d{7}\n        "), .s6], .s6, .comment, .s6,
   .elem n.pager []
    [.s8,
     .empty n.possibleLengths [(n.national, str% "10")], .s8,
     .leaf n.exampleNumber (str% "5123456789"), .s8,
     .leaf n.nationalNumberPattern (str% "512\\d{7}"), .s6], .s6, .comment, .s6,
   .elem n.tollFree []
    [.s8,
     .empty n.possibleLengths [(n.national, str% "10,12,13")], .s8,
     .leaf n.exampleNumber (str% "8001234567"), .s8,
     .leaf n.nationalNumberPattern (str% "\n          8(?:\n            00\\d{7}(?:\n              \\d{2,3}\n            )?|\n            11\\d{7}\n          )\n        "), .s6], .s6,
   .elem n.premiumRate []
    [.s8,
     .empty n.possibleLengths [(n.national, str% "10")], .s8,
     .leaf n.exampleNumber (str% "9001234567"), .s8,
     .leaf n.nationalNumberPattern (str% "\n          (?:\n            8[89]8|\n            900\n          )\\d{7}\n        "), .s6], .s6, .comment, .s6,
   .elem n.personalNumber []
    [.s8,
     .empty n.possibleLengths [(n.national, str% "10")], .s8,
     .leaf n.exampleNumber (str% "5922121234"), .s8,
     .leaf n.nationalNumberPattern (str% "\n          592(?:\n            21[12]|\n            461\n          )\\d{4}\n        "), .s6], .s6, .comment, .s6,
   .elem n.voip []
    [.s8,
     .empty n.possibleLengths [(n.national, str% "10")], .s8,
     .leaf n.exampleNumber (str% "8500123456"), .s8,
     .leaf n.nationalNumberPattern (str% "850\\d{7}"), .s6], .s6, .comment, .s6,
   .elem n.uan []
    [.s8,
     .empty n.possibleLengths [(n.national, str% "7")], .s8,
     .leaf n.exampleNumber (str% "4441444"), .s8,
     .leaf n.nationalNumberPattern (str% "444\\d{4}"), .s6], .s4]

/-- what stands before this territory -/
noncomputable def TT_before : List Node :=
  [.l4, .comment, .s4, .comment, .s4, .comment, .s4]
/-- its attributes -/
noncomputable def TT_attrs : List (Str × Str) := [(n.id, str% "TT"), (n.countryCode, str% "1"), (n.leadingDigits, str% "868"), (n.internationalPrefix, str% "011"), (n.nationalPrefix, str% "1"), (n.nationalPrefixForParsing, str% "([2-46-8]\\d{6})$|1"), (n.nationalPrefixTransformRule, str% "868$1"), (n.mobileNumberPortableRegion, str% "true")]
/-- its content -/
noncomputable def TT : List Node :=
  [.s6,
   .elem n.generalDesc []
    [.s8,
     .leaf n.nationalNumberPattern (str% "\n          (?:\n            [58]\\d\\d|\n            900\n          )\\d{7}\n        "), .s6], .s6, .comment, .s6,
   .elem n.fixedLine []
    [.s8,
     .empty n.possibleLengths [(n.national, str% "10"), (n.localOnly, str% "7")], .s8,
     .leaf n.exampleNumber (str% "8682211234"), .s8,
     .leaf n.nationalNumberPattern (str% "\n          868(?:\n            2(?:\n              01|\n              1[5-9]|\n              [23]\\d|\n              4[0-2]\n            )|\n            6(?:\n              0[7-9]|\n              1[02-8]|\n              2[1-9]|\n              [3-69]\\d|\n              7[0-79]\n            )|\n            82[124]\n          )\\d{4}\n        "), .s6], .s6, .comment, .s6,
   .elem n.mobile []
    [.s8,
     .empty n.possibleLengths [(n.national, str% "10"), (n.localOnly, str% "7")], .s8,
     .leaf n.exampleNumber (str% "8682911234"), .s8,
     .leaf n.nationalNumberPattern (str% "\n          868(?:\n            (?:\n              2[5-9]|\n              3\\d\n            )\\d|\n            4(?:\n              3[0-6]|\n              [6-9]\\d\n            )|\n            6(?:\n              20|\n              78|\n              8\\d\n            )|\n            7(?:\n              0[1-9]|\n              1[02-9]|\n              [2-9]\\d\n            )\n          )\\d{4}\n        "), .s6], .s6,
   .elem n.tollFree []
    [.s8,
     .empty n.possibleLengths [(n.national, str% "10")], .s8,
     .leaf n.exampleNumber (str% "8002345678"), .s8,
     .leaf n.nationalNumberPattern (str% "\n          868800\\d{4}|\n          8(?:\n            00|\n            33|\n            44|\n            55|\n            66|\n            77|\n            88\n          )[2-9]\\d{6}\n        "), .s6], .s6,
   .elem n.premiumRate []
    [.s8,
     .empty n.possibleLengths [(n.national, str% "10")], .s8,
     .leaf n.exampleNumber (str% "9002345678"), .s8,
     .leaf n.nationalNumberPattern (str% "900[2-9]\\d{6}"), .s6], .s6, .comment, .s6,
   .elem n.personalNumber []
    [.s8,
     .empty n.possibleLengths [(n.national, str% "10")], .s8,
     .leaf n.exampleNumber (str% "5002345678"), .s8,
     .leaf n.nationalNumberPattern (str% "\n          52(?:\n            3(?:\n              [2-46-9][02-9]\\d|\n              5(?:\n                [02-46-9]\\d|\n                5[0-46-9]\n              )\n            )|\n            4(?:\n              [2-478][02-9]\\d|\n              5(?:\n                [034]\\d|\n                2[024-9]|\n                5[0-46-9]\n              )|\n              6(?:\n                0[1-9]|\n                [2-9]\\d\n              )|\n              9(?:\n                [05-9]\\d|\n                2[0-5]|\n                49\n              )\n            )\n          )\\d{4}|\n          52[34][2-9]1[02-9]\\d{4}|\n          5(?:\n            00|\n            2[125-9]|\n            3[23]|\n            44|\n            66|\n            77|\n            88\n          )[2-9]\\d{6}\n        "), .s6], .s6,
   .elem n.voicemail []
    [.s8,
     .empty n.possibleLengths [(n.national, str% "10"), (n.localOnly, str% "7")], .s8,
     .leaf n.exampleNumber (str% "8686191234"), .s8,
     .leaf n.nationalNumberPattern (str% "868619\\d{4}"), .s6], .s4]

/-- what stands before this territory -/
noncomputable def TV_before : List Node :=
  [.l4, .comment, .s4, .comment, .s4, .comment, .s4]
/-- its attributes -/
noncomputable def TV_attrs : List (Str × Str) := [(n.id, str% "TV"), (n.countryCode, str% "688"), (n.internationalPrefix, str% "00")]
/-- its content -/
noncomputable def TV : List Node :=
  [.s6,
   .elem n.availableFormats []
    [.s8,
     .elem n.numberFormat [(n.pattern, str% "(\\d{2})(\\d{3})")]
      [.s10,
       .leaf n.leadingDigits (str% "2"), .s10,
       .leaf n.format (str% "$1 $2"), .s8], .s8,
     .elem n.numberFormat [(n.pattern, str% "(\\d{2})(\\d{4})")]
      [.s10,
       .leaf n.leadingDigits (str% "90"), .s10,
       .leaf n.format (str% "$1 $2"), .s8], .s8,
     .elem n.numberFormat [(n.pattern, str% "(\\d{2})(\\d{5})")]
      [.s10,
       .leaf n.leadingDigits (str% "7"), .s10,
       .leaf n.format (str% "$1 $2"), .s8], .s6], .s6,
   .elem n.generalDesc []
    [.s8,
     .leaf n.nationalNumberPattern (str% "\n          (?:\n            2|\n            7\\d\\d|\n            90\n          )\\d{4}\n        "), .s6], .s6,
   .elem n.fixedLine []
    [.s8,
     .empty n.possibleLengths [(n.national, str% "5")], .s8,
     .leaf n.exampleNumber (str% "20123"), .s8,
     .leaf n.nationalNumberPattern (str% "2[02-9]\\d{3}"), .s6], .s6, .comment, .s6,
   .elem n.mobile []
    [.s8,
     .empty n.possibleLengths [(n.national, str% "6,7")], .s8,
     .leaf n.exampleNumber (str% "901234"), .s8,
     .leaf n.nationalNumberPattern (str% "\n          (?:\n            7[01]\\d|\n            90\n          )\\d{4}\n        "), .s6], .s4]

/-- what stands before this territory -/
noncomputable def TW_before : List Node :=
  [.l4, .comment, .s4, .comment, .s4, .comment, .s4, .comment, .s4]
/-- its attributes -/
noncomputable def TW_attrs : List (Str × Str) := [(n.id, str% "TW"), (n.countryCode, str% "886"), (n.internationalPrefix, str% "0(?:0[25-79]|19)"), (n.nationalPrefix, str% "0"), (n.preferredExtnPrefix, str% "#"), (n.mobileNumberPortableRegion, str% "true")]
/-- its content -/
noncomputable def TW : List Node :=
  [.s6,
   .elem n.availableFormats []
    [.s8, .comment, .s8,
     .elem n.numberFormat [(n.pattern, str% "(\\d{2})(\\d)(\\d{4})"), (n.nationalPrefixFormattingRule, str% "$NP$FG")]
      [.s10,
       .leaf n.leadingDigits (str% "202"), .s10,
       .leaf n.format (str% "$1 $2 $3"), .s8], .s8,
     .elem n.numberFormat [(n.pattern, str% "(\\d{3})(\\d{5})"), (n.nationalPrefixFormattingRule, str% "$NP$FG")]
      [.s10,
       .leaf n.leadingDigits (str% "826"), .s10,
       .leaf n.format (str% "$1 $2"), .s8], .s8,
     .elem n.numberFormat [(n.pattern, str% "(\\d{3})(\\d{2})(\\d{3})"), (n.nationalPrefixFormattingRule, str% "$NP$FG")]
      [.s10,
       .leaf n.leadingDigits (str% "83"), .s10,
       .leaf n.format (str% "$1 $2 $3"), .s8], .s8,
     .elem n.numberFormat [(n.pattern, str% "(\\d{2})(\\d{2})(\\d{4})"), (n.nationalPrefixFormattingRule, str% "$NP$FG")]
      [.s10,
       .leaf n.leadingDigits (str% "82"), .s10,
       .leaf n.format (str% "$1 $2 $3"), .s8], .s8, .comment, .s8,
     .elem n.numberFormat [(n.pattern, str% "(\\d{2})(\\d{3})(\\d{3,4})"), (n.nationalPrefixFormattingRule, str% "$NP$FG")]
      [.s10,
       .leaf n.leadingDigits (str% "\n            [25]0|\n            37|\n            49|\n            8[09]\n          "), .s10,
       .leaf n.format (str% "$1 $2 $3"), .s8], .s8, .comment, .s8,
     .elem n.numberFormat [(n.pattern, str% "(\\d)(\\d{3,4})(\\d{4})"), (n.nationalPrefixFormattingRule, str% "$NP$FG")]
      [.s10,
       .leaf n.leadingDigits (str% "\n            [23568]|\n            4(?:\n              0[02-48]|\n              [1-478]\n            )|\n            7[1-9]\n          "), .s10,
       .leaf n.leadingDigits (str% "\n            [23568]|\n            4(?:\n              0[2-48]|\n              [1-478]\n            )|\n            (?:\n              400|\n              7\n            )[1-9]\n          "), .s10,
       .leaf n.format (str% "$1 $2 $3"), .s8], .s8, .comment, .s8,
     .elem n.numberFormat [(n.pattern, str% "(\\d{3})(\\d{3})(\\d{3})"), (n.nationalPrefixFormattingRule, str% "$NP$FG")]
      [.s10,
       .leaf n.leadingDigits (str% "[49]"), .s10,
       .leaf n.format (str% "$1 $2 $3"), .s8], .s8, .comment, .s8,
     .elem n.numberFormat [(n.pattern, str% "(\\d{2})(\\d{4})(\\d{4,5})"), (n.nationalPrefixFormattingRule, str% "$NP$FG")]
      [.s10,
       .leaf n.leadingDigits (str% "7"), .s10,
       .leaf n.format (str% "$1 $2 $3"), .s8], .s6], .s6,
   .elem n.generalDesc []
    [.s8,
     .leaf n.nationalNumberPattern (str% "\n          [2-689]\\d{8}|\n          7\\d{9,10}|\n          [2-8]\\d{7}|\n          2\\d{6}\n        "), .s6], .s6, .comment, .s6,
   .elem n.fixedLine []
    [.s8,
     .empty n.possibleLengths [(n.national, str% "8,9")], .s8,
     .leaf n.exampleNumber (str% "221234567"), .s8,
     .leaf n.nationalNumberPattern (str% "\n          (?:\n            2[2-8]\\d|\n            370|\n            55[01]|\n            7[1-9]\n          )\\d{6}|\n          4(?:\n            (?:\n              0(?:\n                0[1-9]|\n                [2-48]\\d\n              )|\n              1[023]\\d\n            )\\d{4,5}|\n            (?:\n              [239]\\d\\d|\n              4(?:\n                0[56]|\n                12|\n                49\n              )\n            )\\d{5}\n          )|\n          6(?:\n            [01]\\d{7}|\n            4(?:\n              0[56]|\n              12|\n              24|\n              4[09]\n            )\\d{4,5}\n          )|\n          8(?:\n            (?:\n              2(?:\n                3\\d|\n                4[0-269]|\n                [578]0|\n                66\n              )|\n              36[24-9]|\n              90\\d\\d\n            )\\d{4}|\n            4(?:\n              0[56]|\n              12|\n              24|\n              4[09]\n            )\\d{4,5}\n          )|\n          (?:\n            2(?:\n              2(?:\n                0\\d\\d|\n                4(?:\n                  0[68]|\n                  [249]0|\n                  3[0-467]|\n                  5[0-25-9]|\n                  6[0235689]\n                )\n              )|\n              (?:\n                3(?:\n                  [09]\\d|\n                  1[0-4]\n                )|\n                (?:\n                  4\\d|\n                  5[0-49]|\n                  6[0-29]|\n                  7[0-5]\n                )\\d\n              )\\d\n            )|\n            (?:\n              (?:\n                3[2-9]|\n                5[2-8]|\n                6[0-35-79]|\n                8[7-9]\n              )\\d\\d|\n              4(?:\n                2(?:\n                  [089]\\d|\n                  7[1-9]\n                )|\n                (?:\n                  3[0-4]|\n                  [78]\\d|\n                  9[01]\n                )\\d\n              )\n            )\\d\n          )\\d{3}\n        "), .s6], .s6,
   .elem n.mobile []
    [.s8,
     .empty n.possibleLengths [(n.national, str% "9")], .s8,
     .leaf n.exampleNumber (str% "912345678"), .s8,
     .leaf n.nationalNumberPattern (str% "\n          (?:\n            40001[0-2]|\n            9[0-8]\\d{4}\n          )\\d{3}\n        "), .s6], .s6,
   .elem n.tollFree []
    [.s8,
     .empty n.possibleLengths [(n.national, str% "8,9")], .s8,
     .leaf n.exampleNumber (str% "800123456"), .s8,
     .leaf n.nationalNumberPattern (str% "\n          80[0-79]\\d{6}|\n          800\\d{5}\n        "), .s6], .s6,
   .elem n.premiumRate []
    [.s8,
     .empty n.possibleLengths [(n.national, str% "7,9")], .s8,
     .leaf n.exampleNumber (str% "203123456"), .s8,
     .leaf n.nationalNumberPattern (str% "\n          20(?:\n            [013-9]\\d\\d|\n            2\n          )\\d{4}\n        "), .s6], .s6,
   .elem n.personalNumber []
    [.s8,
     .empty n.possibleLengths [(n.national, str% "9")], .s8,
     .leaf n.exampleNumber (str% "990123456"), .s8,
     .leaf n.nationalNumberPattern (str% "99\\d{7}"), .s6], .s6, .comment, .s6,
   .elem n.voip []
    [.s8,
     .empty n.possibleLengths [(n.national, str% "10,11")], .s8,
     .leaf n.exampleNumber (str% "7012345678"), .s8,
     .leaf n.nationalNumberPattern (str% "\n          7010(?:\n            [0-2679]\\d|\n            3[0-7]|\n            8[0-5]\n          )\\d{5}|\n          70\\d{8}\n        "), .s6], .s6,
   .elem n.uan []
    [.s8,
     .empty n.possibleLengths [(n.national, str% "9")], .s8,
     .leaf n.exampleNumber (str% "500123456"), .s8,
     .leaf n.nationalNumberPattern (str% "50[0-46-9]\\d{6}"), .s6], .s4]

/-- what stands before this territory -/
noncomputable def TZ_before : List Node :=
  [.l4, .comment, .s4, .comment, .s4]
/-- its attributes -/
noncomputable def TZ_attrs : List (Str × Str) := [(n.id, str% "TZ"), (n.countryCode, str% "255"), (n.internationalPrefix, str% "00[056]"), (n.nationalPrefix, str% "0")]
/-- its content -/
noncomputable def TZ : List Node :=
  [.s6,
   .elem n.availableFormats []
    [.s8, .comment, .s8,
     .elem n.numberFormat [(n.pattern, str% "(\\d{3})(\\d{2})(\\d{4})"), (n.nationalPrefixFormattingRule, str% "$NP$FG")]
      [.s10,
       .leaf n.leadingDigits (str% "[89]"), .s10,
       .leaf n.format (str% "$1 $2 $3"), .s8], .s8,
     .elem n.numberFormat [(n.pattern, str% "(\\d{2})(\\d{3})(\\d{4})"), (n.nationalPrefixFormattingRule, str% "$NP$FG")]
      [.s10,
       .leaf n.leadingDigits (str% "[24]"), .s10,
       .leaf n.format (str% "$1 $2 $3"), .s8], .s8, .comment, .s8,
     .elem n.numberFormat [(n.pattern, str% "(\\d{2})(\\d{7})")]
      [.s10,
       .leaf n.leadingDigits (str% "5"), .s10,
       .leaf n.format (str% "$1 $2"), .s8], .s8,
     .elem n.numberFormat [(n.pattern, str% "(\\d{3})(\\d{3})(\\d{3})"), (n.nationalPrefixFormattingRule, str% "$NP$FG")]
      [.s10,
       .leaf n.leadingDigits (str% "[67]"), .s10,
       .leaf n.format (str% "$1 $2 $3"), .s8], .s6], .s6,
   .elem n.generalDesc []
    [.s8,
     .leaf n.nationalNumberPattern (str% "\n          (?:\n            [25-8]\\d|\n            41|\n            90\n          )\\d{7}\n        "), .s6], .s6,
   .elem n.noInternationalDialling []
    [.s8,
     .empty n.possibleLengths [(n.national, str% "9")], .s8,
     .leaf n.nationalNumberPattern (str% "\n          (?:\n            8(?:\n              [04]0|\n              6[01]\n            )|\n            90\\d\n          )\\d{6}\n        "), .s6], .s6,
   .elem n.fixedLine []
    [.s8,
     .empty n.possibleLengths [(n.national, str% "9")], .s8,
     .leaf n.exampleNumber (str% "222345678"), .s8,
     .leaf n.nationalNumberPattern (str% "2[2-8]\\d{7}"), .s6], .s6,
   .elem n.mobile []
    [.s8,
     .empty n.possibleLengths [(n.national, str% "9")], .s8,
     .leaf n.exampleNumber (str% "621234567"), .s8,
     .leaf n.nationalNumberPattern (str% "\n          (?:\n            6[1-35-9]|\n            7[013-9]\n          )\\d{7}\n        "), .s6], .s6,
   .elem n.tollFree []
    [.s8,
     .empty n.possibleLengths [(n.national, str% "9")], .s8,
     .leaf n.exampleNumber (str% "800123456"), .s8,
     .leaf n.nationalNumberPattern (str% "80[08]\\d{6}"), .s6], .s6,
   .elem n.premiumRate []
    [.s8,
     .empty n.possibleLengths [(n.national, str% "9")], .s8,
     .leaf n.exampleNumber (str% "900123456"), .s8,
     .leaf n.nationalNumberPattern (str% "90\\d{7}"), .s6], .s6,
   .elem n.sharedCost []
    [.s8,
     .empty n.possibleLengths [(n.national, str% "9")], .s8,
     .leaf n.exampleNumber (str% "840123456"), .s8,
     .leaf n.nationalNumberPattern (str% "\n          8(?:\n            40|\n            6[01]\n          )\\d{6}\n        "), .s6], .s6,
   .elem n.voip []
    [.s8,
     .empty n.possibleLengths [(n.national, str% "9")], .s8,
     .leaf n.exampleNumber (str% "412345678"), .s8,
     .leaf n.nationalNumberPattern (str% "41\\d{7}"), .s6], .s4]

/-- what stands before this territory -/
noncomputable def UA_before : List Node :=
  [.l4, .comment, .s4, .comment, .s4, .comment, .s4, .comment, .s4]
/-- its attributes -/
noncomputable def UA_attrs : List (Str × Str) := [(n.id, str% "UA"), (n.countryCode, str% "380"), (n.preferredInternationalPrefix, str% "0~0"), (n.internationalPrefix, str% "00"), (n.nationalPrefix, str% "0")]
/-- its content -/
noncomputable def UA : List Node :=
  [.s6,
   .elem n.availableFormats []
    [.s8, .comment, .s8,
     .elem n.numberFormat [(n.pattern, str% "(\\d{3})(\\d{3})(\\d{3})"), (n.nationalPrefixFormattingRule, str% "$NP$FG")]
      [.s10,
       .leaf n.leadingDigits (str% "\n            6[12][29]|\n            (?:\n              3[1-8]|\n              4[136-8]|\n              5[12457]|\n              6[49]\n            )2|\n            (?:\n              56|\n              65\n            )[24]\n          "), .s10,
       .leaf n.leadingDigits (str% "\n            6[12][29]|\n            (?:\n              35|\n              4[1378]|\n              5[12457]|\n              6[49]\n            )2|\n            (?:\n              56|\n              65\n            )[24]|\n            (?:\n              3[1-46-8]|\n              46\n            )2[013-9]\n          "), .s10,
       .leaf n.format (str% "$1 $2 $3"), .s8], .s8, .comment, .s8,
     .elem n.numberFormat [(n.pattern, str% "(\\d{4})(\\d{5})"), (n.nationalPrefixFormattingRule, str% "$NP$FG")]
      [.s10,
       .leaf n.leadingDigits (str% "\n            3[1-8]|\n            4(?:\n              [1367]|\n              [45][6-9]|\n              8[4-6]\n            )|\n            5(?:\n              [1-5]|\n              6[0135689]|\n              7[4-6]\n            )|\n            6(?:\n              [12][3-7]|\n              [459]\n            )\n          "), .s10,
       .leaf n.leadingDigits (str% "\n            3[1-8]|\n            4(?:\n              [1367]|\n              [45][6-9]|\n              8[4-6]\n            )|\n            5(?:\n              [1-5]|\n              6(?:\n                [015689]|\n                3[02389]\n              )|\n              7[4-6]\n            )|\n            6(?:\n              [12][3-7]|\n              [459]\n            )\n          "), .s10,
       .leaf n.format (str% "$1 $2"), .s8], .s8, .comment, .s8,
     .elem n.numberFormat [(n.pattern, str% "(\\d{2})(\\d{3})(\\d{4})"), (n.nationalPrefixFormattingRule, str% "$NP$FG")]
      [.s10,
       .leaf n.leadingDigits (str% "\n            [3-7]|\n            89|\n            9[1-9]\n          "), .s10,
       .leaf n.format (str% "$1 $2 $3"), .s8], .s8, .comment, .s8,
     .elem n.numberFormat [(n.pattern, str% "(\\d{3})(\\d{3})(\\d{3,4})"), (n.nationalPrefixFormattingRule, str% "$NP$FG")]
      [.s10,
       .leaf n.leadingDigits (str% "[89]"), .s10,
       .leaf n.format (str% "$1 $2 $3"), .s8], .s6], .s6,
   .elem n.generalDesc []
    [.s8,
     .leaf n.nationalNumberPattern (str% "\n          [89]\\d{9}|\n          [3-9]\\d{8}\n        "), .s6], .s6, .comment, .s6,
   .elem n.fixedLine []
    [.s8,
     .empty n.possibleLengths [(n.national, str% "9"), (n.localOnly, str% "[5-7]")], .s8,
     .leaf n.exampleNumber (str% "311234567"), .s8,
     .leaf n.nationalNumberPattern (str% "\n          (?:\n            3[1-8]|\n            4[13-8]|\n            5[1-7]|\n            6[12459]\n          )\\d{7}\n        "), .s6], .s6, .comment, .s6,
   .elem n.mobile []
    [.s8,
     .empty n.possibleLengths [(n.national, str% "9")], .s8,
     .leaf n.exampleNumber (str% "501234567"), .s8,
     .leaf n.nationalNumberPattern (str% "\n          790\\d{6}|\n          (?:\n            39|\n            50|\n            6[36-8]|\n            7[1-357]|\n            9[1-9]\n          )\\d{7}\n        "), .s6], .s6,
   .elem n.tollFree []
    [.s8,
     .empty n.possibleLengths [(n.national, str% "9,10")], .s8,
     .leaf n.exampleNumber (str% "800123456"), .s8,
     .leaf n.nationalNumberPattern (str% "800[1-8]\\d{5,6}"), .s6], .s6, .comment, .s6,
   .elem n.premiumRate []
    [.s8,
     .empty n.possibleLengths [(n.national, str% "9,10")], .s8,
     .leaf n.exampleNumber (str% "900212345"), .s8,
     .leaf n.nationalNumberPattern (str% "900[239]\\d{5,6}"), .s6], .s6, .comment, .s6,
   .elem n.voip []
    [.s8,
     .empty n.possibleLengths [(n.national, str% "9")], .s8,
     .leaf n.exampleNumber (str% "891234567"), .s8,
     .leaf n.nationalNumberPattern (str% "89[1-579]\\d{6}"), .s6], .s4]

/-- what stands before this territory -/
noncomputable def UG_before : List Node :=
  [.l4, .comment, .s4, .comment, .s4]
/-- its attributes -/
noncomputable def UG_attrs : List (Str × Str) := [(n.id, str% "UG"), (n.countryCode, str% "256"), (n.internationalPrefix, str% "00[057]"), (n.nationalPrefix, str% "0")]
/-- its content -/
noncomputable def UG : List Node :=
  [.s6,
   .elem n.availableFormats []
    [.s8, .comment, .s8,
     .elem n.numberFormat [(n.pattern, str% "(\\d{4})(\\d{5})"), (n.nationalPrefixFormattingRule, str% "$NP$FG")]
      [.s10,
       .leaf n.leadingDigits (str% "202"), .s10,
       .leaf n.leadingDigits (str% "2024"), .s10,
       .leaf n.format (str% "$1 $2"), .s8], .s8, .comment, .s8,
     .elem n.numberFormat [(n.pattern, str% "(\\d{3})(\\d{6})"), (n.nationalPrefixFormattingRule, str% "$NP$FG")]
      [.s10,
       .leaf n.leadingDigits (str% "\n            [27-9]|\n            4(?:\n              6[45]|\n              [7-9]\n            )\n          "), .s10,
       .leaf n.format (str% "$1 $2"), .s8], .s8, .comment, .s8,
     .elem n.numberFormat [(n.pattern, str% "(\\d{2})(\\d{7})"), (n.nationalPrefixFormattingRule, str% "$NP$FG")]
      [.s10,
       .leaf n.leadingDigits (str% "[34]"), .s10,
       .leaf n.format (str% "$1 $2"), .s8], .s6], .s6,
   .elem n.generalDesc []
    [.s8,
     .leaf n.nationalNumberPattern (str% "\n          800\\d{6}|\n          (?:\n            [29]0|\n            [347]\\d\n          )\\d{7}\n        "), .s6], .s6, .comment, .s6, .comment, .s6,
   .elem n.fixedLine []
    [.s8,
     .empty n.possibleLengths [(n.national, str% "9"), (n.localOnly, str% "[5-7]")], .s8,
     .leaf n.exampleNumber (str% "312345678"), .s8,
     .leaf n.nationalNumberPattern (str% "\n          20(?:\n            (?:\n              240|\n              30[67]\n            )\\d|\n            6(?:\n              00[0-2]|\n              30[0-4]\n            )\n          )\\d{3}|\n          (?:\n            20(?:\n              [017]\\d|\n              2[5-9]|\n              3[1-4]|\n              5[0-4]|\n              6[15-9]\n            )|\n            [34]\\d{3}\n          )\\d{5}\n        "), .s6], .s6, .comment, .s6,
   .elem n.mobile []
    [.s8,
     .empty n.possibleLengths [(n.national, str% "9")], .s8,
     .leaf n.exampleNumber (str% "712345678"), .s8,
     .leaf n.nationalNumberPattern (str% "\n          7280\\d{5}|\n          7(?:\n            [014-8]\\d|\n            2[01467]|\n            3[016]|\n            9[0-589]\n          )\\d{6}\n        "), .s6], .s6,
   .elem n.tollFree []
    [.s8,
     .empty n.possibleLengths [(n.national, str% "9")], .s8,
     .leaf n.exampleNumber (str% "800123456"), .s8,
     .leaf n.nationalNumberPattern (str% "800[1-3]\\d{5}"), .s6], .s6,
   .elem n.premiumRate []
    [.s8,
     .empty n.possibleLengths [(n.national, str% "9")], .s8,
     .leaf n.exampleNumber (str% "901123456"), .s8,
     .leaf n.nationalNumberPattern (str% "90[1-3]\\d{6}"), .s6], .s4]

/-- what stands before this territory -/
noncomputable def US_before : List Node :=
  [.l4, .comment, .s4, .comment, .s4, .comment, .s4, .comment, .s4, .comment, .s4, .comment, .s4]
/-- its attributes -/
noncomputable def US_attrs : List (Str × Str) := [(n.id, str% "US"), (n.mainCountryForCode, str% "true"), (n.countryCode, str% "1"), (n.internationalPrefix, str% "011"), (n.nationalPrefix, str% "1"), (n.mobileNumberPortableRegion, str% "true")]
/-- its content -/
noncomputable def US : List Node :=
  [.s6,
   .elem n.availableFormats []
    [.s8, .comment, .s8,
     .elem n.numberFormat [(n.pattern, str% "(\\d{3})(\\d{4})"), (n.nationalPrefixOptionalWhenFormatting, str% "true")]
      [.s10,
       .leaf n.leadingDigits (str% "310"), .s10,
       .leaf n.format (str% "$1-$2"), .s8], .s8,
     .elem n.numberFormat [(n.pattern, str% "(\\d{3})(\\d{4})")]
      [.s10,
       .leaf n.leadingDigits (str% "\n            [24-9]|\n            3(?:\n              [02-9]|\n              1[1-9]\n            )\n          "), .s10,
       .leaf n.format (str% "$1-$2"), .s10,
       .leaf n.intlFormat (str% "NA"), .s8], .s8, .comment, .s8,
     .elem n.numberFormat [(n.pattern, str% "(\\d{3})(\\d{3})(\\d{4})"), (n.nationalPrefixOptionalWhenFormatting, str% "true")]
      [.s10,
       .leaf n.leadingDigits (str% "[2-9]"), .s10,
       .leaf n.format (str% "($1) $2-$3"), .s10,
       .leaf n.intlFormat (str% "$1-$2-$3"), .s8], .s6], .s6,
   .elem n.generalDesc []
    [.s8,
     .leaf n.nationalNumberPattern (str% "\n          [2-9]\\d{9}|\n          3\\d{6}\n        "), .s6], .s6,
   .elem n.fixedLine []
    [.s8,
     .empty n.possibleLengths [(n.national, str% "10"), (n.localOnly, str% "7")], .s8,
     .leaf n.exampleNumber (str% "2015550123"), .s8,
     .leaf n.nationalNumberPattern (str% "\n          (?:\n            274[27]|\n            (?:\n              472|\n              983\n            )[2-47-9]\n          )\\d{6}|\n          (?:\n            2(?:\n              0[1-35-9]|\n              1[02-9]|\n              2[03-57-9]|\n              3[1459]|\n              4[08]|\n              5[1-46]|\n              6[0279]|\n              7[0269]|\n              8[13]\n            )|\n            3(?:\n              0[1-57-9]|\n              1[02-9]|\n              2[013-79]|\n              3[0-24679]|\n              4[167]|\n              5[0-3]|\n              6[01349]|\n              8[056]\n            )|\n            4(?:\n              0[124-9]|\n              1[02-579]|\n              2[3-5]|\n              3[0245]|\n              4[023578]|\n              58|\n              6[349]|\n              7[0589]|\n              8[04]\n            )|\n            5(?:\n              0[1-57-9]|\n              1[0235-8]|\n              20|\n              3[0149]|\n              4[01]|\n              5[179]|\n              6[1-47]|\n              7[0-5]|\n              8[0256]\n            )|\n            6(?:\n              0[1-35-9]|\n              1[024-9]|\n              2[03689]|\n              3[016]|\n              4[0156]|\n              5[01679]|\n              6[0-279]|\n              78|\n              8[0-269]\n            )|\n            7(?:\n              0[1-46-8]|\n              1[2-9]|\n              2[04-8]|\n              3[0-2478]|\n              4[0378]|\n              5[47]|\n              6[02359]|\n              7[0-59]|\n              8[156]\n            )|\n            8(?:\n              0[1-68]|\n              1[02-8]|\n              2[0168]|\n              3[0-2589]|\n              4[03578]|\n              5[046-9]|\n              6[02-5]|\n              7[028]\n            )|\n            9(?:\n              0[1346-9]|\n              1[02-9]|\n              2[0589]|\n              3[0146-8]|\n              4[01357-9]|\n              5[12469]|\n              7[0-3589]|\n              8[04-69]\n            )\n          )[2-9]\\d{6}\n        "), .s6], .s6,
   .elem n.mobile []
    [.s8,
     .empty n.possibleLengths [(n.national, str% "10"), (n.localOnly, str% "7")], .s8,
     .leaf n.exampleNumber (str% "2015550123"), .s8,
     .leaf n.nationalNumberPattern (str% "\n          (?:\n            274[27]|\n            (?:\n              472|\n              983\n            )[2-47-9]\n          )\\d{6}|\n          (?:\n            2(?:\n              0[1-35-9]|\n              1[02-9]|\n              2[03-57-9]|\n              3[1459]|\n              4[08]|\n              5[1-46]|\n              6[0279]|\n              7[0269]|\n              8[13]\n            )|\n            3(?:\n              0[1-57-9]|\n              1[02-9]|\n              2[013-79]|\n              3[0-24679]|\n              4[167]|\n              5[0-3]|\n              6[01349]|\n              8[056]\n            )|\n            4(?:\n              0[124-9]|\n              1[02-579]|\n              2[3-5]|\n              3[0245]|\n              4[023578]|\n              58|\n              6[349]|\n              7[0589]|\n              8[04]\n            )|\n            5(?:\n              0[1-57-9]|\n              1[0235-8]|\n              20|\n              3[0149]|\n              4[01]|\n              5[179]|\n              6[1-47]|\n              7[0-5]|\n              8[0256]\n            )|\n            6(?:\n              0[1-35-9]|\n              1[024-9]|\n              2[03689]|\n              3[016]|\n              4[0156]|\n              5[01679]|\n              6[0-279]|\n              78|\n              8[0-269]\n            )|\n            7(?:\n              0[1-46-8]|\n              1[2-9]|\n              2[04-8]|\n              3[0-2478]|\n              4[0378]|\n              5[47]|\n              6[02359]|\n              7[0-59]|\n              8[156]\n            )|\n            8(?:\n              0[1-68]|\n              1[02-8]|\n              2[0168]|\n              3[0-2589]|\n              4[03578]|\n              5[046-9]|\n              6[02-5]|\n              7[028]\n            )|\n            9(?:\n              0[1346-9]|\n              1[02-9]|\n              2[0589]|\n              3[0146-8]|\n              4[01357-9]|\n              5[12469]|\n              7[0-3589]|\n              8[04-69]\n            )\n          )[2-9]\\d{6}\n        "), .s6], .s6,
   .elem n.tollFree []
    [.s8,
     .empty n.possibleLengths [(n.national, str% "10")], .s8,
     .leaf n.exampleNumber (str% "8002345678"), .s8,
     .leaf n.nationalNumberPattern (str% "\n          8(?:\n            00|\n            33|\n            44|\n            55|\n            66|\n            77|\n            88\n          )[2-9]\\d{6}\n        "), .s6], .s6,
   .elem n.premiumRate []
    [.s8,
     .empty n.possibleLengths [(n.national, str% "10")], .s8,
     .leaf n.exampleNumber (str% "9002345678"), .s8,
     .leaf n.nationalNumberPattern (str% "900[2-9]\\d{6}"), .s6], .s6, .comment, .s6,
   .elem n.personalNumber []
    [.s8,
     .empty n.possibleLengths [(n.national, str% "10")], .s8,
     .leaf n.exampleNumber (str% "5002345678"), .s8,
     .leaf n.nationalNumberPattern (str% "\n          52(?:\n            3(?:\n              [2-46-9][02-9]\\d|\n              5(?:\n                [02-46-9]\\d|\n                5[0-46-9]\n              )\n            )|\n            4(?:\n              [2-478][02-9]\\d|\n              5(?:\n                [034]\\d|\n                2[024-9]|\n                5[0-46-9]\n              )|\n              6(?:\n                0[1-9]|\n                [2-9]\\d\n              )|\n              9(?:\n                [05-9]\\d|\n                2[0-5]|\n                49\n              )\n            )\n          )\\d{4}|\n          52[34][2-9]1[02-9]\\d{4}|\n          5(?:\n            00|\n            2[125-9]|\n            3[23]|\n            44|\n            66|\n            77|\n            88\n          )[2-9]\\d{6}\n        "), .s6], .s4]

/-- what stands before this territory -/
noncomputable def UY_before : List Node :=
  [.l4, .comment, .s4, .comment, .s4, .comment, .s4, .comment, .s4, .comment, .s4]
/-- its attributes -/
noncomputable def UY_attrs : List (Str × Str) := [(n.id, str% "UY"), (n.countryCode, str% "598"), (n.preferredInternationalPrefix, str% "00"), (n.internationalPrefix, str% "0(?:0|1[3-9]\\d)"), (n.nationalPrefix, str% "0"), (n.preferredExtnPrefix, str% " int. ")]
/-- its content -/
noncomputable def UY : List Node :=
  [.s6,
   .elem n.availableFormats []
    [.s8,
     .elem n.numberFormat [(n.pattern, str% "(\\d{4,5})")]
      [.s10,
       .leaf n.leadingDigits (str% "21"), .s10,
       .leaf n.format (str% "$1"), .s8], .s8, .comment, .s8,
     .elem n.numberFormat [(n.pattern, str% "(\\d{3})(\\d{3,4})")]
      [.s10,
       .leaf n.leadingDigits (str% "0"), .s10,
       .leaf n.format (str% "$1 $2"), .s8], .s8,
     .elem n.numberFormat [(n.pattern, str% "(\\d{3})(\\d{4})"), (n.nationalPrefixFormattingRule, str% "$NP$FG")]
      [.s10,
       .leaf n.leadingDigits (str% "\n            [49]0|\n            8\n          "), .s10,
       .leaf n.format (str% "$1 $2"), .s8], .s8, .comment, .s8,
     .elem n.numberFormat [(n.pattern, str% "(\\d{2})(\\d{3})(\\d{3})"), (n.nationalPrefixFormattingRule, str% "$NP$FG")]
      [.s10,
       .leaf n.leadingDigits (str% "9"), .s10,
       .leaf n.format (str% "$1 $2 $3"), .s8], .s8, .comment, .s8,
     .elem n.numberFormat [(n.pattern, str% "(\\d{4})(\\d{4})")]
      [.s10,
       .leaf n.leadingDigits (str% "[124]"), .s10,
       .leaf n.format (str% "$1 $2"), .s8], .s8, .comment, .s8,
     .elem n.numberFormat [(n.pattern, str% "(\\d{3})(\\d{3})(\\d{2,4})")]
      [.s10,
       .leaf n.leadingDigits (str% "0"), .s10,
       .leaf n.format (str% "$1 $2 $3"), .s8], .s8, .comment, .s8,
     .elem n.numberFormat [(n.pattern, str% "(\\d{3})(\\d{3})(\\d{3})(\\d{2,4})")]
      [.s10,
       .leaf n.leadingDigits (str% "0"), .s10,
       .leaf n.format (str% "$1 $2 $3 $4"), .s8], .s6], .s6,
   .elem n.generalDesc []
    [.s8,
     .leaf n.nationalNumberPattern (str% "\n          0004\\d{2,9}|\n          [1249]\\d{7}|\n          2\\d{3,4}|\n          (?:\n            [49]\\d|\n            80\n          )\\d{5}\n        "), .s6], .s6, .comment, .s6,
   .elem n.fixedLine []
    [.s8,
     .empty n.possibleLengths [(n.national, str% "8"), (n.localOnly, str% "7")], .s8,
     .leaf n.exampleNumber (str% "21231234"), .s8,
     .leaf n.nationalNumberPattern (str% "\n          (?:\n            1(?:\n              770|\n              9(?:\n                20|\n                [89]7\n              )\n            )|\n            (?:\n              2\\d|\n              4[2-7]\n            )\\d\\d\n          )\\d{4}\n        "), .s6], .s6,
   .elem n.mobile []
    [.s8,
     .empty n.possibleLengths [(n.national, str% "8")], .s8,
     .leaf n.exampleNumber (str% "94231234"), .s8,
     .leaf n.nationalNumberPattern (str% "9[1-9]\\d{6}"), .s6], .s6,
   .elem n.tollFree []
    [.s8,
     .empty n.possibleLengths [(n.national, str% "[6-13]")], .s8,
     .leaf n.exampleNumber (str% "8001234"), .s8,
     .leaf n.nationalNumberPattern (str% "\n          0004\\d{2,9}|\n          (?:\n            405|\n            80[05]\n          )\\d{4}\n        "), .s6], .s6,
   .elem n.premiumRate []
    [.s8,
     .empty n.possibleLengths [(n.national, str% "7")], .s8,
     .leaf n.exampleNumber (str% "9001234"), .s8,
     .leaf n.nationalNumberPattern (str% "90[0-8]\\d{4}"), .s6], .s6,
   .elem n.uan []
    [.s8,
     .empty n.possibleLengths [(n.national, str% "4,5")], .s8,
     .leaf n.exampleNumber (str% "21123"), .s8,
     .leaf n.nationalNumberPattern (str% "21\\d{2,3}"), .s6], .s4]

/-- what stands before this territory -/
noncomputable def UZ_before : List Node :=
  [.l4, .comment, .s4, .comment, .s4, .comment, .s4, .comment, .s4, .comment, .s4, .comment, .s4]
/-- its attributes -/
noncomputable def UZ_attrs : List (Str × Str) := [(n.id, str% "UZ"), (n.countryCode, str% "998"), (n.internationalPrefix, str% "00")]
/-- its content -/
noncomputable def UZ : List Node :=
  [.s6,
   .elem n.availableFormats []
    [.s8,
     .elem n.numberFormat [(n.pattern, str% "(\\d{2})(\\d{3})(\\d{2})(\\d{2})")]
      [.s10,
       .leaf n.leadingDigits (str% "[235-9]"), .s10,
       .leaf n.format (str% "$1 $2 $3 $4"), .s8], .s6], .s6,
   .elem n.generalDesc []
    [.s8,
     .leaf n.nationalNumberPattern (str% "\n          (?:\n            20|\n            33|\n            [5-9]\\d\n          )\\d{7}\n        "), .s6], .s6, .comment, .s6,
   .elem n.fixedLine []
    [.s8,
     .empty n.possibleLengths [(n.national, str% "9")], .s8,
     .leaf n.exampleNumber (str% "669050123"), .s8,
     .leaf n.nationalNumberPattern (str% "\n          (?:\n            55\\d\\d|\n            6(?:\n              1(?:\n                22|\n                3[124]|\n                4[1-4]|\n                5[1-3578]|\n                64\n              )|\n              2(?:\n                22|\n                3[0-57-9]|\n                41\n              )|\n              5(?:\n                22|\n                3[3-7]|\n                5[024-8]\n              )|\n              [69]\\d\\d|\n              7(?:\n                [23]\\d|\n                7[69]\n              )\n            )|\n            7(?:\n              0(?:\n                5[4-9]|\n                6[0146]|\n                7[124-6]|\n                9[135-8]\n              )|\n              [168]\\d\\d|\n              2(?:\n                22|\n                3[13-57-9]|\n                4[1-3579]|\n                5[14]\n              )|\n              3(?:\n                2\\d|\n                3[1578]|\n                4[1-35-7]|\n                5[1-57]|\n                61\n              )|\n              4(?:\n                2\\d|\n                3[1-579]|\n                7[1-79]\n              )|\n              5(?:\n                22|\n                5[1-9]|\n                6[1457]\n              )|\n              9(?:\n                22|\n                5[1-9]\n              )\n            )\n          )\\d{5}\n        "), .s6], .s6, .comment, .s6,
   .elem n.mobile []
    [.s8,
     .empty n.possibleLengths [(n.national, str% "9")], .s8,
     .leaf n.exampleNumber (str% "912345678"), .s8,
     .leaf n.nationalNumberPattern (str% "\n          (?:\n            (?:\n              [25]0|\n              33|\n              8[078]|\n              9[0-57-9]\n            )\\d{3}|\n            6(?:\n              1(?:\n                2(?:\n                  2[01]|\n                  98\n                )|\n                35[0-4]|\n                50\\d|\n                61[23]|\n                7(?:\n                  [01][017]|\n                  4\\d|\n                  55|\n                  9[5-9]\n                )\n              )|\n              2(?:\n                (?:\n                  11|\n                  7\\d\n                )\\d|\n                2(?:\n                  [12]1|\n                  9[01379]\n                )|\n                5(?:\n                  [126]\\d|\n                  3[0-4]\n                )\n              )|\n              5(?:\n                19[01]|\n                2(?:\n                  27|\n                  9[26]\n                )|\n                (?:\n                  30|\n                  59|\n                  7\\d\n                )\\d\n              )|\n              6(?:\n                2(?:\n                  1[5-9]|\n                  2[0367]|\n                  38|\n                  41|\n                  52|\n                  60\n                )|\n                (?:\n                  3[79]|\n                  9[0-3]\n                )\\d|\n                4(?:\n                  56|\n                  83\n                )|\n                7(?:\n                  [07]\\d|\n                  1[017]|\n                  3[07]|\n                  4[047]|\n                  5[057]|\n                  67|\n                  8[0178]|\n                  9[79]\n                )\n              )|\n              7(?:\n                2(?:\n                  24|\n                  3[237]|\n                  4[5-9]|\n                  7[15-8]\n                )|\n                5(?:\n                  7[12]|\n                  8[0589]\n                )|\n                7(?:\n                  0\\d|\n                  [39][07]\n                )|\n                9(?:\n                  0\\d|\n                  7[079]\n                )\n              )\n            )|\n            7(?:\n              [07]\\d{3}|\n              2(?:\n                2(?:\n                  2[79]|\n                  95\n                )|\n                3(?:\n                  2[5-9]|\n                  6[0-6]\n                )|\n                57\\d|\n                7(?:\n                  0\\d|\n                  1[17]|\n                  2[27]|\n                  3[37]|\n                  44|\n                  5[057]|\n                  66|\n                  88\n                )\n              )|\n              3(?:\n                2(?:\n                  1[0-6]|\n                  21|\n                  3[469]|\n                  7[159]\n                )|\n                (?:\n                  33|\n                  9[4-6]\n                )\\d|\n                5(?:\n                  0[0-4]|\n                  5[579]|\n                  9\\d\n                )|\n                7(?:\n                  [0-3579]\\d|\n                  4[0467]|\n                  6[67]|\n                  8[078]\n                )\n              )|\n              4(?:\n                2(?:\n                  29|\n                  5[0257]|\n                  6[0-7]|\n                  7[1-57]\n                )|\n                5(?:\n                  1[0-4]|\n                  8\\d|\n                  9[5-9]\n                )|\n                7(?:\n                  0\\d|\n                  1[024589]|\n                  2[0-27]|\n                  3[0137]|\n                  [46][07]|\n                  5[01]|\n                  7[5-9]|\n                  9[079]\n                )|\n                9(?:\n                  7[015-9]|\n                  [89]\\d\n                )\n              )|\n              5(?:\n                112|\n                2(?:\n                  0\\d|\n                  2[29]|\n                  [49]4\n                )|\n                3[1568]\\d|\n                52[6-9]|\n                7(?:\n                  0[01578]|\n                  1[017]|\n                  [23]7|\n                  4[047]|\n                  [5-7]\\d|\n                  8[78]|\n                  9[079]\n                )\n              )|\n              9(?:\n                22[128]|\n                3(?:\n                  2[0-4]|\n                  7\\d\n                )|\n                57[02569]|\n                7(?:\n                  2[05-9]|\n                  3[37]|\n                  4\\d|\n                  60|\n                  7[2579]|\n                  87|\n                  9[07]\n                )\n              )\n            )\n          )\\d{4}\n        "), .s6], .s4]

/-- what stands before this territory -/
noncomputable def VA_before : List Node :=
  [.l4, .comment, .s4, .comment, .s4, .comment, .s4, .comment, .s4]
/-- its attributes -/
noncomputable def VA_attrs : List (Str × Str) := [(n.id, str% "VA"), (n.countryCode, str% "39"), (n.leadingDigits, str% "06698"), (n.internationalPrefix, str% "00"), (n.mobileNumberPortableRegion, str% "true")]
/-- its content -/
noncomputable def VA : List Node :=
  [.s6,
   .elem n.generalDesc []
    [.s8,
     .leaf n.nationalNumberPattern (str% "\n          0\\d{5,10}|\n          3[0-8]\\d{7,10}|\n          55\\d{8}|\n          8\\d{5}(?:\n            \\d{2,4}\n          )?|\n          (?:\n            1\\d|\n            39\n          )\\d{7,8}\n        "), .s6], .s6, .comment, .s6,
   .elem n.fixedLine []
    [.s8,
     .empty n.possibleLengths [(n.national, str% "[6-11]")], .s8,
     .leaf n.exampleNumber (str% "0669812345"), .s8,
     .leaf n.nationalNumberPattern (str% "06698\\d{1,6}"), .s6], .s6, .comment, .s6, .comment, .s6,
   .elem n.mobile []
    [.s8,
     .empty n.possibleLengths [(n.national, str% "9,10")], .s8,
     .leaf n.exampleNumber (str% "3123456789"), .s8,
     .leaf n.nationalNumberPattern (str% "\n          3[1-9]\\d{8}|\n          3[2-9]\\d{7}\n        "), .s6], .s6,
   .elem n.tollFree []
    [.s8,
     .empty n.possibleLengths [(n.national, str% "6,9")], .s8,
     .leaf n.exampleNumber (str% "800123456"), .s8,
     .leaf n.nationalNumberPattern (str% "\n          80(?:\n            0\\d{3}|\n            3\n          )\\d{3}\n        "), .s6], .s6, .comment, .s6,
   .elem n.premiumRate []
    [.s8,
     .empty n.possibleLengths [(n.national, str% "6,[8-10]")], .s8,
     .leaf n.exampleNumber (str% "899123456"), .s8,
     .leaf n.nationalNumberPattern (str% "\n          (?:\n            0878\\d{3}|\n            89(?:\n              2\\d|\n              3[04]|\n              4(?:\n                [0-4]|\n                [5-9]\\d\\d\n              )|\n              5[0-4]\n            )\n          )\\d\\d|\n          (?:\n            1(?:\n              44|\n              6[346]\n            )|\n            89(?:\n              38|\n              5[5-9]|\n              9\n            )\n          )\\d{6}\n        "), .s6], .s6,
   .elem n.sharedCost []
    [.s8,
     .empty n.possibleLengths [(n.national, str% "6,9")], .s8,
     .leaf n.exampleNumber (str% "848123456"), .s8,
     .leaf n.nationalNumberPattern (str% "\n          84(?:\n            [08]\\d{3}|\n            [17]\n          )\\d{3}\n        "), .s6], .s6,
   .elem n.personalNumber []
    [.s8,
     .empty n.possibleLengths [(n.national, str% "9,10")], .s8,
     .leaf n.exampleNumber (str% "1781234567"), .s8,
     .leaf n.nationalNumberPattern (str% "\n          1(?:\n            78\\d|\n            99\n          )\\d{6}\n        "), .s6], .s6,
   .elem n.voip []
    [.s8,
     .empty n.possibleLengths [(n.national, str% "10")], .s8,
     .leaf n.exampleNumber (str% "5512345678"), .s8,
     .leaf n.nationalNumberPattern (str% "55\\d{8}"), .s6], .s6,
   .elem n.voicemail []
    [.s8,
     .empty n.possibleLengths [(n.national, str% "11,12")], .s8,
     .leaf n.exampleNumber (str% "33101234501"), .s8,
     .leaf n.nationalNumberPattern (str% "3[2-8]\\d{9,10}"), .s6], .s4]

/-- what stands before this territory -/
noncomputable def VC_before : List Node :=
  [.l4, .comment, .s4, .comment, .s4, .comment, .s4]
/-- its attributes -/
noncomputable def VC_attrs : List (Str × Str) := [(n.id, str% "VC"), (n.countryCode, str% "1"), (n.leadingDigits, str% "784"), (n.internationalPrefix, str% "011"), (n.nationalPrefix, str% "1"), (n.nationalPrefixForParsing, str% "([2-7]\\d{6})$|1"), (n.nationalPrefixTransformRule, str% "784$1"), (n.mobileNumberPortableRegion, str% "true")]
/-- its content -/
noncomputable def VC : List Node :=
  [.s6,
   .elem n.generalDesc []
    [.s8,
     .leaf n.nationalNumberPattern (str% "\n          (?:\n            [58]\\d\\d|\n            784|\n            900\n          )\\d{7}\n        "), .s6], .s6, .comment, .s6,
   .elem n.fixedLine []
    [.s8,
     .empty n.possibleLengths [(n.national, str% "10"), (n.localOnly, str% "7")], .s8,
     .leaf n.exampleNumber (str% "7842661234"), .s8,
     .leaf n.nationalNumberPattern (str% "\n          784(?:\n            266|\n            3(?:\n              6[6-9]|\n              7\\d|\n              8[0-6]\n            )|\n            4(?:\n              38|\n              5[0-36-8]|\n              8[0-8]\n            )|\n            5(?:\n              55|\n              7[0-2]|\n              93\n            )|\n            638|\n            784\n          )\\d{4}\n        "), .s6], .s6, .comment, .s6,
   .elem n.mobile []
    [.s8,
     .empty n.possibleLengths [(n.national, str% "10"), (n.localOnly, str% "7")], .s8,
     .leaf n.exampleNumber (str% "7844301234"), .s8,
     .leaf n.nationalNumberPattern (str% "\n          784(?:\n            4(?:\n              3[0-5]|\n              5[45]|\n              89|\n              9[0-8]\n            )|\n            5(?:\n              2[6-9]|\n              3[0-4]\n            )|\n            720\n          )\\d{4}\n        "), .s6], .s6,
   .elem n.tollFree []
    [.s8,
     .empty n.possibleLengths [(n.national, str% "10")], .s8,
     .leaf n.exampleNumber (str% "8002345678"), .s8,
     .leaf n.nationalNumberPattern (str% "\n          8(?:\n            00|\n            33|\n            44|\n            55|\n            66|\n            77|\n            88\n          )[2-9]\\d{6}\n        "), .s6], .s6,
   .elem n.premiumRate []
    [.s8,
     .empty n.possibleLengths [(n.national, str% "10")], .s8,
     .leaf n.exampleNumber (str% "9002345678"), .s8,
     .leaf n.nationalNumberPattern (str% "900[2-9]\\d{6}"), .s6], .s6, .comment, .s6,
   .elem n.personalNumber []
    [.s8,
     .empty n.possibleLengths [(n.national, str% "10")], .s8,
     .leaf n.exampleNumber (str% "5002345678"), .s8,
     .leaf n.nationalNumberPattern (str% "\n          52(?:\n            3(?:\n              [2-46-9][02-9]\\d|\n              5(?:\n                [02-46-9]\\d|\n                5[0-46-9]\n              )\n            )|\n            4(?:\n              [2-478][02-9]\\d|\n              5(?:\n                [034]\\d|\n                2[024-9]|\n                5[0-46-9]\n              )|\n              6(?:\n                0[1-9]|\n                [2-9]\\d\n              )|\n              9(?:\n                [05-9]\\d|\n                2[0-5]|\n                49\n              )\n            )\n          )\\d{4}|\n          52[34][2-9]1[02-9]\\d{4}|\n          5(?:\n            00|\n            2[125-9]|\n            3[23]|\n            44|\n            66|\n            77|\n            88\n          )[2-9]\\d{6}\n        "), .s6], .s6,
   .elem n.voip []
    [.s8,
     .empty n.possibleLengths [(n.national, str% "10"), (n.localOnly, str% "7")], .s8,
     .leaf n.exampleNumber (str% "7845101234"), .s8,
     .leaf n.nationalNumberPattern (str% "78451[0-2]\\d{4}"), .s6], .s4]

/-- what stands before this territory -/
noncomputable def VE_before : List Node :=
  [.l4, .comment, .s4, .comment, .s4, .comment, .s4, .comment, .s4]
/-- its attributes -/
noncomputable def VE_attrs : List (Str × Str) := [(n.id, str% "VE"), (n.countryCode, str% "58"), (n.internationalPrefix, str% "00"), (n.nationalPrefix, str% "0")]
/-- its content -/
noncomputable def VE : List Node :=
  [.s6,
   .elem n.availableFormats []
    [.s8,
     .elem n.numberFormat [(n.pattern, str% "(\\d{3})(\\d{7})"), (n.nationalPrefixFormattingRule, str% "$NP$FG"), (n.carrierCodeFormattingRule, str% "$CC $FG")]
      [.s10,
       .leaf n.leadingDigits (str% "[24-689]"), .s10,
       .leaf n.format (str% "$1-$2"), .s8], .s6], .s6,
   .elem n.generalDesc []
    [.s8,
     .leaf n.nationalNumberPattern (str% "\n          [68]00\\d{7}|\n          (?:\n            [24]\\d|\n            [59]0\n          )\\d{8}\n        "), .s6], .s6, .comment, .s6,
   .elem n.fixedLine []
    [.s8,
     .empty n.possibleLengths [(n.national, str% "10"), (n.localOnly, str% "7")], .s8,
     .leaf n.exampleNumber (str% "2121234567"), .s8,
     .leaf n.nationalNumberPattern (str% "\n          (?:\n            2(?:\n              12|\n              3[457-9]|\n              [467]\\d|\n              [58][1-9]|\n              9[1-6]\n            )|\n            [4-6]00\n          )\\d{7}\n        "), .s6], .s6,
   .elem n.mobile []
    [.s8,
     .empty n.possibleLengths [(n.national, str% "10")], .s8,
     .leaf n.exampleNumber (str% "4121234567"), .s8,
     .leaf n.nationalNumberPattern (str% "\n          4(?:\n            1[24-8]|\n            2[246]\n          )\\d{7}\n        "), .s6], .s6,
   .elem n.tollFree []
    [.s8,
     .empty n.possibleLengths [(n.national, str% "10")], .s8,
     .leaf n.exampleNumber (str% "8001234567"), .s8,
     .leaf n.nationalNumberPattern (str% "800\\d{7}"), .s6], .s6,
   .elem n.premiumRate []
    [.s8,
     .empty n.possibleLengths [(n.national, str% "10")], .s8,
     .leaf n.exampleNumber (str% "9001234567"), .s8,
     .leaf n.nationalNumberPattern (str% "90[01]\\d{7}"), .s6], .s6,
   .elem n.uan []
    [.s8,
     .empty n.possibleLengths [(n.national, str% "10"), (n.localOnly, str% "7")], .s8,
     .leaf n.exampleNumber (str% "5010123456"), .s8,
     .leaf n.nationalNumberPattern (str% "501\\d{7}"), .s6], .s4]

/-- the nodes of this module -/
noncomputable def chunk14 : List (List Node × List (Str × Str) × List Node) :=
  [(TM_before, TM_attrs, TM), (TN_before, TN_attrs, TN), (TO_before, TO_attrs, TO), (TR_before, TR_attrs, TR),
   (TT_before, TT_attrs, TT), (TV_before, TV_attrs, TV), (TW_before, TW_attrs, TW), (TZ_before, TZ_attrs, TZ),
   (UA_before, UA_attrs, UA), (UG_before, UG_attrs, UG), (US_before, US_attrs, US), (UY_before, UY_attrs, UY),
   (UZ_before, UZ_attrs, UZ), (VA_before, VA_attrs, VA), (VC_before, VC_attrs, VC), (VE_before, VE_attrs, VE)]

end Phone.Data.X
