import Verif.Data.XNames
/-! Territories of `/repo/assets/PhoneNumberMetadata.xml` as trees. Generated by `tools/gen_xml.py`; do not edit. -/

set_option maxRecDepth 100000
namespace Phone.Data.X
open Phone.Xml

/-- what stands before this territory -/
noncomputable def VG_before : List Node :=
  [.l4, .comment, .s4, .comment, .s4, .comment, .s4]
/-- its attributes -/
noncomputable def VG_attrs : List (Str × Str) := [(n.id, str% "VG"), (n.countryCode, str% "1"), (n.leadingDigits, str% "284"), (n.internationalPrefix, str% "011"), (n.nationalPrefix, str% "1"), (n.nationalPrefixForParsing, str% "([2-578]\\d{6})$|1"), (n.nationalPrefixTransformRule, str% "284$1"), (n.mobileNumberPortableRegion, str% "true")]
/-- its content -/
noncomputable def VG : List Node :=
  [.s6,
   .elem n.generalDesc []
    [.s8,
     .leaf n.nationalNumberPattern (str% "\n          (?:\n            284|\n            [58]\\d\\d|\n            900\n          )\\d{7}\n        "), .s6], .s6, .comment, .s6,
   .elem n.fixedLine []
    [.s8,
     .empty n.possibleLengths [(n.national, str% "10"), (n.localOnly, str% "7")], .s8,
     .leaf n.exampleNumber (str% "2842291234"), .s8,
     .leaf n.nationalNumberPattern (str% "\n          284(?:\n            229|\n            4(?:\n              22|\n              9[45]\n            )|\n            774|\n            8(?:\n              52|\n              6[459]\n            )\n          )\\d{4}\n        "), .s6], .s6, .comment, .s6,
   .elem n.mobile []
    [.s8,
     .empty n.possibleLengths [(n.national, str% "10"), (n.localOnly, str% "7")], .s8,
     .leaf n.exampleNumber (str% "2843001234"), .s8,
     .leaf n.nationalNumberPattern (str% "\n          284(?:\n            245|\n            3(?:\n              0[0-3]|\n              4[0-7]|\n              68|\n              9[34]\n            )|\n            4(?:\n              4[0-6]|\n              68|\n              9[69]\n            )|\n            5(?:\n              4[0-7]|\n              68|\n              9[69]\n            )\n          )\\d{4}\n        "), .s6], .s6,
   .elem n.tollFree []
    [.s8,
     .empty n.possibleLengths [(n.national, str% "10")], .s8,
     .leaf n.exampleNumber (str% "8002345678"), .s8,
     .leaf n.nationalNumberPattern (str% "\n          8(?:\n            00|\n            33|\n            44|\n            55|\n            66|\n            77|\n            88\n          )[2-9]\\d{6}\n        "), .s6], .s6,
   .elem n.premiumRate []
    [.s8,
     .empty n.possibleLengths [(n.national, str% "10")], .s8,
     .leaf n.exampleNumber (str% "9002345678"), .s8,
     .leaf n.nationalNumberPattern (str% "900[2-9]\\d{6}"), .s6], .s6, .comment, .s6,
   .elem n.personalNumber []
    [.s8,
     .empty n.possibleLengths [(n.national, str% "10")], .s8,
     .leaf n.exampleNumber (str% "5002345678"), .s8,
     .leaf n.nationalNumberPattern (str% "\n          52(?:\n            3(?:\n              [2-46-9][02-9]\\d|\n              5(?:\n                [02-46-9]\\d|\n                5[0-46-9]\n              )\n            )|\n            4(?:\n              [2-478][02-9]\\d|\n              5(?:\n                [034]\\d|\n                2[024-9]|\n                5[0-46-9]\n              )|\n              6(?:\n                0[1-9]|\n                [2-9]\\d\n              )|\n              9(?:\n                [05-9]\\d|\n                2[0-5]|\n                49\n              )\n            )\n          )\\d{4}|\n          52[34][2-9]1[02-9]\\d{4}|\n          5(?:\n            00|\n            2[125-9]|\n            3[23]|\n            44|\n            66|\n            77|\n            88\n          )[2-9]\\d{6}\n        "), .s6], .s4]

/-- what stands before this territory -/
noncomputable def VI_before : List Node :=
  [.l4, .comment, .s4, .comment, .s4, .comment, .s4]
/-- its attributes -/
noncomputable def VI_attrs : List (Str × Str) := [(n.id, str% "VI"), (n.countryCode, str% "1"), (n.leadingDigits, str% "340"), (n.internationalPrefix, str% "011"), (n.nationalPrefix, str% "1"), (n.nationalPrefixForParsing, str% "([2-9]\\d{6})$|1"), (n.nationalPrefixTransformRule, str% "340$1")]
/-- its content -/
noncomputable def VI : List Node :=
  [.s6,
   .elem n.generalDesc []
    [.s8,
     .leaf n.nationalNumberPattern (str% "\n          [58]\\d{9}|\n          (?:\n            34|\n            90\n          )0\\d{7}\n        "), .s6], .s6, .comment, .s6,
   .elem n.fixedLine []
    [.s8,
     .empty n.possibleLengths [(n.national, str% "10"), (n.localOnly, str% "7")], .s8,
     .leaf n.exampleNumber (str% "3406421234"), .s8,
     .leaf n.nationalNumberPattern (str% "\n          340(?:\n            2(?:\n              0\\d|\n              10|\n              2[06-8]|\n              4[49]|\n              77\n            )|\n            3(?:\n              32|\n              44\n            )|\n            4(?:\n              2[23]|\n              44|\n              7[34]|\n              89\n            )|\n            5(?:\n              1[34]|\n              55\n            )|\n            6(?:\n              2[56]|\n              4[23]|\n              77|\n              9[023]\n            )|\n            7(?:\n              1[2-57-9]|\n              2[57]|\n              7\\d\n            )|\n            884|\n            998\n          )\\d{4}\n        "), .s6], .s6,
   .elem n.mobile []
    [.s8,
     .empty n.possibleLengths [(n.national, str% "10"), (n.localOnly, str% "7")], .s8,
     .leaf n.exampleNumber (str% "3406421234"), .s8,
     .leaf n.nationalNumberPattern (str% "\n          340(?:\n            2(?:\n              0\\d|\n              10|\n              2[06-8]|\n              4[49]|\n              77\n            )|\n            3(?:\n              32|\n              44\n            )|\n            4(?:\n              2[23]|\n              44|\n              7[34]|\n              89\n            )|\n            5(?:\n              1[34]|\n              55\n            )|\n            6(?:\n              2[56]|\n              4[23]|\n              77|\n              9[023]\n            )|\n            7(?:\n              1[2-57-9]|\n              2[57]|\n              7\\d\n            )|\n            884|\n            998\n          )\\d{4}\n        "), .s6], .s6,
   .elem n.tollFree []
    [.s8,
     .empty n.possibleLengths [(n.national, str% "10")], .s8,
     .leaf n.exampleNumber (str% "8002345678"), .s8,
     .leaf n.nationalNumberPattern (str% "\n          8(?:\n            00|\n            33|\n            44|\n            55|\n            66|\n            77|\n            88\n          )[2-9]\\d{6}\n        "), .s6], .s6,
   .elem n.premiumRate []
    [.s8,
     .empty n.possibleLengths [(n.national, str% "10")], .s8,
     .leaf n.exampleNumber (str% "9002345678"), .s8,
     .leaf n.nationalNumberPattern (str% "900[2-9]\\d{6}"), .s6], .s6, .comment, .s6,
   .elem n.personalNumber []
    [.s8,
     .empty n.possibleLengths [(n.national, str% "10")], .s8,
     .leaf n.exampleNumber (str% "5002345678"), .s8,
     .leaf n.nationalNumberPattern (str% "\n          52(?:\n            3(?:\n              [2-46-9][02-9]\\d|\n              5(?:\n                [02-46-9]\\d|\n                5[0-46-9]\n              )\n            )|\n            4(?:\n              [2-478][02-9]\\d|\n              5(?:\n                [034]\\d|\n                2[024-9]|\n                5[0-46-9]\n              )|\n              6(?:\n                0[1-9]|\n                [2-9]\\d\n              )|\n              9(?:\n                [05-9]\\d|\n                2[0-5]|\n                49\n              )\n            )\n          )\\d{4}|\n          52[34][2-9]1[02-9]\\d{4}|\n          5(?:\n            00|\n            2[125-9]|\n            3[23]|\n            44|\n            66|\n            77|\n            88\n          )[2-9]\\d{6}\n        "), .s6], .s4]

/-- what stands before this territory -/
noncomputable def VN_before : List Node :=
  [.l4, .comment, .s4, .comment, .s4, .comment, .s4]
/-- its attributes -/
noncomputable def VN_attrs : List (Str × Str) := [(n.id, str% "VN"), (n.countryCode, str% "84"), (n.internationalPrefix, str% "00"), (n.nationalPrefix, str% "0")]
/-- its content -/
noncomputable def VN : List Node :=
  [.s6,
   .elem n.availableFormats []
    [.s8, .comment, .s8,
     .elem n.numberFormat [(n.pattern, str% "(\\d{3})(\\d{4})"), (n.nationalPrefixFormattingRule, str% "$NP$FG"), (n.nationalPrefixOptionalWhenFormatting, str% "true")]
      [.s10,
       .leaf n.leadingDigits (str% "[17]99"), .s10,
       .leaf n.format (str% "$1 $2"), .s10,
       .leaf n.intlFormat (str% "NA"), .s8], .s8, .comment, .s8,
     .elem n.numberFormat [(n.pattern, str% "(\\d{3})(\\d{4,5})"), (n.nationalPrefixFormattingRule, str% "$NP$FG"), (n.nationalPrefixOptionalWhenFormatting, str% "true")]
      [.s10,
       .leaf n.leadingDigits (str% "69"), .s10,
       .leaf n.format (str% "$1 $2"), .s10,
       .leaf n.intlFormat (str% "NA"), .s8], .s8, .comment, .s8,
     .elem n.numberFormat [(n.pattern, str% "(\\d{4})(\\d{4,6})"), (n.nationalPrefixOptionalWhenFormatting, str% "true")]
      [.s10,
       .leaf n.leadingDigits (str% "\n            1(?:\n              2[02]|\n              [89]\n            )\n          "), .s10,
       .leaf n.format (str% "$1 $2"), .s8], .s8, .comment, .s8,
     .elem n.numberFormat [(n.pattern, str% "(\\d{2})(\\d{3})(\\d{2})(\\d{2})"), (n.nationalPrefixFormattingRule, str% "$NP$FG"), (n.nationalPrefixOptionalWhenFormatting, str% "true")]
      [.s10,
       .leaf n.leadingDigits (str% "\n            1[26]|\n            6\n          "), .s10,
       .leaf n.format (str% "$1 $2 $3 $4"), .s8], .s8,
     .elem n.numberFormat [(n.pattern, str% "(\\d{3})(\\d{3})(\\d{3})"), (n.nationalPrefixFormattingRule, str% "$NP$FG"), (n.nationalPrefixOptionalWhenFormatting, str% "true")]
      [.s10,
       .leaf n.leadingDigits (str% "[357-9]"), .s10,
       .leaf n.format (str% "$1 $2 $3"), .s8], .s8, .comment, .s8,
     .elem n.numberFormat [(n.pattern, str% "(\\d{2})(\\d{4})(\\d{4})"), (n.nationalPrefixFormattingRule, str% "$NP$FG"), (n.nationalPrefixOptionalWhenFormatting, str% "true")]
      [.s10,
       .leaf n.leadingDigits (str% "2[48]"), .s10,
       .leaf n.format (str% "$1 $2 $3"), .s8], .s8, .comment, .s8,
     .elem n.numberFormat [(n.pattern, str% "(\\d{3})(\\d{4})(\\d{3})"), (n.nationalPrefixFormattingRule, str% "$NP$FG"), (n.nationalPrefixOptionalWhenFormatting, str% "true")]
      [.s10,
       .leaf n.leadingDigits (str% "2"), .s10,
       .leaf n.format (str% "$1 $2 $3"), .s8], .s6], .s6,
   .elem n.generalDesc []
    [.s8,
     .leaf n.nationalNumberPattern (str% "\n          [12]\\d{9}|\n          [135-9]\\d{8}|\n          [16]\\d{6,7}|\n          7\\d{6}\n        "), .s6], .s6,
   .elem n.noInternationalDialling []
    [.s8,
     .empty n.possibleLengths [(n.national, str% "7,8")], .s8,
     .leaf n.nationalNumberPattern (str% "\n          [17]99\\d{4}|\n          69\\d{5,6}\n        "), .s6], .s6, .comment, .s6,
   .elem n.fixedLine []
    [.s8,
     .empty n.possibleLengths [(n.national, str% "10")], .s8,
     .leaf n.exampleNumber (str% "2101234567"), .s8,
     .leaf n.nationalNumberPattern (str% "\n          2(?:\n            0[3-9]|\n            1[0-689]|\n            2[0-25-9]|\n            [38][2-9]|\n            4[2-8]|\n            5[124-9]|\n            6[0-39]|\n            7[0-7]|\n            9[0-4679]\n          )\\d{7}\n        "), .s6], .s6, .comment, .s6,
   .elem n.mobile []
    [.s8,
     .empty n.possibleLengths [(n.national, str% "9")], .s8,
     .leaf n.exampleNumber (str% "912345678"), .s8,
     .leaf n.nationalNumberPattern (str% "\n          121[0-3]\\d{5}|\n          (?:\n            160|\n            (?:\n              3\\d|\n              7[06-9]\n            )\\d|\n            5(?:\n              [1689]\\d|\n              2[238]|\n              59\n            )|\n            8(?:\n              [1-8]\\d|\n              9[6-9]\n            )|\n            9(?:\n              [0-8]\\d|\n              9[013-9]\n            )\n          )\\d{6}\n        "), .s6], .s6, .comment, .s6,
   .elem n.tollFree []
    [.s8,
     .empty n.possibleLengths [(n.national, str% "[8-10]")], .s8,
     .leaf n.exampleNumber (str% "1800123456"), .s8,
     .leaf n.nationalNumberPattern (str% "\n          1800\\d{4,6}|\n          12(?:\n            0[13]|\n            28\n          )\\d{4}\n        "), .s6], .s6,
   .elem n.premiumRate []
    [.s8,
     .empty n.possibleLengths [(n.national, str% "[8-10]")], .s8,
     .leaf n.exampleNumber (str% "1900123456"), .s8,
     .leaf n.nationalNumberPattern (str% "1900\\d{4,6}"), .s6], .s6, .comment, .s6,
   .elem n.voip []
    [.s8,
     .empty n.possibleLengths [(n.national, str% "9")], .s8,
     .leaf n.exampleNumber (str% "672012345"), .s8,
     .leaf n.nationalNumberPattern (str% "672\\d{6}"), .s6], .s6, .comment, .s6,
   .elem n.uan []
    [.s8,
     .empty n.possibleLengths [(n.national, str% "7,8")], .s8,
     .leaf n.exampleNumber (str% "1992000"), .s8,
     .leaf n.nationalNumberPattern (str% "\n          [17]99\\d{4}|\n          69\\d{5,6}\n        "), .s6], .s4]

/-- what stands before this territory -/
noncomputable def VU_before : List Node :=
  [.l4, .comment, .s4, .comment, .s4, .comment, .s4]
/-- its attributes -/
noncomputable def VU_attrs : List (Str × Str) := [(n.id, str% "VU"), (n.countryCode, str% "678"), (n.internationalPrefix, str% "00")]
/-- its content -/
noncomputable def VU : List Node :=
  [.s6,
   .elem n.availableFormats []
    [.s8,
     .elem n.numberFormat [(n.pattern, str% "(\\d{3})(\\d{4})")]
      [.s10,
       .leaf n.leadingDigits (str% "[57-9]"), .s10,
       .leaf n.format (str% "$1 $2"), .s8], .s6], .s6,
   .elem n.generalDesc []
    [.s8,
     .leaf n.nationalNumberPattern (str% "\n          [57-9]\\d{6}|\n          (?:\n            [238]\\d|\n            48\n          )\\d{3}\n        "), .s6], .s6,
   .elem n.fixedLine []
    [.s8,
     .empty n.possibleLengths [(n.national, str% "5")], .s8,
     .leaf n.exampleNumber (str% "22123"), .s8,
     .leaf n.nationalNumberPattern (str% "\n          (?:\n            38[0-8]|\n            48[4-9]\n          )\\d\\d|\n          (?:\n            2[02-9]|\n            3[4-7]|\n            88\n          )\\d{3}\n        "), .s6], .s6,
   .elem n.mobile []
    [.s8,
     .empty n.possibleLengths [(n.national, str% "7")], .s8,
     .leaf n.exampleNumber (str% "5912345"), .s8,
     .leaf n.nationalNumberPattern (str% "\n          (?:\n            [58]\\d|\n            7[0-7]\n          )\\d{5}\n        "), .s6], .s6,
   .elem n.tollFree []
    [.s8,
     .empty n.possibleLengths [(n.national, str% "5")], .s8,
     .leaf n.exampleNumber (str% "81123"), .s8,
     .leaf n.nationalNumberPattern (str% "81[18]\\d\\d"), .s6], .s6,
   .elem n.voip []
    [.s8,
     .empty n.possibleLengths [(n.national, str% "7")], .s8,
     .leaf n.exampleNumber (str% "9010123"), .s8,
     .leaf n.nationalNumberPattern (str% "\n          9(?:\n            0[1-9]|\n            1[01]\n          )\\d{4}\n        "), .s6], .s6, .comment, .s6,
   .elem n.uan []
    [.s8,
     .empty n.possibleLengths [(n.national, str% "5,7")], .s8,
     .leaf n.exampleNumber (str% "30123"), .s8,
     .leaf n.nationalNumberPattern (str% "\n          (?:\n            3[03]|\n            900\\d\n          )\\d{3}\n        "), .s6], .s4]

/-- what stands before this territory -/
noncomputable def WF_before : List Node :=
  [.l4, .comment, .s4, .comment, .s4]
/-- its attributes -/
noncomputable def WF_attrs : List (Str × Str) := [(n.id, str% "WF"), (n.countryCode, str% "681"), (n.internationalPrefix, str% "00")]
/-- its content -/
noncomputable def WF : List Node :=
  [.s6,
   .elem n.availableFormats []
    [.s8,
     .elem n.numberFormat [(n.pattern, str% "(\\d{2})(\\d{2})(\\d{2})")]
      [.s10,
       .leaf n.leadingDigits (str% "[47-9]"), .s10,
       .leaf n.format (str% "$1 $2 $3"), .s8], .s8,
     .elem n.numberFormat [(n.pattern, str% "(\\d{3})(\\d{2})(\\d{2})(\\d{2})")]
      [.s10,
       .leaf n.leadingDigits (str% "8"), .s10,
       .leaf n.format (str% "$1 $2 $3 $4"), .s8], .s6], .s6,
   .elem n.generalDesc []
    [.s8,
     .leaf n.nationalNumberPattern (str% "\n          (?:\n            40|\n            72|\n            8\\d{4}\n          )\\d{4}|\n          [89]\\d{5}\n        "), .s6], .s6, .comment, .s6,
   .elem n.fixedLine []
    [.s8,
     .empty n.possibleLengths [(n.national, str% "6")], .s8,
     .leaf n.exampleNumber (str% "721234"), .s8,
     .leaf n.nationalNumberPattern (str% "72\\d{4}"), .s6], .s6,
   .elem n.mobile []
    [.s8,
     .empty n.possibleLengths [(n.national, str% "6")], .s8,
     .leaf n.exampleNumber (str% "821234"), .s8,
     .leaf n.nationalNumberPattern (str% "\n          (?:\n            72|\n            8[23]\n          )\\d{4}\n        "), .s6], .s6, .comment, .s6,
   .elem n.tollFree []
    [.s8,
     .empty n.possibleLengths [(n.national, str% "9")], .s8,
     .leaf n.exampleNumber (str% "800012345"), .s8,
     .leaf n.nationalNumberPattern (str% "80[0-5]\\d{6}"), .s6], .s6,
   .elem n.voip []
    [.s8,
     .empty n.possibleLengths [(n.national, str% "6")], .s8,
     .leaf n.exampleNumber (str% "921234"), .s8,
     .leaf n.nationalNumberPattern (str% "9[23]\\d{4}"), .s6], .s6,
   .elem n.voicemail []
    [.s8,
     .empty n.possibleLengths [(n.national, str% "6")], .s8,
     .leaf n.exampleNumber (str% "401234"), .s8,
     .leaf n.nationalNumberPattern (str% "[48]0\\d{4}"), .s6], .s4]

/-- what stands before this territory -/
noncomputable def WS_before : List Node :=
  [.l4, .comment, .s4, .comment, .s4]
/-- its attributes -/
noncomputable def WS_attrs : List (Str × Str) := [(n.id, str% "WS"), (n.countryCode, str% "685"), (n.internationalPrefix, str% "0")]
/-- its content -/
noncomputable def WS : List Node :=
  [.s6,
   .elem n.availableFormats []
    [.s8,
     .elem n.numberFormat [(n.pattern, str% "(\\d{5})")]
      [.s10,
       .leaf n.leadingDigits (str% "\n            [2-5]|\n            6[1-9]\n          "), .s10,
       .leaf n.format (str% "$1"), .s8], .s8,
     .elem n.numberFormat [(n.pattern, str% "(\\d{3})(\\d{3,7})")]
      [.s10,
       .leaf n.leadingDigits (str% "[68]"), .s10,
       .leaf n.format (str% "$1 $2"), .s8], .s8,
     .elem n.numberFormat [(n.pattern, str% "(\\d{2})(\\d{5})")]
      [.s10,
       .leaf n.leadingDigits (str% "7"), .s10,
       .leaf n.format (str% "$1 $2"), .s8], .s6], .s6,
   .elem n.generalDesc []
    [.s8,
     .leaf n.nationalNumberPattern (str% "\n          (?:\n            [2-6]|\n            8\\d{5}\n          )\\d{4}|\n          [78]\\d{6}|\n          [68]\\d{5}\n        "), .s6], .s6,
   .elem n.fixedLine []
    [.s8,
     .empty n.possibleLengths [(n.national, str% "5,6")], .s8,
     .leaf n.exampleNumber (str% "22123"), .s8,
     .leaf n.nationalNumberPattern (str% "\n          6[1-9]\\d{3}|\n          (?:\n            [2-5]|\n            60\n          )\\d{4}\n        "), .s6], .s6, .comment, .s6,
   .elem n.mobile []
    [.s8,
     .empty n.possibleLengths [(n.national, str% "7,10")], .s8,
     .leaf n.exampleNumber (str% "7212345"), .s8,
     .leaf n.nationalNumberPattern (str% "\n          (?:\n            7[1-35-8]|\n            8(?:\n              [3-7]|\n              9\\d{3}\n            )\n          )\\d{5}\n        "), .s6], .s6, .comment, .s6,
   .elem n.tollFree []
    [.s8,
     .empty n.possibleLengths [(n.national, str% "6")], .s8,
     .leaf n.exampleNumber (str% "800123"), .s8,
     .leaf n.nationalNumberPattern (str% "800\\d{3}"), .s6], .s4]

/-- what stands before this territory -/
noncomputable def XK_before : List Node :=
  [.l4, .comment, .s4, .comment, .s4, .comment, .s4]
/-- its attributes -/
noncomputable def XK_attrs : List (Str × Str) := [(n.id, str% "XK"), (n.countryCode, str% "383"), (n.internationalPrefix, str% "00"), (n.nationalPrefix, str% "0")]
/-- its content -/
noncomputable def XK : List Node :=
  [.s6,
   .elem n.availableFormats []
    [.s8,
     .elem n.numberFormat [(n.pattern, str% "(\\d{3})(\\d{5})"), (n.nationalPrefixFormattingRule, str% "$NP$FG")]
      [.s10,
       .leaf n.leadingDigits (str% "[89]"), .s10,
       .leaf n.format (str% "$1 $2"), .s8], .s8,
     .elem n.numberFormat [(n.pattern, str% "(\\d{2})(\\d{3})(\\d{3})"), (n.nationalPrefixFormattingRule, str% "$NP$FG")]
      [.s10,
       .leaf n.leadingDigits (str% "[2-4]"), .s10,
       .leaf n.format (str% "$1 $2 $3"), .s8], .s8,
     .elem n.numberFormat [(n.pattern, str% "(\\d{3})(\\d{3})(\\d{3})"), (n.nationalPrefixFormattingRule, str% "$NP$FG")]
      [.s10,
       .leaf n.leadingDigits (str% "\n            2|\n            39\n          "), .s10,
       .leaf n.format (str% "$1 $2 $3"), .s8], .s8,
     .elem n.numberFormat [(n.pattern, str% "(\\d{2})(\\d{7,10})"), (n.nationalPrefixFormattingRule, str% "$NP$FG")]
      [.s10,
       .leaf n.leadingDigits (str% "3"), .s10,
       .leaf n.format (str% "$1 $2"), .s8], .s6], .s6,
   .elem n.generalDesc []
    [.s8,
     .leaf n.nationalNumberPattern (str% "\n          2\\d{7,8}|\n          3\\d{7,11}|\n          (?:\n            4\\d\\d|\n            [89]00\n          )\\d{5}\n        "), .s6], .s6,
   .elem n.fixedLine []
    [.s8,
     .empty n.possibleLengths [(n.national, str% "[8-12]")], .s8,
     .leaf n.exampleNumber (str% "28012345"), .s8,
     .leaf n.nationalNumberPattern (str% "\n          38\\d{6,10}|\n          (?:\n            2[89]|\n            39\n          )(?:\n            0\\d{5,6}|\n            [1-9]\\d{5}\n          )\n        "), .s6], .s6,
   .elem n.mobile []
    [.s8,
     .empty n.possibleLengths [(n.national, str% "8")], .s8,
     .leaf n.exampleNumber (str% "43201234"), .s8,
     .leaf n.nationalNumberPattern (str% "4[3-9]\\d{6}"), .s6], .s6,
   .elem n.tollFree []
    [.s8,
     .empty n.possibleLengths [(n.national, str% "8")], .s8,
     .leaf n.exampleNumber (str% "80001234"), .s8,
     .leaf n.nationalNumberPattern (str% "800\\d{5}"), .s6], .s6,
   .elem n.premiumRate []
    [.s8,
     .empty n.possibleLengths [(n.national, str% "8")], .s8,
     .leaf n.exampleNumber (str% "90001234"), .s8,
     .leaf n.nationalNumberPattern (str% "900\\d{5}"), .s6], .s4]

/-- what stands before this territory -/
noncomputable def YE_before : List Node :=
  [.l4, .comment, .s4, .comment, .s4, .comment, .s4]
/-- its attributes -/
noncomputable def YE_attrs : List (Str × Str) := [(n.id, str% "YE"), (n.countryCode, str% "967"), (n.internationalPrefix, str% "00"), (n.nationalPrefix, str% "0")]
/-- its content -/
noncomputable def YE : List Node :=
  [.s6,
   .elem n.availableFormats []
    [.s8,
     .elem n.numberFormat [(n.pattern, str% "(\\d)(\\d{3})(\\d{3,4})"), (n.nationalPrefixFormattingRule, str% "$NP$FG")]
      [.s10,
       .leaf n.leadingDigits (str% "\n            [1-6]|\n            7(?:\n              [24-6]|\n              8[0-7]\n            )\n          "), .s10,
       .leaf n.format (str% "$1 $2 $3"), .s8], .s8,
     .elem n.numberFormat [(n.pattern, str% "(\\d{3})(\\d{3})(\\d{3})"), (n.nationalPrefixFormattingRule, str% "$NP$FG")]
      [.s10,
       .leaf n.leadingDigits (str% "7"), .s10,
       .leaf n.format (str% "$1 $2 $3"), .s8], .s6], .s6,
   .elem n.generalDesc []
    [.s8,
     .leaf n.nationalNumberPattern (str% "\n          (?:\n            1|\n            7\\d\n          )\\d{7}|\n          [1-7]\\d{6}\n        "), .s6], .s6,
   .elem n.fixedLine []
    [.s8,
     .empty n.possibleLengths [(n.national, str% "7,8"), (n.localOnly, str% "6")], .s8,
     .leaf n.exampleNumber (str% "1234567"), .s8,
     .leaf n.nationalNumberPattern (str% "\n          78[0-7]\\d{4}|\n          17\\d{6}|\n          (?:\n            [12][2-68]|\n            3[2358]|\n            4[2-58]|\n            5[2-6]|\n            6[3-58]|\n            7[24-6]\n          )\\d{5}\n        "), .s6], .s6, .comment, .s6,
   .elem n.mobile []
    [.s8,
     .empty n.possibleLengths [(n.national, str% "9")], .s8,
     .leaf n.exampleNumber (str% "712345678"), .s8,
     .leaf n.nationalNumberPattern (str% "7[01378]\\d{7}"), .s6], .s4]

/-- what stands before this territory -/
noncomputable def YT_before : List Node :=
  [.l4, .comment, .s4, .comment, .s4, .comment, .s4, .comment, .s4, .comment, .s4, .comment, .s4, .comment, .s4]
/-- its attributes -/
noncomputable def YT_attrs : List (Str × Str) := [(n.id, str% "YT"), (n.countryCode, str% "262"), (n.internationalPrefix, str% "00"), (n.nationalPrefix, str% "0")]
/-- its content -/
noncomputable def YT : List Node :=
  [.s6,
   .elem n.generalDesc []
    [.s8,
     .leaf n.nationalNumberPattern (str% "\n          (?:\n            639\\d|\n            7093\n          )\\d{5}|\n          (?:\n            26|\n            80|\n            9\\d\n          )\\d{7}\n        "), .s6], .s6,
   .elem n.fixedLine []
    [.s8,
     .empty n.possibleLengths [(n.national, str% "9")], .s8,
     .leaf n.exampleNumber (str% "269601234"), .s8,
     .leaf n.nationalNumberPattern (str% "\n          26(?:\n            89\\d|\n            9(?:\n              0[0-467]|\n              15|\n              5[0-4]|\n              6\\d|\n              [78]0\n            )\n          )\\d{4}\n        "), .s6], .s6,
   .elem n.mobile []
    [.s8,
     .empty n.possibleLengths [(n.national, str% "9")], .s8,
     .leaf n.exampleNumber (str% "639012345"), .s8,
     .leaf n.nationalNumberPattern (str% "\n          (?:\n            639(?:\n              0[0-79]|\n              1[019]|\n              [267]\\d|\n              3[09]|\n              40|\n              5[05-9]|\n              9[04-79]\n            )|\n            7093[5-7]\n          )\\d{4}\n        "), .s6], .s6, .comment, .s6,
   .elem n.tollFree []
    [.s8,
     .empty n.possibleLengths [(n.national, str% "9")], .s8,
     .leaf n.exampleNumber (str% "801234567"), .s8,
     .leaf n.nationalNumberPattern (str% "80\\d{7}"), .s6], .s6,
   .elem n.voip []
    [.s8,
     .empty n.possibleLengths [(n.national, str% "9")], .s8,
     .leaf n.exampleNumber (str% "939801234"), .s8,
     .leaf n.nationalNumberPattern (str% "\n          9(?:\n            (?:\n              39|\n              47\n            )8[01]|\n            769\\d\n          )\\d{4}\n        "), .s6], .s4]

/-- what stands before this territory -/
noncomputable def ZA_before : List Node :=
  [.l4, .comment, .s4, .comment, .s4, .comment, .s4, .comment, .s4]
/-- its attributes -/
noncomputable def ZA_attrs : List (Str × Str) := [(n.id, str% "ZA"), (n.countryCode, str% "27"), (n.internationalPrefix, str% "00"), (n.nationalPrefix, str% "0"), (n.mobileNumberPortableRegion, str% "true")]
/-- its content -/
noncomputable def ZA : List Node :=
  [.s6,
   .elem n.availableFormats []
    [.s8,
     .elem n.numberFormat [(n.pattern, str% "(\\d{2})(\\d{3,4})"), (n.nationalPrefixFormattingRule, str% "$NP$FG")]
      [.s10,
       .leaf n.leadingDigits (str% "8[1-4]"), .s10,
       .leaf n.format (str% "$1 $2"), .s8], .s8,
     .elem n.numberFormat [(n.pattern, str% "(\\d{2})(\\d{3})(\\d{2,3})"), (n.nationalPrefixFormattingRule, str% "$NP$FG")]
      [.s10,
       .leaf n.leadingDigits (str% "8[1-4]"), .s10,
       .leaf n.format (str% "$1 $2 $3"), .s8], .s8,
     .elem n.numberFormat [(n.pattern, str% "(\\d{3})(\\d{3})(\\d{3})"), (n.nationalPrefixFormattingRule, str% "$NP$FG")]
      [.s10,
       .leaf n.leadingDigits (str% "860"), .s10,
       .leaf n.format (str% "$1 $2 $3"), .s8], .s8,
     .elem n.numberFormat [(n.pattern, str% "(\\d{2})(\\d{3})(\\d{4})"), (n.nationalPrefixFormattingRule, str% "$NP$FG")]
      [.s10,
       .leaf n.leadingDigits (str% "[1-9]"), .s10,
       .leaf n.format (str% "$1 $2 $3"), .s8], .s8, .comment, .s8,
     .elem n.numberFormat [(n.pattern, str% "(\\d{3})(\\d{3})(\\d{4})"), (n.nationalPrefixFormattingRule, str% "$NP$FG")]
      [.s10,
       .leaf n.leadingDigits (str% "8"), .s10,
       .leaf n.format (str% "$1 $2 $3"), .s8], .s6], .s6,
   .elem n.generalDesc []
    [.s8,
     .leaf n.nationalNumberPattern (str% "\n          [1-79]\\d{8}|\n          8\\d{4,9}\n        "), .s6], .s6,
   .elem n.fixedLine []
    [.s8,
     .empty n.possibleLengths [(n.national, str% "9")], .s8,
     .leaf n.exampleNumber (str% "101234567"), .s8,
     .leaf n.nationalNumberPattern (str% "\n          (?:\n            2(?:\n              0330|\n              4302\n            )|\n            52087\n          )0\\d{3}|\n          (?:\n            1[0-8]|\n            2[1-378]|\n            3[1-69]|\n            4\\d|\n            5[1346-8]\n          )\\d{7}\n        "), .s6], .s6, .comment, .s6,
   .elem n.mobile []
    [.s8,
     .empty n.possibleLengths [(n.national, str% "[5-9]")], .s8,
     .leaf n.exampleNumber (str% "711234567"), .s8,
     .leaf n.nationalNumberPattern (str% "\n          (?:\n            1(?:\n              3492[0-25]|\n              4495[0235]|\n              549(?:\n                20|\n                5[01]\n              )\n            )|\n            4[34]492[01]\n          )\\d{3}|\n          8[1-4]\\d{3,7}|\n          (?:\n            2[27]|\n            47|\n            54\n          )4950\\d{3}|\n          (?:\n            1(?:\n              049[2-4]|\n              9[12]\\d\\d\n            )|\n            (?:\n              50[0-2]|\n              [67]\\d\\d\n            )\\d\\d|\n            8(?:\n              5\\d{3}|\n              7(?:\n                08[67]|\n                158|\n                28[5-9]|\n                310\n              )\n            )\n          )\\d{4}|\n          (?:\n            1[6-8]|\n            28|\n            3[2-69]|\n            4[025689]|\n            5[36-8]\n          )4920\\d{3}|\n          (?:\n            12|\n            [2-5]1\n          )492\\d{4}\n        "), .s6], .s6,
   .elem n.tollFree []
    [.s8,
     .empty n.possibleLengths [(n.national, str% "9")], .s8,
     .leaf n.exampleNumber (str% "801234567"), .s8,
     .leaf n.nationalNumberPattern (str% "80\\d{7}"), .s6], .s6,
   .elem n.premiumRate []
    [.s8,
     .empty n.possibleLengths [(n.national, str% "9")], .s8,
     .leaf n.exampleNumber (str% "862345678"), .s8,
     .leaf n.nationalNumberPattern (str% "\n          (?:\n            86[2-9]|\n            9[0-2]\\d\n          )\\d{6}\n        "), .s6], .s6,
   .elem n.sharedCost []
    [.s8,
     .empty n.possibleLengths [(n.national, str% "9")], .s8,
     .leaf n.exampleNumber (str% "860123456"), .s8,
     .leaf n.nationalNumberPattern (str% "860\\d{6}"), .s6], .s6, .comment, .s6,
   .elem n.voip []
    [.s8,
     .empty n.possibleLengths [(n.national, str% "9")], .s8,
     .leaf n.exampleNumber (str% "871234567"), .s8,
     .leaf n.nationalNumberPattern (str% "\n          87(?:\n            08[0-589]|\n            15[0-79]|\n            28[0-4]|\n            31[1-9]\n          )\\d{4}|\n          87(?:\n            [02][0-79]|\n            1[0-46-9]|\n            3[02-9]|\n            [4-9]\\d\n          )\\d{5}\n        "), .s6], .s6, .comment, .s6,
   .elem n.uan []
    [.s8,
     .empty n.possibleLengths [(n.national, str% "9,10")], .s8,
     .leaf n.exampleNumber (str% "861123456"), .s8,
     .leaf n.nationalNumberPattern (str% "861\\d{6,7}"), .s6], .s4]

/-- what stands before this territory -/
noncomputable def ZM_before : List Node :=
  [.l4, .comment, .s4, .comment, .s4, .comment, .s4]
/-- its attributes -/
noncomputable def ZM_attrs : List (Str × Str) := [(n.id, str% "ZM"), (n.countryCode, str% "260"), (n.internationalPrefix, str% "00"), (n.nationalPrefix, str% "0")]
/-- its content -/
noncomputable def ZM : List Node :=
  [.s6,
   .elem n.availableFormats []
    [.s8,
     .elem n.numberFormat [(n.pattern, str% "(\\d{3})(\\d{3})")]
      [.s10,
       .leaf n.leadingDigits (str% "[1-9]"), .s10,
       .leaf n.format (str% "$1 $2"), .s10,
       .leaf n.intlFormat (str% "NA"), .s8], .s8, .comment, .s8,
     .elem n.numberFormat [(n.pattern, str% "(\\d{3})(\\d{3})(\\d{3})"), (n.nationalPrefixFormattingRule, str% "$NP$FG")]
      [.s10,
       .leaf n.leadingDigits (str% "[28]"), .s10,
       .leaf n.format (str% "$1 $2 $3"), .s8], .s8, .comment, .s8,
     .elem n.numberFormat [(n.pattern, str% "(\\d{2})(\\d{7})"), (n.nationalPrefixFormattingRule, str% "$NP$FG")]
      [.s10,
       .leaf n.leadingDigits (str% "[579]"), .s10,
       .leaf n.format (str% "$1 $2"), .s8], .s6], .s6,
   .elem n.generalDesc []
    [.s8,
     .leaf n.nationalNumberPattern (str% "\n          800\\d{6}|\n          (?:\n            21|\n            [579]\\d|\n            63\n          )\\d{7}\n        "), .s6], .s6, .comment, .s6,
   .elem n.fixedLine []
    [.s8,
     .empty n.possibleLengths [(n.national, str% "9"), (n.localOnly, str% "6")], .s8,
     .leaf n.exampleNumber (str% "211234567"), .s8,
     .leaf n.nationalNumberPattern (str% "21[1-8]\\d{6}"), .s6], .s6,
   .elem n.mobile []
    [.s8,
     .empty n.possibleLengths [(n.national, str% "9")], .s8,
     .leaf n.exampleNumber (str% "955123456"), .s8,
     .leaf n.nationalNumberPattern (str% "\n          (?:\n            [59][5-8]|\n            7[5-9]\n          )\\d{7}\n        "), .s6], .s6,
   .elem n.tollFree []
    [.s8,
     .empty n.possibleLengths [(n.national, str% "9")], .s8,
     .leaf n.exampleNumber (str% "800123456"), .s8,
     .leaf n.nationalNumberPattern (str% "800\\d{6}"), .s6], .s6,
   .elem n.voip []
    [.s8,
     .empty n.possibleLengths [(n.national, str% "9")], .s8,
     .leaf n.exampleNumber (str% "630123456"), .s8,
     .leaf n.nationalNumberPattern (str% "63\\d{7}"), .s6], .s4]

/-- what stands before this territory -/
noncomputable def ZW_before : List Node :=
  [.l4, .comment, .s4, .comment, .s4, .comment, .s4]
/-- its attributes -/
noncomputable def ZW_attrs : List (Str × Str) := [(n.id, str% "ZW"), (n.countryCode, str% "263"), (n.internationalPrefix, str% "00"), (n.nationalPrefix, str% "0")]
/-- its content -/
noncomputable def ZW : List Node :=
  [.s6,
   .elem n.availableFormats []
    [.s8, .comment, .s8,
     .elem n.numberFormat [(n.pattern, str% "(\\d{3})(\\d{3,5})"), (n.nationalPrefixFormattingRule, str% "$NP$FG")]
      [.s10,
       .leaf n.leadingDigits (str% "\n            2(?:\n              0[45]|\n              2[278]|\n              [49]8\n            )|\n            3(?:\n              [09]8|\n              17\n            )|\n            6(?:\n              [29]8|\n              37|\n              75\n            )|\n            [23][78]|\n            (?:\n              33|\n              5[15]|\n              6[68]\n            )[78]\n          "), .s10,
       .leaf n.format (str% "$1 $2"), .s8], .s8, .comment, .s8,
     .elem n.numberFormat [(n.pattern, str% "(\\d)(\\d{3})(\\d{2,4})"), (n.nationalPrefixFormattingRule, str% "$NP$FG")]
      [.s10,
       .leaf n.leadingDigits (str% "[49]"), .s10,
       .leaf n.format (str% "$1 $2 $3"), .s8], .s8, .comment, .s8,
     .elem n.numberFormat [(n.pattern, str% "(\\d{3})(\\d{4})"), (n.nationalPrefixFormattingRule, str% "$NP$FG")]
      [.s10,
       .leaf n.leadingDigits (str% "80"), .s10,
       .leaf n.format (str% "$1 $2"), .s8], .s8, .comment, .s8,
     .elem n.numberFormat [(n.pattern, str% "(\\d{2})(\\d{7})"), (n.nationalPrefixFormattingRule, str% "($NP$FG)")]
      [.s10,
       .leaf n.leadingDigits (str% "\n            24|\n            8[13-59]|\n            (?:\n              2[05-79]|\n              39|\n              5[45]|\n              6[15-8]\n            )2\n          "), .s10,
       .leaf n.leadingDigits (str% "\n            2(?:\n              02[014]|\n              4|\n              [56]20|\n              [79]2\n            )|\n            392|\n            5(?:\n              42|\n              525\n            )|\n            6(?:\n              [16-8]21|\n              52[013]\n            )|\n            8[13-59]\n          "), .s10,
       .leaf n.format (str% "$1 $2"), .s8], .s8, .comment, .s8,
     .elem n.numberFormat [(n.pattern, str% "(\\d{2})(\\d{3})(\\d{4})"), (n.nationalPrefixFormattingRule, str% "$NP$FG")]
      [.s10,
       .leaf n.leadingDigits (str% "7"), .s10,
       .leaf n.format (str% "$1 $2 $3"), .s8], .s8, .comment, .s8,
     .elem n.numberFormat [(n.pattern, str% "(\\d{3})(\\d{3})(\\d{3,4})"), (n.nationalPrefixFormattingRule, str% "$NP$FG")]
      [.s10,
       .leaf n.leadingDigits (str% "\n            2(?:\n              1[39]|\n              2[0157]|\n              [378]|\n              [56][14]\n            )|\n            3(?:\n              12|\n              29\n            )\n          "), .s10,
       .leaf n.leadingDigits (str% "\n            2(?:\n              1[39]|\n              2[0157]|\n              [378]|\n              [56][14]\n            )|\n            3(?:\n              123|\n              29\n            )\n          "), .s10,
       .leaf n.format (str% "$1 $2 $3"), .s8], .s8, .comment, .s8,
     .elem n.numberFormat [(n.pattern, str% "(\\d{4})(\\d{6})"), (n.nationalPrefixFormattingRule, str% "$NP$FG")]
      [.s10,
       .leaf n.leadingDigits (str% "8"), .s10,
       .leaf n.format (str% "$1 $2"), .s8], .s8, .comment, .s8,
     .elem n.numberFormat [(n.pattern, str% "(\\d{2})(\\d{3,5})"), (n.nationalPrefixFormattingRule, str% "$NP$FG")]
      [.s10,
       .leaf n.leadingDigits (str% "\n            1|\n            2(?:\n              0[0-36-9]|\n              12|\n              29|\n              [56]\n            )|\n            3(?:\n              1[0-689]|\n              [24-6]\n            )|\n            5(?:\n              [0236-9]|\n              1[2-4]\n            )|\n            6(?:\n              [013-59]|\n              7[0-46-9]\n            )|\n            (?:\n              33|\n              55|\n              6[68]\n            )[0-69]|\n            (?:\n              29|\n              3[09]|\n              62\n            )[0-79]\n          "), .s10,
       .leaf n.format (str% "$1 $2"), .s8], .s8, .comment, .s8,
     .elem n.numberFormat [(n.pattern, str% "(\\d{2})(\\d{3})(\\d{3,4})"), (n.nationalPrefixFormattingRule, str% "$NP$FG")]
      [.s10,
       .leaf n.leadingDigits (str% "\n            29[013-9]|\n            39|\n            54\n          "), .s10,
       .leaf n.format (str% "$1 $2 $3"), .s8], .s8, .comment, .s8,
     .elem n.numberFormat [(n.pattern, str% "(\\d{4})(\\d{3,5})"), (n.nationalPrefixFormattingRule, str% "$NP$FG")]
      [.s10,
       .leaf n.leadingDigits (str% "\n            (?:\n              25|\n              54\n            )8\n          "), .s10,
       .leaf n.leadingDigits (str% "\n            258|\n            5483\n          "), .s10,
       .leaf n.format (str% "$1 $2"), .s8], .s6], .s6,
   .elem n.generalDesc []
    [.s8,
     .leaf n.nationalNumberPattern (str% "\n          2(?:\n            [0-57-9]\\d{6,8}|\n            6[0-24-9]\\d{6,7}\n          )|\n          [38]\\d{9}|\n          [35-8]\\d{8}|\n          [3-6]\\d{7}|\n          [1-689]\\d{6}|\n          [1-3569]\\d{5}|\n          [1356]\\d{4}\n        "), .s6], .s6, .comment, .s6, .comment, .s6, .comment, .s6,
   .elem n.fixedLine []
    [.s8,
     .empty n.possibleLengths [(n.national, str% "[5-10]"), (n.localOnly, str% "3,4")], .s8,
     .leaf n.exampleNumber (str% "1312345"), .s8,
     .leaf n.nationalNumberPattern (str% "\n          (?:\n            1(?:\n              (?:\n                3\\d|\n                9\n              )\\d|\n              [4-8]\n            )|\n            2(?:\n              (?:\n                (?:\n                  0(?:\n                    2[014]|\n                    5\n                  )|\n                  (?:\n                    2[0157]|\n                    31|\n                    84|\n                    9\n                  )\\d\\d|\n                  [56](?:\n                    [14]\\d\\d|\n                    20\n                  )|\n                  7(?:\n                    [089]|\n                    2[03]|\n                    [35]\\d\\d\n                  )\n                )\\d|\n                4(?:\n                  2\\d\\d|\n                  8\n                )\n              )\\d|\n              1(?:\n                2|\n                [39]\\d{4}\n              )\n            )|\n            3(?:\n              (?:\n                123|\n                (?:\n                  29\\d|\n                  92\n                )\\d\n              )\\d\\d|\n              7(?:\n                [19]|\n                [56]\\d\n              )\n            )|\n            5(?:\n              0|\n              1[2-478]|\n              26|\n              [37]2|\n              4(?:\n                2\\d{3}|\n                83\n              )|\n              5(?:\n                25\\d\\d|\n                [78]\n              )|\n              [689]\\d\n            )|\n            6(?:\n              (?:\n                [16-8]21|\n                28|\n                52[013]\n              )\\d\\d|\n              [39]\n            )|\n            8(?:\n              [1349]28|\n              523\n            )\\d\\d\n          )\\d{3}|\n          (?:\n            4\\d\\d|\n            9[2-9]\n          )\\d{4,5}|\n          (?:\n            (?:\n              2(?:\n                (?:\n                  (?:\n                    0|\n                    8[146]\n                  )\\d|\n                  7[1-7]\n                )\\d|\n                2(?:\n                  [278]\\d|\n                  92\n                )|\n                58(?:\n                  2\\d|\n                  3\n                )\n              )|\n              3(?:\n                [26]|\n                9\\d{3}\n              )|\n              5(?:\n                4\\d|\n                5\n              )\\d\\d\n            )\\d|\n            6(?:\n              (?:\n                (?:\n                  [0-246]|\n                  [78]\\d\n                )\\d|\n                37\n              )\\d|\n              5[2-8]\n            )\n          )\\d\\d|\n          (?:\n            2(?:\n              [569]\\d|\n              8[2-57-9]\n            )|\n            3(?:\n              [013-59]\\d|\n              8[37]\n            )|\n            6[89]8\n          )\\d{3}\n        "), .s6], .s6,
   .elem n.mobile []
    [.s8,
     .empty n.possibleLengths [(n.national, str% "9")], .s8,
     .leaf n.exampleNumber (str% "712345678"), .s8,
     .leaf n.nationalNumberPattern (str% "\n          7(?:\n            [1278]\\d|\n            3[1-9]\n          )\\d{6}\n        "), .s6], .s6,
   .elem n.tollFree []
    [.s8,
     .empty n.possibleLengths [(n.national, str% "7")], .s8,
     .leaf n.exampleNumber (str% "8001234"), .s8,
     .leaf n.nationalNumberPattern (str% "\n          80(?:\n            [01]\\d|\n            20|\n            8[0-8]\n          )\\d{3}\n        "), .s6], .s6, .comment, .s6,
   .elem n.voip []
    [.s8,
     .empty n.possibleLengths [(n.national, str% "10")], .s8,
     .leaf n.exampleNumber (str% "8686123456"), .s8,
     .leaf n.nationalNumberPattern (str% "\n          86(?:\n            1[12]|\n            22|\n            30|\n            44|\n            55|\n            77|\n            8[368]\n          )\\d{6}\n        "), .s6], .s4]

/-- what stands before this territory -/
noncomputable def W800_before : List Node :=
  [.l4, .comment, .s4, .comment, .s4]
/-- its attributes -/
noncomputable def W800_attrs : List (Str × Str) := [(n.id, str% "001"), (n.countryCode, str% "800")]
/-- its content -/
noncomputable def W800 : List Node :=
  [.s6,
   .elem n.availableFormats []
    [.s8,
     .elem n.numberFormat [(n.pattern, str% "(\\d{4})(\\d{4})")]
      [.s10,
       .leaf n.leadingDigits (str% "\\d"), .s10,
       .leaf n.format (str% "$1 $2"), .s8], .s6], .s6,
   .elem n.generalDesc []
    [.s8,
     .leaf n.nationalNumberPattern (str% "\n          (?:\n            00|\n            [1-9]\\d\n          )\\d{6}\n        "), .s6], .s6, .comment, .s6,
   .elem n.tollFree []
    [.s8,
     .empty n.possibleLengths [(n.national, str% "8")], .s8,
     .leaf n.exampleNumber (str% "12345678"), .s8,
     .leaf n.nationalNumberPattern (str% "\n          (?:\n            00|\n            [1-9]\\d\n          )\\d{6}\n        "), .s6], .s4]

/-- what stands before this territory -/
noncomputable def W808_before : List Node :=
  [.l4, .comment, .s4, .comment, .s4]
/-- its attributes -/
noncomputable def W808_attrs : List (Str × Str) := [(n.id, str% "001"), (n.countryCode, str% "808")]
/-- its content -/
noncomputable def W808 : List Node :=
  [.s6,
   .elem n.availableFormats []
    [.s8,
     .elem n.numberFormat [(n.pattern, str% "(\\d{4})(\\d{4})")]
      [.s10,
       .leaf n.leadingDigits (str% "[1-9]"), .s10,
       .leaf n.format (str% "$1 $2"), .s8], .s6], .s6,
   .elem n.generalDesc []
    [.s8,
     .leaf n.nationalNumberPattern (str% "[1-9]\\d{7}"), .s6], .s6,
   .elem n.sharedCost []
    [.s8,
     .empty n.possibleLengths [(n.national, str% "8")], .s8,
     .leaf n.exampleNumber (str% "12345678"), .s8,
     .leaf n.nationalNumberPattern (str% "[1-9]\\d{7}"), .s6], .s4]

/-- what stands before this territory -/
noncomputable def W870_before : List Node :=
  [.l4, .comment, .s4, .comment, .s4, .comment, .s4]
/-- its attributes -/
noncomputable def W870_attrs : List (Str × Str) := [(n.id, str% "001"), (n.countryCode, str% "870")]
/-- its content -/
noncomputable def W870 : List Node :=
  [.s6,
   .elem n.availableFormats []
    [.s8,
     .elem n.numberFormat [(n.pattern, str% "(\\d{3})(\\d{3})(\\d{3})")]
      [.s10,
       .leaf n.leadingDigits (str% "[235-7]"), .s10,
       .leaf n.format (str% "$1 $2 $3"), .s8], .s6], .s6,
   .elem n.generalDesc []
    [.s8,
     .leaf n.nationalNumberPattern (str% "\n          7\\d{11}|\n          [235-7]\\d{8}\n        "), .s6], .s6, .comment, .s6,
   .elem n.mobile []
    [.s8,
     .empty n.possibleLengths [(n.national, str% "9,12")], .s8,
     .leaf n.exampleNumber (str% "301234567"), .s8,
     .leaf n.nationalNumberPattern (str% "\n          (?:\n            [356]|\n            774[45]\n          )\\d{8}|\n          7[6-8]\\d{7}\n        "), .s6], .s6,
   .elem n.voip []
    [.s8,
     .empty n.possibleLengths [(n.national, str% "9")], .s8,
     .leaf n.exampleNumber (str% "201234567"), .s8,
     .leaf n.nationalNumberPattern (str% "2\\d{8}"), .s6], .s4]

/-- what stands before this territory -/
noncomputable def W878_before : List Node :=
  [.l4, .comment, .s4, .comment, .s4, .comment, .s4]
/-- its attributes -/
noncomputable def W878_attrs : List (Str × Str) := [(n.id, str% "001"), (n.countryCode, str% "878")]
/-- its content -/
noncomputable def W878 : List Node :=
  [.s6,
   .elem n.availableFormats []
    [.s8, .comment, .s8,
     .elem n.numberFormat [(n.pattern, str% "(\\d{2})(\\d{5})(\\d{5})")]
      [.s10,
       .leaf n.leadingDigits (str% "1"), .s10,
       .leaf n.format (str% "$1 $2 $3"), .s8], .s6], .s6,
   .elem n.generalDesc []
    [.s8,
     .leaf n.nationalNumberPattern (str% "10\\d{10}"), .s6], .s6,
   .elem n.voip []
    [.s8,
     .empty n.possibleLengths [(n.national, str% "12")], .s8,
     .leaf n.exampleNumber (str% "101234567890"), .s8,
     .leaf n.nationalNumberPattern (str% "10\\d{10}"), .s6], .s4]

/-- what stands before this territory -/
noncomputable def W881_before : List Node :=
  [.l4, .comment, .s4, .comment, .s4, .comment, .s4, .comment, .s4]
/-- its attributes -/
noncomputable def W881_attrs : List (Str × Str) := [(n.id, str% "001"), (n.countryCode, str% "881")]
/-- its content -/
noncomputable def W881 : List Node :=
  [.s6,
   .elem n.availableFormats []
    [.s8, .comment, .s8,
     .elem n.numberFormat [(n.pattern, str% "(\\d)(\\d{3})(\\d{5})")]
      [.s10,
       .leaf n.leadingDigits (str% "[0-37-9]"), .s10,
       .leaf n.format (str% "$1 $2 $3"), .s8], .s8,
     .elem n.numberFormat [(n.pattern, str% "(\\d)(\\d{3})(\\d{5,6})")]
      [.s10,
       .leaf n.leadingDigits (str% "6"), .s10,
       .leaf n.format (str% "$1 $2 $3"), .s8], .s6], .s6,
   .elem n.generalDesc []
    [.s8,
     .leaf n.nationalNumberPattern (str% "\n          6\\d{9}|\n          [0-36-9]\\d{8}\n        "), .s6], .s6,
   .elem n.mobile []
    [.s8,
     .empty n.possibleLengths [(n.national, str% "9,10")], .s8,
     .leaf n.exampleNumber (str% "612345678"), .s8,
     .leaf n.nationalNumberPattern (str% "\n          6\\d{9}|\n          [0-36-9]\\d{8}\n        "), .s6], .s4]

/-- what stands before this territory -/
noncomputable def W882_before : List Node :=
  [.l4, .comment, .s4, .comment, .s4, .comment, .s4, .comment, .s4, .comment, .s4, .comment, .s4, .comment, .s4, .comment, .s4, .comment, .s4, .comment, .s4, .comment, .s4, .comment, .s4, .comment, .s4, .comment, .s4, .comment, .s4, .comment, .s4]
/-- its attributes -/
noncomputable def W882_attrs : List (Str × Str) := [(n.id, str% "001"), (n.countryCode, str% "882")]
/-- its content -/
noncomputable def W882 : List Node :=
  [.s6,
   .elem n.availableFormats []
    [.s8, .comment, .s8,
     .elem n.numberFormat [(n.pattern, str% "(\\d{2})(\\d{5})")]
      [.s10,
       .leaf n.leadingDigits (str% "\n            16|\n            342\n          "), .s10,
       .leaf n.format (str% "$1 $2"), .s8], .s8, .comment, .s8,
     .elem n.numberFormat [(n.pattern, str% "(\\d{2})(\\d{6})")]
      [.s10,
       .leaf n.leadingDigits (str% "49"), .s10,
       .leaf n.format (str% "$1 $2"), .s8], .s8, .comment, .s8,
     .elem n.numberFormat [(n.pattern, str% "(\\d{2})(\\d{2})(\\d{4})")]
      [.s10,
       .leaf n.leadingDigits (str% "\n            1[36]|\n            9\n          "), .s10,
       .leaf n.format (str% "$1 $2 $3"), .s8], .s8, .comment, .s8,
     .elem n.numberFormat [(n.pattern, str% "(\\d{2})(\\d{4})(\\d{3})")]
      [.s10,
       .leaf n.leadingDigits (str% "3[23]"), .s10,
       .leaf n.format (str% "$1 $2 $3"), .s8], .s8, .comment, .s8,
     .elem n.numberFormat [(n.pattern, str% "(\\d{2})(\\d{3,4})(\\d{4})")]
      [.s10,
       .leaf n.leadingDigits (str% "16"), .s10,
       .leaf n.format (str% "$1 $2 $3"), .s8], .s8, .comment, .s8,
     .elem n.numberFormat [(n.pattern, str% "(\\d{2})(\\d{4})(\\d{4})")]
      [.s10,
       .leaf n.leadingDigits (str% "\n            10|\n            23|\n            3(?:\n              [15]|\n              4[57]\n            )|\n            4|\n            5[12]\n          "), .s10,
       .leaf n.format (str% "$1 $2 $3"), .s8], .s8, .comment, .s8,
     .elem n.numberFormat [(n.pattern, str% "(\\d{3})(\\d{4})(\\d{4})")]
      [.s10,
       .leaf n.leadingDigits (str% "34"), .s10,
       .leaf n.format (str% "$1 $2 $3"), .s8], .s8, .comment, .s8,
     .elem n.numberFormat [(n.pattern, str% "(\\d{2})(\\d{4,5})(\\d{5})")]
      [.s10,
       .leaf n.leadingDigits (str% "[1-35]"), .s10,
       .leaf n.format (str% "$1 $2 $3"), .s8], .s6], .s6,
   .elem n.generalDesc []
    [.s8,
     .leaf n.nationalNumberPattern (str% "\n          [13]\\d{6}(?:\n            \\d{2,5}\n          )?|\n          [19]\\d{7}|\n          (?:\n            [25]\\d\\d|\n            4\n          )\\d{7}(?:\n            \\d{2}\n          )?\n        "), .s6], .s6, .comment, .s6,
   .elem n.mobile []
    [.s8,
     .empty n.possibleLengths [(n.national, str% "[7-10],12")], .s8,
     .leaf n.exampleNumber (str% "3421234"), .s8,
     .leaf n.nationalNumberPattern (str% "\n          342\\d{4}|\n          (?:\n            337|\n            49\n          )\\d{6}|\n          (?:\n            3(?:\n              2|\n              47|\n              7\\d{3}\n            )|\n            5(?:\n              0\\d{3}|\n              2[0-2]\n            )\n          )\\d{7}\n        "), .s6], .s6, .comment, .s6, .comment, .s6,
   .elem n.voip []
    [.s8,
     .empty n.possibleLengths [(n.national, str% "[7-12]")], .s8,
     .leaf n.exampleNumber (str% "390123456789"), .s8,
     .leaf n.nationalNumberPattern (str% "\n          1(?:\n            3(?:\n              0[0347]|\n              [13][0139]|\n              2[035]|\n              4[013568]|\n              6[0459]|\n              7[06]|\n              8[15-8]|\n              9[0689]\n            )\\d{4}|\n            6\\d{5,10}\n          )|\n          (?:\n            345\\d|\n            9[89]\n          )\\d{6}|\n          (?:\n            10|\n            2(?:\n              3|\n              85\\d\n            )|\n            3(?:\n              [15]|\n              [69]\\d\\d\n            )|\n            4[15-8]|\n            51\n          )\\d{8}\n        "), .s6], .s6,
   .elem n.voicemail []
    [.s8,
     .empty n.possibleLengths [(n.national, str% "11")], .s8,
     .leaf n.exampleNumber (str% "34851234567"), .s8,
     .leaf n.nationalNumberPattern (str% "348[57]\\d{7}"), .s6], .s4]

/-- what stands before this territory -/
noncomputable def W883_before : List Node :=
  [.l4, .comment, .s4, .comment, .s4, .comment, .s4, .comment, .s4, .comment, .s4, .comment, .s4]
/-- its attributes -/
noncomputable def W883_attrs : List (Str × Str) := [(n.id, str% "001"), (n.countryCode, str% "883")]
/-- its content -/
noncomputable def W883 : List Node :=
  [.s6,
   .elem n.availableFormats []
    [.s8,
     .elem n.numberFormat [(n.pattern, str% "(\\d{3})(\\d{3})(\\d{2,8})")]
      [.s10,
       .leaf n.leadingDigits (str% "\n            [14]|\n            2[24-689]|\n            3[02-689]|\n            51[24-9]\n          "), .s10,
       .leaf n.format (str% "$1 $2 $3"), .s8], .s8,
     .elem n.numberFormat [(n.pattern, str% "(\\d{3})(\\d{3})(\\d{3})")]
      [.s10,
       .leaf n.leadingDigits (str% "510"), .s10,
       .leaf n.format (str% "$1 $2 $3"), .s8], .s8,
     .elem n.numberFormat [(n.pattern, str% "(\\d{3})(\\d{3})(\\d{4})")]
      [.s10,
       .leaf n.leadingDigits (str% "21"), .s10,
       .leaf n.format (str% "$1 $2 $3"), .s8], .s8, .comment, .s8,
     .elem n.numberFormat [(n.pattern, str% "(\\d{4})(\\d{4})(\\d{4})")]
      [.s10,
       .leaf n.leadingDigits (str% "51[13]"), .s10,
       .leaf n.format (str% "$1 $2 $3"), .s8], .s8,
     .elem n.numberFormat [(n.pattern, str% "(\\d{3})(\\d{3})(\\d{3})(\\d{3})")]
      [.s10,
       .leaf n.leadingDigits (str% "[235]"), .s10,
       .leaf n.format (str% "$1 $2 $3 $4"), .s8], .s6], .s6,
   .elem n.generalDesc []
    [.s8,
     .leaf n.nationalNumberPattern (str% "\n          (?:\n            [1-4]\\d|\n            51\n          )\\d{6,10}\n        "), .s6], .s6,
   .elem n.voip []
    [.s8,
     .empty n.possibleLengths [(n.national, str% "[8-12]")], .s8,
     .leaf n.exampleNumber (str% "510012345"), .s8,
     .leaf n.nationalNumberPattern (str% "\n          (?:\n            2(?:\n              00\\d\\d|\n              10\n            )|\n            (?:\n              370[1-9]|\n              51\\d0\n            )\\d\n          )\\d{7}|\n          51(?:\n            00\\d{5}|\n            [24-9]0\\d{4,7}\n          )|\n          (?:\n            1[0-79]|\n            2[24-689]|\n            3[02-689]|\n            4[0-4]\n          )0\\d{5,9}\n        "), .s6], .s4]

/-- what stands before this territory -/
noncomputable def W888_before : List Node :=
  [.l4, .comment, .s4, .comment, .s4, .comment, .s4]
/-- its attributes -/
noncomputable def W888_attrs : List (Str × Str) := [(n.id, str% "001"), (n.countryCode, str% "888")]
/-- its content -/
noncomputable def W888 : List Node :=
  [.s6,
   .elem n.availableFormats []
    [.s8,
     .elem n.numberFormat [(n.pattern, str% "(\\d{3})(\\d{3})(\\d{5})")]
      [.s10,
       .leaf n.format (str% "$1 $2 $3"), .s8], .s6], .s6,
   .elem n.generalDesc []
    [.s8,
     .leaf n.nationalNumberPattern (str% "\\d{11}"), .s6], .s6,
   .elem n.uan []
    [.s8,
     .empty n.possibleLengths [(n.national, str% "11")], .s8,
     .leaf n.exampleNumber (str% "12345678901"), .s8,
     .leaf n.nationalNumberPattern (str% "\\d{11}"), .s6], .s4]

/-- what stands before this territory -/
noncomputable def W979_before : List Node :=
  [.l4, .comment, .s4, .comment, .s4]
/-- its attributes -/
noncomputable def W979_attrs : List (Str × Str) := [(n.id, str% "001"), (n.countryCode, str% "979")]
/-- its content -/
noncomputable def W979 : List Node :=
  [.s6,
   .elem n.availableFormats []
    [.s8,
     .elem n.numberFormat [(n.pattern, str% "(\\d)(\\d{4})(\\d{4})")]
      [.s10,
       .leaf n.leadingDigits (str% "[1359]"), .s10,
       .leaf n.format (str% "$1 $2 $3"), .s8], .s6], .s6,
   .elem n.generalDesc []
    [.s8,
     .leaf n.nationalNumberPattern (str% "[1359]\\d{8}"), .s6], .s6,
   .elem n.premiumRate []
    [.s8,
     .empty n.possibleLengths [(n.national, str% "9"), (n.localOnly, str% "8")], .s8,
     .leaf n.exampleNumber (str% "123456789"), .s8,
     .leaf n.nationalNumberPattern (str% "[1359]\\d{8}"), .s6], .s4]

/-- the nodes of this module -/
noncomputable def chunk15 : List (List Node × List (Str × Str) × List Node) :=
  [(VG_before, VG_attrs, VG), (VI_before, VI_attrs, VI), (VN_before, VN_attrs, VN), (VU_before, VU_attrs, VU),
   (WF_before, WF_attrs, WF), (WS_before, WS_attrs, WS), (XK_before, XK_attrs, XK), (YE_before, YE_attrs, YE),
   (YT_before, YT_attrs, YT), (ZA_before, ZA_attrs, ZA), (ZM_before, ZM_attrs, ZM), (ZW_before, ZW_attrs, ZW),
   (W800_before, W800_attrs, W800), (W808_before, W808_attrs, W808), (W870_before, W870_attrs, W870),
   (W878_before, W878_attrs, W878), (W881_before, W881_attrs, W881), (W882_before, W882_attrs, W882),
   (W883_before, W883_attrs, W883), (W888_before, W888_attrs, W888), (W979_before, W979_attrs, W979)]

end Phone.Data.X
