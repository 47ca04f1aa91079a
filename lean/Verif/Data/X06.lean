import Verif.Data.XNames
/-! Territories of `/repo/assets/PhoneNumberMetadata.xml` as trees. Generated by `tools/gen_xml.py`; do not edit. -/

set_option maxRecDepth 100000
namespace Phone.Data.X
open Phone.Xml

/-- what stands before this territory -/
noncomputable def GR_before : List Node :=
  [.l4, .comment, .s4, .comment, .s4, .comment, .s4, .comment, .s4]
/-- its attributes -/
noncomputable def GR_attrs : List (Str × Str) := [(n.id, str% "GR"), (n.countryCode, str% "30"), (n.internationalPrefix, str% "00"), (n.mobileNumberPortableRegion, str% "true")]
/-- its content -/
noncomputable def GR : List Node :=
  [.s6,
   .elem n.availableFormats []
    [.s8,
     .elem n.numberFormat [(n.pattern, str% "(\\d{2})(\\d{4})(\\d{4})")]
      [.s10,
       .leaf n.leadingDigits (str% "\n            21|\n            7\n          "), .s10,
       .leaf n.format (str% "$1 $2 $3"), .s8], .s8,
     .elem n.numberFormat [(n.pattern, str% "(\\d{4})(\\d{6})")]
      [.s10,
       .leaf n.leadingDigits (str% "\n            2(?:\n              2|\n              3[2-57-9]|\n              4[2-469]|\n              5[2-59]|\n              6[2-9]|\n              7[2-69]|\n              8[2-49]\n            )|\n            5\n          "), .s10,
       .leaf n.format (str% "$1 $2"), .s8], .s8,
     .elem n.numberFormat [(n.pattern, str% "(\\d{3})(\\d{3})(\\d{4})")]
      [.s10,
       .leaf n.leadingDigits (str% "[2689]"), .s10,
       .leaf n.format (str% "$1 $2 $3"), .s8], .s8,
     .elem n.numberFormat [(n.pattern, str% "(\\d{3})(\\d{3,4})(\\d{5})")]
      [.s10,
       .leaf n.leadingDigits (str% "8"), .s10,
       .leaf n.format (str% "$1 $2 $3"), .s8], .s6], .s6,
   .elem n.generalDesc []
    [.s8,
     .leaf n.nationalNumberPattern (str% "\n          5005000\\d{3}|\n          8\\d{9,11}|\n          (?:\n            [269]\\d|\n            70\n          )\\d{8}\n        "), .s6], .s6,
   .elem n.fixedLine []
    [.s8,
     .empty n.possibleLengths [(n.national, str% "10")], .s8,
     .leaf n.exampleNumber (str% "2123456789"), .s8,
     .leaf n.nationalNumberPattern (str% "\n          2(?:\n            1\\d\\d|\n            2(?:\n              2[1-46-9]|\n              [36][1-8]|\n              4[1-7]|\n              5[1-4]|\n              7[1-5]|\n              [89][1-9]\n            )|\n            3(?:\n              1\\d|\n              2[1-57]|\n              [35][1-3]|\n              4[13]|\n              7[1-7]|\n              8[124-6]|\n              9[1-79]\n            )|\n            4(?:\n              1\\d|\n              2[1-8]|\n              3[1-4]|\n              4[13-5]|\n              6[1-578]|\n              9[1-5]\n            )|\n            5(?:\n              1\\d|\n              [29][1-4]|\n              3[1-5]|\n              4[124]|\n              5[1-6]\n            )|\n            6(?:\n              1\\d|\n              [269][1-6]|\n              3[1245]|\n              4[1-7]|\n              5[13-9]|\n              7[14]|\n              8[1-5]\n            )|\n            7(?:\n              1\\d|\n              2[1-5]|\n              3[1-6]|\n              4[1-7]|\n              5[1-57]|\n              6[135]|\n              9[125-7]\n            )|\n            8(?:\n              1\\d|\n              2[1-5]|\n              [34][1-4]|\n              9[1-57]\n            )\n          )\\d{6}\n        "), .s6], .s6,
   .elem n.mobile []
    [.s8,
     .empty n.possibleLengths [(n.national, str% "10")], .s8,
     .leaf n.exampleNumber (str% "6912345678"), .s8,
     .leaf n.nationalNumberPattern (str% "\n          68[57-9]\\d{7}|\n          (?:\n            69|\n            94\n          )\\d{8}\n        "), .s6], .s6,
   .elem n.tollFree []
    [.s8,
     .empty n.possibleLengths [(n.national, str% "[10-12]")], .s8,
     .leaf n.exampleNumber (str% "8001234567"), .s8,
     .leaf n.nationalNumberPattern (str% "800\\d{7,9}"), .s6], .s6,
   .elem n.premiumRate []
    [.s8,
     .empty n.possibleLengths [(n.national, str% "10")], .s8,
     .leaf n.exampleNumber (str% "9091234567"), .s8,
     .leaf n.nationalNumberPattern (str% "90[19]\\d{7}"), .s6], .s6, .comment, .s6,
   .elem n.sharedCost []
    [.s8,
     .empty n.possibleLengths [(n.national, str% "10")], .s8,
     .leaf n.exampleNumber (str% "8011234567"), .s8,
     .leaf n.nationalNumberPattern (str% "\n          8(?:\n            0[16]|\n            12|\n            [27]5|\n            50\n          )\\d{7}\n        "), .s6], .s6,
   .elem n.personalNumber []
    [.s8,
     .empty n.possibleLengths [(n.national, str% "10")], .s8,
     .leaf n.exampleNumber (str% "7012345678"), .s8,
     .leaf n.nationalNumberPattern (str% "70\\d{8}"), .s6], .s6,
   .elem n.uan []
    [.s8,
     .empty n.possibleLengths [(n.national, str% "10")], .s8,
     .leaf n.exampleNumber (str% "5005000123"), .s8,
     .leaf n.nationalNumberPattern (str% "5005000\\d{3}"), .s6], .s4]

/-- what stands before this territory -/
noncomputable def GT_before : List Node :=
  [.l4, .comment, .s4, .comment, .s4, .comment, .s4, .comment, .s4]
/-- its attributes -/
noncomputable def GT_attrs : List (Str × Str) := [(n.id, str% "GT"), (n.countryCode, str% "502"), (n.internationalPrefix, str% "00")]
/-- its content -/
noncomputable def GT : List Node :=
  [.s6,
   .elem n.availableFormats []
    [.s8,
     .elem n.numberFormat [(n.pattern, str% "(\\d{4})(\\d{4})")]
      [.s10,
       .leaf n.leadingDigits (str% "[2-8]"), .s10,
       .leaf n.format (str% "$1 $2"), .s8], .s8,
     .elem n.numberFormat [(n.pattern, str% "(\\d{4})(\\d{3})(\\d{4})")]
      [.s10,
       .leaf n.leadingDigits (str% "1"), .s10,
       .leaf n.format (str% "$1 $2 $3"), .s8], .s6], .s6,
   .elem n.generalDesc []
    [.s8,
     .leaf n.nationalNumberPattern (str% "\n          80\\d{6}|\n          (?:\n            1\\d{3}|\n            [2-7]\n          )\\d{7}\n        "), .s6], .s6,
   .elem n.fixedLine []
    [.s8,
     .empty n.possibleLengths [(n.national, str% "8")], .s8,
     .leaf n.exampleNumber (str% "22456789"), .s8,
     .leaf n.nationalNumberPattern (str% "[267][2-9]\\d{6}"), .s6], .s6,
   .elem n.mobile []
    [.s8,
     .empty n.possibleLengths [(n.national, str% "8")], .s8,
     .leaf n.exampleNumber (str% "51234567"), .s8,
     .leaf n.nationalNumberPattern (str% "\n          (?:\n            [3-5]\\d\\d|\n            80[0-4]\n          )\\d{5}\n        "), .s6], .s6,
   .elem n.tollFree []
    [.s8,
     .empty n.possibleLengths [(n.national, str% "11")], .s8,
     .leaf n.exampleNumber (str% "18001112222"), .s8,
     .leaf n.nationalNumberPattern (str% "18[01]\\d{8}"), .s6], .s6,
   .elem n.premiumRate []
    [.s8,
     .empty n.possibleLengths [(n.national, str% "11")], .s8,
     .leaf n.exampleNumber (str% "19001112222"), .s8,
     .leaf n.nationalNumberPattern (str% "19\\d{9}"), .s6], .s4]

/-- what stands before this territory -/
noncomputable def GU_before : List Node :=
  [.l4, .comment, .s4, .comment, .s4, .comment, .s4]
/-- its attributes -/
noncomputable def GU_attrs : List (Str × Str) := [(n.id, str% "GU"), (n.countryCode, str% "1"), (n.leadingDigits, str% "671"), (n.internationalPrefix, str% "011"), (n.nationalPrefix, str% "1"), (n.nationalPrefixForParsing, str% "([2-9]\\d{6})$|1"), (n.nationalPrefixTransformRule, str% "671$1")]
/-- its content -/
noncomputable def GU : List Node :=
  [.s6,
   .elem n.generalDesc []
    [.s8,
     .leaf n.nationalNumberPattern (str% "\n          (?:\n            [58]\\d\\d|\n            671|\n            900\n          )\\d{7}\n        "), .s6], .s6, .comment, .s6,
   .elem n.fixedLine []
    [.s8,
     .empty n.possibleLengths [(n.national, str% "10"), (n.localOnly, str% "7")], .s8,
     .leaf n.exampleNumber (str% "6713001234"), .s8,
     .leaf n.nationalNumberPattern (str% "\n          671(?:\n            2\\d\\d|\n            3(?:\n              00|\n              3[39]|\n              4[349]|\n              55|\n              6[26]\n            )|\n            4(?:\n              00|\n              56|\n              7[1-9]|\n              8[02-9]\n            )|\n            5(?:\n              55|\n              6[2-5]|\n              88\n            )|\n            6(?:\n              3[2-578]|\n              4[24-9]|\n              5[34]|\n              78|\n              8[235-9]\n            )|\n            7(?:\n              [0479]7|\n              2[0167]|\n              3[45]|\n              8[7-9]\n            )|\n            8(?:\n              [2-57-9]8|\n              6[478]\n            )|\n            9(?:\n              2[29]|\n              6[79]|\n              7[1279]|\n              8[7-9]|\n              9[16-9]\n            )\n          )\\d{4}\n        "), .s6], .s6, .comment, .s6,
   .elem n.mobile []
    [.s8,
     .empty n.possibleLengths [(n.national, str% "10"), (n.localOnly, str% "7")], .s8,
     .leaf n.exampleNumber (str% "6713001234"), .s8,
     .leaf n.nationalNumberPattern (str% "\n          671(?:\n            2\\d\\d|\n            3(?:\n              00|\n              3[39]|\n              4[349]|\n              55|\n              6[26]\n            )|\n            4(?:\n              00|\n              56|\n              7[1-9]|\n              8[02-9]\n            )|\n            5(?:\n              55|\n              6[2-5]|\n              88\n            )|\n            6(?:\n              3[2-578]|\n              4[24-9]|\n              5[34]|\n              78|\n              8[235-9]\n            )|\n            7(?:\n              [0479]7|\n              2[0167]|\n              3[45]|\n              8[7-9]\n            )|\n            8(?:\n              [2-57-9]8|\n              6[478]\n            )|\n            9(?:\n              2[29]|\n              6[79]|\n              7[1279]|\n              8[7-9]|\n              9[16-9]\n            )\n          )\\d{4}\n        "), .s6], .s6,
   .elem n.tollFree []
    [.s8,
     .empty n.possibleLengths [(n.national, str% "10")], .s8,
     .leaf n.exampleNumber (str% "8002123456"), .s8,
     .leaf n.nationalNumberPattern (str% "\n          8(?:\n            00|\n            33|\n            44|\n            55|\n            66|\n            77|\n            88\n          )[2-9]\\d{6}\n        "), .s6], .s6,
   .elem n.premiumRate []
    [.s8,
     .empty n.possibleLengths [(n.national, str% "10")], .s8,
     .leaf n.exampleNumber (str% "9002123456"), .s8,
     .leaf n.nationalNumberPattern (str% "900[2-9]\\d{6}"), .s6], .s6, .comment, .s6,
   .elem n.personalNumber []
    [.s8,
     .empty n.possibleLengths [(n.national, str% "10")], .s8,
     .leaf n.exampleNumber (str% "5002345678"), .s8,
     .leaf n.nationalNumberPattern (str% "\n          52(?:\n            3(?:\n              [2-46-9][02-9]\\d|\n              5(?:\n                [02-46-9]\\d|\n                5[0-46-9]\n              )\n            )|\n            4(?:\n              [2-478][02-9]\\d|\n              5(?:\n                [034]\\d|\n                2[024-9]|\n                5[0-46-9]\n              )|\n              6(?:\n                0[1-9]|\n                [2-9]\\d\n              )|\n              9(?:\n                [05-9]\\d|\n                2[0-5]|\n                49\n              )\n            )\n          )\\d{4}|\n          52[34][2-9]1[02-9]\\d{4}|\n          5(?:\n            00|\n            2[125-9]|\n            3[23]|\n            44|\n            66|\n            77|\n            88\n          )[2-9]\\d{6}\n        "), .s6], .s4]

/-- what stands before this territory -/
noncomputable def GW_before : List Node :=
  [.l4, .comment, .s4, .comment, .s4]
/-- its attributes -/
noncomputable def GW_attrs : List (Str × Str) := [(n.id, str% "GW"), (n.countryCode, str% "245"), (n.internationalPrefix, str% "00")]
/-- its content -/
noncomputable def GW : List Node :=
  [.s6,
   .elem n.availableFormats []
    [.s8,
     .elem n.numberFormat [(n.pattern, str% "(\\d{3})(\\d{4})")]
      [.s10,
       .leaf n.leadingDigits (str% "40"), .s10,
       .leaf n.format (str% "$1 $2"), .s8], .s8,
     .elem n.numberFormat [(n.pattern, str% "(\\d{3})(\\d{3})(\\d{3})")]
      [.s10,
       .leaf n.leadingDigits (str% "[49]"), .s10,
       .leaf n.format (str% "$1 $2 $3"), .s8], .s6], .s6,
   .elem n.generalDesc []
    [.s8,
     .leaf n.nationalNumberPattern (str% "\n          [49]\\d{8}|\n          4\\d{6}\n        "), .s6], .s6,
   .elem n.fixedLine []
    [.s8,
     .empty n.possibleLengths [(n.national, str% "9")], .s8,
     .leaf n.exampleNumber (str% "443201234"), .s8,
     .leaf n.nationalNumberPattern (str% "443\\d{6}"), .s6], .s6,
   .elem n.mobile []
    [.s8,
     .empty n.possibleLengths [(n.national, str% "9")], .s8,
     .leaf n.exampleNumber (str% "955012345"), .s8,
     .leaf n.nationalNumberPattern (str% "\n          9(?:\n            5\\d|\n            6[569]|\n            77\n          )\\d{6}\n        "), .s6], .s6,
   .elem n.voip []
    [.s8,
     .empty n.possibleLengths [(n.national, str% "7")], .s8,
     .leaf n.exampleNumber (str% "4012345"), .s8,
     .leaf n.nationalNumberPattern (str% "40\\d{5}"), .s6], .s4]

/-- what stands before this territory -/
noncomputable def GY_before : List Node :=
  [.l4, .comment, .s4, .comment, .s4]
/-- its attributes -/
noncomputable def GY_attrs : List (Str × Str) := [(n.id, str% "GY"), (n.countryCode, str% "592"), (n.internationalPrefix, str% "001")]
/-- its content -/
noncomputable def GY : List Node :=
  [.s6,
   .elem n.availableFormats []
    [.s8,
     .elem n.numberFormat [(n.pattern, str% "(\\d{3})(\\d{4})")]
      [.s10,
       .leaf n.leadingDigits (str% "[2-9]"), .s10,
       .leaf n.format (str% "$1 $2"), .s8], .s6], .s6,
   .elem n.generalDesc []
    [.s8,
     .leaf n.nationalNumberPattern (str% "\n          (?:\n            [2-8]\\d{3}|\n            9008\n          )\\d{3}\n        "), .s6], .s6,
   .elem n.fixedLine []
    [.s8,
     .empty n.possibleLengths [(n.national, str% "7")], .s8,
     .leaf n.exampleNumber (str% "2201234"), .s8,
     .leaf n.nationalNumberPattern (str% "\n          (?:\n            2(?:\n              1[6-9]|\n              2[0-35-9]|\n              3[1-4]|\n              5[3-9]|\n              6\\d|\n              7[0-79]\n            )|\n            3(?:\n              2[25-9]|\n              3\\d\n            )|\n            4(?:\n              4[0-24]|\n              5[56]\n            )|\n            50[0-6]|\n            77[1-57]\n          )\\d{4}\n        "), .s6], .s6, .comment, .s6,
   .elem n.mobile []
    [.s8,
     .empty n.possibleLengths [(n.national, str% "7")], .s8,
     .leaf n.exampleNumber (str% "6091234"), .s8,
     .leaf n.nationalNumberPattern (str% "\n          (?:\n            51[01]|\n            6\\d\\d|\n            7(?:\n              [0-5]\\d|\n              6[0-79]|\n              70\n            )\n          )\\d{4}\n        "), .s6], .s6,
   .elem n.tollFree []
    [.s8,
     .empty n.possibleLengths [(n.national, str% "7")], .s8,
     .leaf n.exampleNumber (str% "2891234"), .s8,
     .leaf n.nationalNumberPattern (str% "\n          (?:\n            289|\n            8(?:\n              00|\n              6[28]|\n              88|\n              99\n            )\n          )\\d{4}\n        "), .s6], .s6,
   .elem n.premiumRate []
    [.s8,
     .empty n.possibleLengths [(n.national, str% "7")], .s8,
     .leaf n.exampleNumber (str% "9008123"), .s8,
     .leaf n.nationalNumberPattern (str% "9008\\d{3}"), .s6], .s6,
   .elem n.voip []
    [.s8,
     .empty n.possibleLengths [(n.national, str% "7")], .s8,
     .leaf n.exampleNumber (str% "5151234"), .s8,
     .leaf n.nationalNumberPattern (str% "515\\d{4}"), .s6], .s4]

/-- what stands before this territory -/
noncomputable def HK_before : List Node :=
  [.l4, .comment, .s4, .comment, .s4]
/-- its attributes -/
noncomputable def HK_attrs : List (Str × Str) := [(n.id, str% "HK"), (n.countryCode, str% "852"), (n.preferredInternationalPrefix, str% "00"), (n.internationalPrefix, str% "00(?:30|5[09]|[126-9]?)"), (n.mobileNumberPortableRegion, str% "true")]
/-- its content -/
noncomputable def HK : List Node :=
  [.s6,
   .elem n.availableFormats []
    [.s8,
     .elem n.numberFormat [(n.pattern, str% "(\\d{3})(\\d{2,5})")]
      [.s10,
       .leaf n.leadingDigits (str% "900"), .s10,
       .leaf n.leadingDigits (str% "9003"), .s10,
       .leaf n.format (str% "$1 $2"), .s8], .s8,
     .elem n.numberFormat [(n.pattern, str% "(\\d{4})(\\d{4})")]
      [.s10,
       .leaf n.leadingDigits (str% "\n            [2-7]|\n            8[1-4]|\n            9(?:\n              0[1-9]|\n              [1-8]\n            )\n          "), .s10,
       .leaf n.format (str% "$1 $2"), .s8], .s8,
     .elem n.numberFormat [(n.pattern, str% "(\\d{3})(\\d{3})(\\d{3})")]
      [.s10,
       .leaf n.leadingDigits (str% "8"), .s10,
       .leaf n.format (str% "$1 $2 $3"), .s8], .s8,
     .elem n.numberFormat [(n.pattern, str% "(\\d{3})(\\d{2})(\\d{3})(\\d{3})")]
      [.s10,
       .leaf n.leadingDigits (str% "9"), .s10,
       .leaf n.format (str% "$1 $2 $3 $4"), .s8], .s6], .s6,
   .elem n.generalDesc []
    [.s8,
     .leaf n.nationalNumberPattern (str% "\n          8[0-46-9]\\d{6,7}|\n          9\\d{4,7}|\n          (?:\n            [2-7]|\n            9\\d{3}\n          )\\d{7}\n        "), .s6], .s6,
   .elem n.fixedLine []
    [.s8,
     .empty n.possibleLengths [(n.national, str% "8")], .s8,
     .leaf n.exampleNumber (str% "21234567"), .s8,
     .leaf n.nationalNumberPattern (str% "\n          (?:\n            2(?:\n              [13-9]\\d|\n              2[013-9]\n            )\\d|\n            3(?:\n              (?:\n                [1569][0-24-9]|\n                4[0-246-9]|\n                7[0-24-69]\n              )\\d|\n              8(?:\n                4[0-8]|\n                [579]\\d|\n                6[0-5]\n              )\n            )|\n            58(?:\n              0[1-9]|\n              1[2-9]\n            )\n          )\\d{4}\n        "), .s6], .s6, .comment, .s6,
   .elem n.mobile []
    [.s8,
     .empty n.possibleLengths [(n.national, str% "8")], .s8,
     .leaf n.exampleNumber (str% "51234567"), .s8,
     .leaf n.nationalNumberPattern (str% "\n          (?:\n            4(?:\n              (?:\n                09|\n                24\n              )[3-6]|\n              44[0-35-9]|\n              6(?:\n                4[0-57-9]|\n                6[0-6]\n              )|\n              7(?:\n                4[0-48]|\n                6[0-5]\n              )\n            )|\n            5(?:\n              25[3-7]|\n              35[4-8]|\n              73[0-6]|\n              95[0-8]\n            )|\n            6(?:\n              26[013-8]|\n              (?:\n                66|\n                78\n              )[0-5]\n            )|\n            70(?:\n              7[1-8]|\n              8[0-8]\n            )|\n            84(?:\n              4[0-2]|\n              8[0-35-9]\n            )|\n            9(?:\n              29[013-9]|\n              39[014-9]|\n              59[0-467]|\n              899\n            )\n          )\\d{4}|\n          (?:\n            4(?:\n              4[0-35-9]|\n              6[0-357-9]|\n              7[0-35]\n            )|\n            5(?:\n              [1-59][0-46-9]|\n              6[0-4689]|\n              7[0-246-9]\n            )|\n            6(?:\n              0[1-9]|\n              [13-59]\\d|\n              [268][0-57-9]|\n              7[0-79]\n            )|\n            70[1-59]|\n            84[0-39]|\n            9(?:\n              0[1-9]|\n              1[02-9]|\n              [2358][0-8]|\n              [467]\\d\n            )\n          )\\d{5}\n        "), .s6], .s6,
   .elem n.pager []
    [.s8,
     .empty n.possibleLengths [(n.national, str% "8")], .s8,
     .leaf n.exampleNumber (str% "71123456"), .s8,
     .leaf n.nationalNumberPattern (str% "\n          7(?:\n            1(?:\n              0[0-38]|\n              1[0-3679]|\n              3[013]|\n              69|\n              9[0136]\n            )|\n            2(?:\n              [02389]\\d|\n              1[18]|\n              7[27-9]\n            )|\n            3(?:\n              [0-38]\\d|\n              7[0-369]|\n              9[2357-9]\n            )|\n            47\\d|\n            5(?:\n              [178]\\d|\n              5[0-5]\n            )|\n            6(?:\n              0[0-7]|\n              2[236-9]|\n              [35]\\d\n            )|\n            7(?:\n              [27]\\d|\n              8[7-9]\n            )|\n            8(?:\n              [23689]\\d|\n              7[1-9]\n            )|\n            9(?:\n              [025]\\d|\n              6[0-246-8]|\n              7[0-36-9]|\n              8[238]\n            )\n          )\\d{4}\n        "), .s6], .s6,
   .elem n.tollFree []
    [.s8,
     .empty n.possibleLengths [(n.national, str% "9")], .s8,
     .leaf n.exampleNumber (str% "800123456"), .s8,
     .leaf n.nationalNumberPattern (str% "800\\d{6}"), .s6], .s6,
   .elem n.premiumRate []
    [.s8,
     .empty n.possibleLengths [(n.national, str% "[5-8],11")], .s8,
     .leaf n.exampleNumber (str% "90012345678"), .s8,
     .leaf n.nationalNumberPattern (str% "\n          900(?:\n            [0-24-9]\\d{7}|\n            3\\d{1,4}\n          )\n        "), .s6], .s6,
   .elem n.personalNumber []
    [.s8,
     .empty n.possibleLengths [(n.national, str% "8")], .s8,
     .leaf n.exampleNumber (str% "81123456"), .s8,
     .leaf n.nationalNumberPattern (str% "\n          8(?:\n            1[0-4679]\\d|\n            2(?:\n              [0-36]\\d|\n              7[0-4]\n            )|\n            3(?:\n              [034]\\d|\n              2[09]|\n              70\n            )\n          )\\d{4}\n        "), .s6], .s6, .comment, .s6,
   .elem n.uan []
    [.s8,
     .empty n.possibleLengths [(n.national, str% "8")], .s8,
     .leaf n.exampleNumber (str% "30161234"), .s8,
     .leaf n.nationalNumberPattern (str% "\n          30(?:\n            0[1-9]|\n            [15-7]\\d|\n            2[047]|\n            89\n          )\\d{4}\n        "), .s6], .s4]

/-- what stands before this territory -/
noncomputable def HN_before : List Node :=
  [.l4, .comment, .s4, .comment, .s4, .comment, .s4]
/-- its attributes -/
noncomputable def HN_attrs : List (Str × Str) := [(n.id, str% "HN"), (n.countryCode, str% "504"), (n.internationalPrefix, str% "00")]
/-- its content -/
noncomputable def HN : List Node :=
  [.s6,
   .elem n.availableFormats []
    [.s8,
     .elem n.numberFormat [(n.pattern, str% "(\\d{4})(\\d{4})")]
      [.s10,
       .leaf n.leadingDigits (str% "[237-9]"), .s10,
       .leaf n.format (str% "$1-$2"), .s8], .s8,
     .elem n.numberFormat [(n.pattern, str% "(\\d{3})(\\d{4})(\\d{4})")]
      [.s10,
       .leaf n.leadingDigits (str% "8"), .s10,
       .leaf n.format (str% "$1 $2 $3"), .s10,
       .leaf n.intlFormat (str% "NA"), .s8], .s6], .s6,
   .elem n.generalDesc []
    [.s8,
     .leaf n.nationalNumberPattern (str% "\n          8\\d{10}|\n          [237-9]\\d{7}\n        "), .s6], .s6,
   .elem n.noInternationalDialling []
    [.s8,
     .empty n.possibleLengths [(n.national, str% "11")], .s8,
     .leaf n.nationalNumberPattern (str% "8002\\d{7}"), .s6], .s6, .comment, .s6,
   .elem n.fixedLine []
    [.s8,
     .empty n.possibleLengths [(n.national, str% "8")], .s8,
     .leaf n.exampleNumber (str% "22123456"), .s8,
     .leaf n.nationalNumberPattern (str% "\n          2(?:\n            2(?:\n              0[0-59]|\n              1[1-9]|\n              [23]\\d|\n              4[02-7]|\n              5[57]|\n              6[245]|\n              7[0135689]|\n              8[01346-9]|\n              9[0-2]\n            )|\n            4(?:\n              0[578]|\n              2[3-59]|\n              3[13-9]|\n              4[0-68]|\n              5[1-3589]\n            )|\n            5(?:\n              0[2357-9]|\n              1[1-356]|\n              4[03-5]|\n              5\\d|\n              6[014-69]|\n              7[04]|\n              80\n            )|\n            6(?:\n              [056]\\d|\n              17|\n              2[067]|\n              3[047]|\n              4[0-378]|\n              [78][0-8]|\n              9[01]\n            )|\n            7(?:\n              0[5-79]|\n              6[46-9]|\n              7[02-9]|\n              8[034]|\n              91\n            )|\n            8(?:\n              79|\n              8[0-357-9]|\n              9[1-57-9]\n            )\n          )\\d{4}\n        "), .s6], .s6,
   .elem n.mobile []
    [.s8,
     .empty n.possibleLengths [(n.national, str% "8")], .s8,
     .leaf n.exampleNumber (str% "91234567"), .s8,
     .leaf n.nationalNumberPattern (str% "[37-9]\\d{7}"), .s6], .s6,
   .elem n.tollFree []
    [.s8,
     .empty n.possibleLengths [(n.national, str% "11")], .s8,
     .leaf n.exampleNumber (str% "80021234567"), .s8,
     .leaf n.nationalNumberPattern (str% "8002\\d{7}"), .s6], .s4]

/-- what stands before this territory -/
noncomputable def HR_before : List Node :=
  [.l4, .comment, .s4, .comment, .s4, .comment, .s4]
/-- its attributes -/
noncomputable def HR_attrs : List (Str × Str) := [(n.id, str% "HR"), (n.countryCode, str% "385"), (n.internationalPrefix, str% "00"), (n.nationalPrefix, str% "0"), (n.mobileNumberPortableRegion, str% "true")]
/-- its content -/
noncomputable def HR : List Node :=
  [.s6,
   .elem n.availableFormats []
    [.s8, .comment, .s8,
     .elem n.numberFormat [(n.pattern, str% "(\\d{2})(\\d{2})(\\d{3})"), (n.nationalPrefixFormattingRule, str% "$NP$FG")]
      [.s10,
       .leaf n.leadingDigits (str% "6[01]"), .s10,
       .leaf n.format (str% "$1 $2 $3"), .s8], .s8,
     .elem n.numberFormat [(n.pattern, str% "(\\d{3})(\\d{2})(\\d{2,3})"), (n.nationalPrefixFormattingRule, str% "$NP$FG")]
      [.s10,
       .leaf n.leadingDigits (str% "8"), .s10,
       .leaf n.format (str% "$1 $2 $3"), .s8], .s8, .comment, .s8,
     .elem n.numberFormat [(n.pattern, str% "(\\d)(\\d{4})(\\d{3})"), (n.nationalPrefixFormattingRule, str% "$NP$FG")]
      [.s10,
       .leaf n.leadingDigits (str% "1"), .s10,
       .leaf n.format (str% "$1 $2 $3"), .s8], .s8, .comment, .s8,
     .elem n.numberFormat [(n.pattern, str% "(\\d{2})(\\d{3})(\\d{3,4})"), (n.nationalPrefixFormattingRule, str% "$NP$FG")]
      [.s10,
       .leaf n.leadingDigits (str% "\n            6|\n            7[245]\n          "), .s10,
       .leaf n.format (str% "$1 $2 $3"), .s8], .s8, .comment, .s8,
     .elem n.numberFormat [(n.pattern, str% "(\\d{2})(\\d{3})(\\d{3,4})"), (n.nationalPrefixFormattingRule, str% "$NP$FG")]
      [.s10,
       .leaf n.leadingDigits (str% "9"), .s10,
       .leaf n.format (str% "$1 $2 $3"), .s8], .s8,
     .elem n.numberFormat [(n.pattern, str% "(\\d{2})(\\d{3})(\\d{3,4})"), (n.nationalPrefixFormattingRule, str% "$NP$FG")]
      [.s10,
       .leaf n.leadingDigits (str% "[2-57]"), .s10,
       .leaf n.format (str% "$1 $2 $3"), .s8], .s8,
     .elem n.numberFormat [(n.pattern, str% "(\\d{3})(\\d{3})(\\d{3})"), (n.nationalPrefixFormattingRule, str% "$NP$FG")]
      [.s10,
       .leaf n.leadingDigits (str% "8"), .s10,
       .leaf n.format (str% "$1 $2 $3"), .s8], .s6], .s6,
   .elem n.generalDesc []
    [.s8,
     .leaf n.nationalNumberPattern (str% "\n          [2-69]\\d{8}|\n          80\\d{5,7}|\n          [1-79]\\d{7}|\n          6\\d{6}\n        "), .s6], .s6,
   .elem n.fixedLine []
    [.s8,
     .empty n.possibleLengths [(n.national, str% "8,9"), (n.localOnly, str% "6,7")], .s8,
     .leaf n.exampleNumber (str% "12345678"), .s8,
     .leaf n.nationalNumberPattern (str% "\n          1\\d{7}|\n          (?:\n            2[0-3]|\n            3[1-5]|\n            4[02-47-9]|\n            5[1-3]\n          )\\d{6,7}\n        "), .s6], .s6,
   .elem n.mobile []
    [.s8,
     .empty n.possibleLengths [(n.national, str% "8,9")], .s8,
     .leaf n.exampleNumber (str% "921234567"), .s8,
     .leaf n.nationalNumberPattern (str% "\n          9(?:\n            (?:\n              0[1-9]|\n              [12589]\\d\n            )\\d\\d|\n            7(?:\n              [0679]\\d\\d|\n              5(?:\n                [01]\\d|\n                44|\n                55|\n                77|\n                9[5-79]\n              )\n            )\n          )\\d{4}|\n          98\\d{6}\n        "), .s6], .s6,
   .elem n.tollFree []
    [.s8,
     .empty n.possibleLengths [(n.national, str% "[7-9]")], .s8,
     .leaf n.exampleNumber (str% "800123456"), .s8,
     .leaf n.nationalNumberPattern (str% "80\\d{5,7}"), .s6], .s6,
   .elem n.premiumRate []
    [.s8,
     .empty n.possibleLengths [(n.national, str% "7,8")], .s8,
     .leaf n.exampleNumber (str% "6001234"), .s8,
     .leaf n.nationalNumberPattern (str% "\n          6[01459]\\d{6}|\n          6[01]\\d{5}\n        "), .s6], .s6,
   .elem n.personalNumber []
    [.s8,
     .empty n.possibleLengths [(n.national, str% "8")], .s8,
     .leaf n.exampleNumber (str% "74123456"), .s8,
     .leaf n.nationalNumberPattern (str% "7[45]\\d{6}"), .s6], .s6, .comment, .s6,
   .elem n.uan []
    [.s8,
     .empty n.possibleLengths [(n.national, str% "8,9")], .s8,
     .leaf n.exampleNumber (str% "62123456"), .s8,
     .leaf n.nationalNumberPattern (str% "\n          62\\d{6,7}|\n          72\\d{6}\n        "), .s6], .s4]

/-- what stands before this territory -/
noncomputable def HT_before : List Node :=
  [.l4, .comment, .s4, .comment, .s4, .comment, .s4]
/-- its attributes -/
noncomputable def HT_attrs : List (Str × Str) := [(n.id, str% "HT"), (n.countryCode, str% "509"), (n.internationalPrefix, str% "00")]
/-- its content -/
noncomputable def HT : List Node :=
  [.s6,
   .elem n.availableFormats []
    [.s8,
     .elem n.numberFormat [(n.pattern, str% "(\\d{2})(\\d{2})(\\d{4})")]
      [.s10,
       .leaf n.leadingDigits (str% "[2-589]"), .s10,
       .leaf n.format (str% "$1 $2 $3"), .s8], .s6], .s6,
   .elem n.generalDesc []
    [.s8,
     .leaf n.nationalNumberPattern (str% "[2-589]\\d{7}"), .s6], .s6, .comment, .s6,
   .elem n.fixedLine []
    [.s8,
     .empty n.possibleLengths [(n.national, str% "8")], .s8,
     .leaf n.exampleNumber (str% "22453300"), .s8,
     .leaf n.nationalNumberPattern (str% "\n          2(?:\n            2\\d|\n            5[1-5]|\n            81|\n            9[149]\n          )\\d{5}\n        "), .s6], .s6, .comment, .s6,
   .elem n.mobile []
    [.s8,
     .empty n.possibleLengths [(n.national, str% "8")], .s8,
     .leaf n.exampleNumber (str% "34101234"), .s8,
     .leaf n.nationalNumberPattern (str% "\n          (?:\n            [34]\\d|\n            5[568]\n          )\\d{6}\n        "), .s6], .s6, .comment, .s6,
   .elem n.tollFree []
    [.s8,
     .empty n.possibleLengths [(n.national, str% "8")], .s8,
     .leaf n.exampleNumber (str% "80012345"), .s8,
     .leaf n.nationalNumberPattern (str% "8\\d{7}"), .s6], .s6, .comment, .s6,
   .elem n.voip []
    [.s8,
     .empty n.possibleLengths [(n.national, str% "8")], .s8,
     .leaf n.exampleNumber (str% "98901234"), .s8,
     .leaf n.nationalNumberPattern (str% "\n          9(?:\n            [67][0-4]|\n            8[0-3589]|\n            9\\d\n          )\\d{5}\n        "), .s6], .s4]

/-- what stands before this territory -/
noncomputable def HU_before : List Node :=
  [.l4, .comment, .s4, .comment, .s4, .comment, .s4]
/-- its attributes -/
noncomputable def HU_attrs : List (Str × Str) := [(n.id, str% "HU"), (n.countryCode, str% "36"), (n.internationalPrefix, str% "00"), (n.nationalPrefix, str% "06"), (n.mobileNumberPortableRegion, str% "true")]
/-- its content -/
noncomputable def HU : List Node :=
  [.s6,
   .elem n.availableFormats []
    [.s8,
     .elem n.numberFormat [(n.pattern, str% "(\\d)(\\d{3})(\\d{4})"), (n.nationalPrefixFormattingRule, str% "($NP $FG)")]
      [.s10,
       .leaf n.leadingDigits (str% "1"), .s10,
       .leaf n.format (str% "$1 $2 $3"), .s8], .s8,
     .elem n.numberFormat [(n.pattern, str% "(\\d{2})(\\d{3})(\\d{3})"), (n.nationalPrefixFormattingRule, str% "($NP $FG)")]
      [.s10,
       .leaf n.leadingDigits (str% "\n            [27][2-9]|\n            3[2-7]|\n            4[24-9]|\n            5[2-79]|\n            6|\n            8[2-57-9]|\n            9[2-69]\n          "), .s10,
       .leaf n.format (str% "$1 $2 $3"), .s8], .s8,
     .elem n.numberFormat [(n.pattern, str% "(\\d{2})(\\d{3})(\\d{3,4})"), (n.nationalPrefixFormattingRule, str% "$NP $FG")]
      [.s10,
       .leaf n.leadingDigits (str% "[2-9]"), .s10,
       .leaf n.format (str% "$1 $2 $3"), .s8], .s6], .s6,
   .elem n.generalDesc []
    [.s8,
     .leaf n.nationalNumberPattern (str% "\n          [235-7]\\d{8}|\n          [1-9]\\d{7}\n        "), .s6], .s6,
   .elem n.noInternationalDialling []
    [.s8,
     .empty n.possibleLengths [(n.national, str% "8,9")], .s8,
     .leaf n.nationalNumberPattern (str% "\n          (?:\n            [48]0\\d|\n            680[29]\n          )\\d{5}\n        "), .s6], .s6,
   .elem n.fixedLine []
    [.s8,
     .empty n.possibleLengths [(n.national, str% "8"), (n.localOnly, str% "6,7")], .s8,
     .leaf n.exampleNumber (str% "12345678"), .s8,
     .leaf n.nationalNumberPattern (str% "\n          (?:\n            1\\d|\n            [27][2-9]|\n            3[2-7]|\n            4[24-9]|\n            5[2-79]|\n            6[23689]|\n            8[2-57-9]|\n            9[2-69]\n          )\\d{6}\n        "), .s6], .s6,
   .elem n.mobile []
    [.s8,
     .empty n.possibleLengths [(n.national, str% "9")], .s8,
     .leaf n.exampleNumber (str% "201234567"), .s8,
     .leaf n.nationalNumberPattern (str% "\n          (?:\n            [257]0|\n            3[01]\n          )\\d{7}\n        "), .s6], .s6, .comment, .s6,
   .elem n.tollFree []
    [.s8,
     .empty n.possibleLengths [(n.national, str% "8,9")], .s8,
     .leaf n.exampleNumber (str% "80123456"), .s8,
     .leaf n.nationalNumberPattern (str% "\n          (?:\n            [48]0\\d|\n            680[29]\n          )\\d{5}\n        "), .s6], .s6,
   .elem n.premiumRate []
    [.s8,
     .empty n.possibleLengths [(n.national, str% "8")], .s8,
     .leaf n.exampleNumber (str% "90123456"), .s8,
     .leaf n.nationalNumberPattern (str% "9[01]\\d{6}"), .s6], .s6, .comment, .s6,
   .elem n.voip []
    [.s8,
     .empty n.possibleLengths [(n.national, str% "9")], .s8,
     .leaf n.exampleNumber (str% "211234567"), .s8,
     .leaf n.nationalNumberPattern (str% "21\\d{7}"), .s6], .s6, .comment, .s6,
   .elem n.uan []
    [.s8,
     .empty n.possibleLengths [(n.national, str% "9")], .s8,
     .leaf n.exampleNumber (str% "381234567"), .s8,
     .leaf n.nationalNumberPattern (str% "38\\d{7}"), .s6], .s4]

/-- what stands before this territory -/
noncomputable def ID_before : List Node :=
  [.l4, .comment, .s4, .comment, .s4, .comment, .s4, .comment, .s4]
/-- its attributes -/
noncomputable def ID_attrs : List (Str × Str) := [(n.id, str% "ID"), (n.countryCode, str% "62"), (n.internationalPrefix, str% "00[89]"), (n.nationalPrefix, str% "0")]
/-- its content -/
noncomputable def ID : List Node :=
  [.s6,
   .elem n.availableFormats []
    [.s8, .comment, .s8,
     .elem n.numberFormat [(n.pattern, str% "(\\d)(\\d{3})(\\d{3})")]
      [.s10,
       .leaf n.leadingDigits (str% "15"), .s10,
       .leaf n.format (str% "$1 $2 $3"), .s8], .s8, .comment, .s8,
     .elem n.numberFormat [(n.pattern, str% "(\\d{2})(\\d{5,9})"), (n.nationalPrefixFormattingRule, str% "($NP$FG)")]
      [.s10,
       .leaf n.leadingDigits (str% "\n            2[124]|\n            [36]1\n          "), .s10,
       .leaf n.format (str% "$1 $2"), .s8], .s8, .comment, .s8,
     .elem n.numberFormat [(n.pattern, str% "(\\d{3})(\\d{5,7})"), (n.nationalPrefixFormattingRule, str% "$NP$FG")]
      [.s10,
       .leaf n.leadingDigits (str% "800"), .s10,
       .leaf n.format (str% "$1 $2"), .s8], .s8, .comment, .s8,
     .elem n.numberFormat [(n.pattern, str% "(\\d{3})(\\d{5,8})"), (n.nationalPrefixFormattingRule, str% "($NP$FG)")]
      [.s10,
       .leaf n.leadingDigits (str% "[2-79]"), .s10,
       .leaf n.format (str% "$1 $2"), .s8], .s8, .comment, .s8,
     .elem n.numberFormat [(n.pattern, str% "(\\d{3})(\\d{3,4})(\\d{3})"), (n.nationalPrefixFormattingRule, str% "$NP$FG")]
      [.s10,
       .leaf n.leadingDigits (str% "8[1-35-9]"), .s10,
       .leaf n.format (str% "$1-$2-$3"), .s8], .s8, .comment, .s8,
     .elem n.numberFormat [(n.pattern, str% "(\\d{3})(\\d{6,8})"), (n.nationalPrefixFormattingRule, str% "$NP$FG")]
      [.s10,
       .leaf n.leadingDigits (str% "1"), .s10,
       .leaf n.format (str% "$1 $2"), .s8], .s8, .comment, .s8,
     .elem n.numberFormat [(n.pattern, str% "(\\d{3})(\\d{3})(\\d{4})"), (n.nationalPrefixFormattingRule, str% "$NP$FG")]
      [.s10,
       .leaf n.leadingDigits (str% "804"), .s10,
       .leaf n.format (str% "$1 $2 $3"), .s8], .s8, .comment, .s8,
     .elem n.numberFormat [(n.pattern, str% "(\\d{3})(\\d)(\\d{3})(\\d{3})"), (n.nationalPrefixFormattingRule, str% "$NP$FG")]
      [.s10,
       .leaf n.leadingDigits (str% "80"), .s10,
       .leaf n.format (str% "$1 $2 $3 $4"), .s8], .s8, .comment, .s8,
     .elem n.numberFormat [(n.pattern, str% "(\\d{3})(\\d{4})(\\d{4,5})"), (n.nationalPrefixFormattingRule, str% "$NP$FG")]
      [.s10,
       .leaf n.leadingDigits (str% "8"), .s10,
       .leaf n.format (str% "$1-$2-$3"), .s8], .s8, .comment, .s8,
     .elem n.numberFormat [(n.pattern, str% "(\\d{3})(\\d{3})(\\d{3})(\\d{2,8})")]
      [.s10,
       .leaf n.leadingDigits (str% "001"), .s10,
       .leaf n.format (str% "$1 $2 $3 $4"), .s10,
       .leaf n.intlFormat (str% "NA"), .s8], .s8, .comment, .s8,
     .elem n.numberFormat [(n.pattern, str% "(\\d{2})(\\d{4})(\\d{3})(\\d{4})")]
      [.s10,
       .leaf n.leadingDigits (str% "0"), .s10,
       .leaf n.format (str% "$1 $2 $3 $4"), .s10,
       .leaf n.intlFormat (str% "NA"), .s8], .s6], .s6,
   .elem n.generalDesc []
    [.s8,
     .leaf n.nationalNumberPattern (str% "\n          00[1-9]\\d{9,14}|\n          (?:\n            [1-36]|\n            8\\d{5}\n          )\\d{6}|\n          00\\d{9}|\n          [1-9]\\d{8,10}|\n          [2-9]\\d{7}\n        "), .s6], .s6, .comment, .s6,
   .elem n.noInternationalDialling []
    [.s8,
     .empty n.possibleLengths [(n.national, str% "[10-17]")], .s8,
     .leaf n.nationalNumberPattern (str% "\n          001803\\d{5,11}|\n          (?:\n            007803\\d|\n            8071\n          )\\d{6}\n        "), .s6], .s6, .comment, .s6, .comment, .s6, .comment, .s6,
   .elem n.fixedLine []
    [.s8,
     .empty n.possibleLengths [(n.national, str% "[7-11]"), (n.localOnly, str% "5,6")], .s8,
     .leaf n.exampleNumber (str% "218350123"), .s8,
     .leaf n.nationalNumberPattern (str% "\n          2[124]\\d{7,8}|\n          619\\d{8}|\n          2(?:\n            1(?:\n              14|\n              500\n            )|\n            2\\d{3}\n          )\\d{3}|\n          61\\d{5,8}|\n          (?:\n            2(?:\n              [35][1-4]|\n              6[0-8]|\n              7[1-6]|\n              8\\d|\n              9[1-8]\n            )|\n            3(?:\n              1|\n              [25][1-8]|\n              3[1-68]|\n              4[1-3]|\n              6[1-3568]|\n              7[0-469]|\n              8\\d\n            )|\n            4(?:\n              0[1-589]|\n              1[01347-9]|\n              2[0-36-8]|\n              3[0-24-68]|\n              43|\n              5[1-378]|\n              6[1-5]|\n              7[134]|\n              8[1245]\n            )|\n            5(?:\n              1[1-35-9]|\n              2[25-8]|\n              3[124-9]|\n              4[1-3589]|\n              5[1-46]|\n              6[1-8]\n            )|\n            6(?:\n              [25]\\d|\n              3[1-69]|\n              4[1-6]\n            )|\n            7(?:\n              02|\n              [125][1-9]|\n              [36]\\d|\n              4[1-8]|\n              7[0-36-9]\n            )|\n            9(?:\n              0[12]|\n              1[013-8]|\n              2[0-479]|\n              5[125-8]|\n              6[23679]|\n              7[159]|\n              8[01346]\n            )\n          )\\d{5,8}\n        "), .s6], .s6,
   .elem n.mobile []
    [.s8,
     .empty n.possibleLengths [(n.national, str% "[9-12]")], .s8,
     .leaf n.exampleNumber (str% "812345678"), .s8,
     .leaf n.nationalNumberPattern (str% "8[1-35-9]\\d{7,10}"), .s6], .s6,
   .elem n.tollFree []
    [.s8,
     .empty n.possibleLengths [(n.national, str% "[8-17]")], .s8,
     .leaf n.exampleNumber (str% "8001234567"), .s8,
     .leaf n.nationalNumberPattern (str% "\n          00(?:\n            1803\\d{5,11}|\n            7803\\d{7}\n          )|\n          (?:\n            177\\d|\n            800\n          )\\d{5,7}\n        "), .s6], .s6, .comment, .s6,
   .elem n.premiumRate []
    [.s8,
     .empty n.possibleLengths [(n.national, str% "10")], .s8,
     .leaf n.exampleNumber (str% "8091234567"), .s8,
     .leaf n.nationalNumberPattern (str% "809\\d{7}"), .s6], .s6,
   .elem n.sharedCost []
    [.s8,
     .empty n.possibleLengths [(n.national, str% "10")], .s8,
     .leaf n.exampleNumber (str% "8041234567"), .s8,
     .leaf n.nationalNumberPattern (str% "804\\d{7}"), .s6], .s6,
   .elem n.uan []
    [.s8,
     .empty n.possibleLengths [(n.national, str% "7,10")], .s8,
     .leaf n.exampleNumber (str% "8071123456"), .s8,
     .leaf n.nationalNumberPattern (str% "\n          (?:\n            1500|\n            8071\\d{3}\n          )\\d{3}\n        "), .s6], .s4]

/-- what stands before this territory -/
noncomputable def IE_before : List Node :=
  [.l4, .comment, .s4, .comment, .s4, .comment, .s4]
/-- its attributes -/
noncomputable def IE_attrs : List (Str × Str) := [(n.id, str% "IE"), (n.countryCode, str% "353"), (n.internationalPrefix, str% "00"), (n.nationalPrefix, str% "0"), (n.mobileNumberPortableRegion, str% "true")]
/-- its content -/
noncomputable def IE : List Node :=
  [.s6,
   .elem n.availableFormats []
    [.s8,
     .elem n.numberFormat [(n.pattern, str% "(\\d{2})(\\d{5})"), (n.nationalPrefixFormattingRule, str% "($NP$FG)")]
      [.s10,
       .leaf n.leadingDigits (str% "\n            2[24-9]|\n            47|\n            58|\n            6[237-9]|\n            9[35-9]\n          "), .s10,
       .leaf n.format (str% "$1 $2"), .s8], .s8,
     .elem n.numberFormat [(n.pattern, str% "(\\d{3})(\\d{5})"), (n.nationalPrefixFormattingRule, str% "($NP$FG)")]
      [.s10,
       .leaf n.leadingDigits (str% "[45]0"), .s10,
       .leaf n.format (str% "$1 $2"), .s8], .s8,
     .elem n.numberFormat [(n.pattern, str% "(\\d)(\\d{3,4})(\\d{4})"), (n.nationalPrefixFormattingRule, str% "($NP$FG)")]
      [.s10,
       .leaf n.leadingDigits (str% "1"), .s10,
       .leaf n.format (str% "$1 $2 $3"), .s8], .s8,
     .elem n.numberFormat [(n.pattern, str% "(\\d{2})(\\d{3})(\\d{3,4})"), (n.nationalPrefixFormattingRule, str% "($NP$FG)")]
      [.s10,
       .leaf n.leadingDigits (str% "\n            [2569]|\n            4[1-69]|\n            7[14]\n          "), .s10,
       .leaf n.format (str% "$1 $2 $3"), .s8], .s8,
     .elem n.numberFormat [(n.pattern, str% "(\\d{3})(\\d{3})(\\d{3})"), (n.nationalPrefixFormattingRule, str% "$NP$FG")]
      [.s10,
       .leaf n.leadingDigits (str% "70"), .s10,
       .leaf n.format (str% "$1 $2 $3"), .s8], .s8,
     .elem n.numberFormat [(n.pattern, str% "(\\d{3})(\\d{3})(\\d{3})"), (n.nationalPrefixFormattingRule, str% "($NP$FG)")]
      [.s10,
       .leaf n.leadingDigits (str% "81"), .s10,
       .leaf n.format (str% "$1 $2 $3"), .s8], .s8,
     .elem n.numberFormat [(n.pattern, str% "(\\d{2})(\\d{3})(\\d{4})"), (n.nationalPrefixFormattingRule, str% "$NP$FG")]
      [.s10,
       .leaf n.leadingDigits (str% "[78]"), .s10,
       .leaf n.format (str% "$1 $2 $3"), .s8], .s8,
     .elem n.numberFormat [(n.pattern, str% "(\\d{4})(\\d{3})(\\d{3})")]
      [.s10,
       .leaf n.leadingDigits (str% "1"), .s10,
       .leaf n.format (str% "$1 $2 $3"), .s8], .s8,
     .elem n.numberFormat [(n.pattern, str% "(\\d{2})(\\d{4})(\\d{4})"), (n.nationalPrefixFormattingRule, str% "($NP$FG)")]
      [.s10,
       .leaf n.leadingDigits (str% "4"), .s10,
       .leaf n.format (str% "$1 $2 $3"), .s8], .s8, .comment, .s8,
     .elem n.numberFormat [(n.pattern, str% "(\\d{2})(\\d)(\\d{3})(\\d{4})"), (n.nationalPrefixFormattingRule, str% "$NP$FG")]
      [.s10,
       .leaf n.leadingDigits (str% "8"), .s10,
       .leaf n.format (str% "$1 $2 $3 $4"), .s8], .s6], .s6,
   .elem n.generalDesc []
    [.s8,
     .leaf n.nationalNumberPattern (str% "\n          (?:\n            1\\d|\n            [2569]\n          )\\d{6,8}|\n          4\\d{6,9}|\n          7\\d{8}|\n          8\\d{8,9}\n        "), .s6], .s6,
   .elem n.noInternationalDialling []
    [.s8,
     .empty n.possibleLengths [(n.national, str% "10")], .s8,
     .leaf n.nationalNumberPattern (str% "18[59]0\\d{6}"), .s6], .s6, .comment, .s6,
   .elem n.fixedLine []
    [.s8,
     .empty n.possibleLengths [(n.national, str% "[7-10]"), (n.localOnly, str% "5,6")], .s8,
     .leaf n.exampleNumber (str% "2212345"), .s8,
     .leaf n.nationalNumberPattern (str% "\n          (?:\n            1\\d|\n            21\n          )\\d{6,7}|\n          (?:\n            2[24-9]|\n            4(?:\n              0[24]|\n              5\\d|\n              7\n            )|\n            5(?:\n              0[45]|\n              1\\d|\n              8\n            )|\n            6(?:\n              1\\d|\n              [237-9]\n            )|\n            9(?:\n              1\\d|\n              [35-9]\n            )\n          )\\d{5}|\n          (?:\n            23|\n            4(?:\n              [1-469]|\n              8\\d\n            )|\n            5[23679]|\n            6[4-6]|\n            7[14]|\n            9[04]\n          )\\d{7}\n        "), .s6], .s6,
   .elem n.mobile []
    [.s8,
     .empty n.possibleLengths [(n.national, str% "9")], .s8,
     .leaf n.exampleNumber (str% "850123456"), .s8,
     .leaf n.nationalNumberPattern (str% "\n          8(?:\n            22|\n            [35-9]\\d\n          )\\d{6}\n        "), .s6], .s6,
   .elem n.tollFree []
    [.s8,
     .empty n.possibleLengths [(n.national, str% "10")], .s8,
     .leaf n.exampleNumber (str% "1800123456"), .s8,
     .leaf n.nationalNumberPattern (str% "1800\\d{6}"), .s6], .s6,
   .elem n.premiumRate []
    [.s8,
     .empty n.possibleLengths [(n.national, str% "10")], .s8,
     .leaf n.exampleNumber (str% "1520123456"), .s8,
     .leaf n.nationalNumberPattern (str% "\n          15(?:\n            1[2-8]|\n            [2-8]0|\n            9[089]\n          )\\d{6}\n        "), .s6], .s6,
   .elem n.sharedCost []
    [.s8,
     .empty n.possibleLengths [(n.national, str% "10")], .s8,
     .leaf n.exampleNumber (str% "1850123456"), .s8,
     .leaf n.nationalNumberPattern (str% "18[59]0\\d{6}"), .s6], .s6,
   .elem n.personalNumber []
    [.s8,
     .empty n.possibleLengths [(n.national, str% "9")], .s8,
     .leaf n.exampleNumber (str% "700123456"), .s8,
     .leaf n.nationalNumberPattern (str% "700\\d{6}"), .s6], .s6,
   .elem n.voip []
    [.s8,
     .empty n.possibleLengths [(n.national, str% "9")], .s8,
     .leaf n.exampleNumber (str% "761234567"), .s8,
     .leaf n.nationalNumberPattern (str% "76\\d{7}"), .s6], .s6,
   .elem n.uan []
    [.s8,
     .empty n.possibleLengths [(n.national, str% "9")], .s8,
     .leaf n.exampleNumber (str% "818123456"), .s8,
     .leaf n.nationalNumberPattern (str% "818\\d{6}"), .s6], .s6, .comment, .s6,
   .elem n.voicemail []
    [.s8,
     .empty n.possibleLengths [(n.national, str% "10")], .s8,
     .leaf n.exampleNumber (str% "8551234567"), .s8,
     .leaf n.nationalNumberPattern (str% "\n          88210[1-9]\\d{4}|\n          8(?:\n            [35-79]5\\d\\d|\n            8(?:\n              [013-9]\\d\\d|\n              2(?:\n                [01][1-9]|\n                [2-9]\\d\n              )\n            )\n          )\\d{5}\n        "), .s6], .s4]

/-- what stands before this territory -/
noncomputable def IL_before : List Node :=
  [.l4, .comment, .s4, .comment, .s4, .comment, .s4, .comment, .s4, .comment, .s4, .comment, .s4, .comment, .s4]
/-- its attributes -/
noncomputable def IL_attrs : List (Str × Str) := [(n.id, str% "IL"), (n.countryCode, str% "972"), (n.internationalPrefix, str% "0(?:0|1[2-9])"), (n.nationalPrefix, str% "0"), (n.mobileNumberPortableRegion, str% "true")]
/-- its content -/
noncomputable def IL : List Node :=
  [.s6,
   .elem n.availableFormats []
    [.s8, .comment, .s8,
     .elem n.numberFormat [(n.pattern, str% "(\\d{4})(\\d{3})")]
      [.s10,
       .leaf n.leadingDigits (str% "125"), .s10,
       .leaf n.format (str% "$1-$2"), .s8], .s8, .comment, .s8,
     .elem n.numberFormat [(n.pattern, str% "(\\d{4})(\\d{2})(\\d{2})")]
      [.s10,
       .leaf n.leadingDigits (str% "121"), .s10,
       .leaf n.format (str% "$1-$2-$3"), .s8], .s8, .comment, .s8,
     .elem n.numberFormat [(n.pattern, str% "(\\d)(\\d{3})(\\d{4})"), (n.nationalPrefixFormattingRule, str% "$NP$FG")]
      [.s10,
       .leaf n.leadingDigits (str% "[2-489]"), .s10,
       .leaf n.format (str% "$1-$2-$3"), .s8], .s8, .comment, .s8,
     .elem n.numberFormat [(n.pattern, str% "(\\d{2})(\\d{3})(\\d{4})"), (n.nationalPrefixFormattingRule, str% "$NP$FG")]
      [.s10,
       .leaf n.leadingDigits (str% "[57]"), .s10,
       .leaf n.format (str% "$1-$2-$3"), .s8], .s8, .comment, .s8,
     .elem n.numberFormat [(n.pattern, str% "(\\d{4})(\\d{3})(\\d{3})")]
      [.s10,
       .leaf n.leadingDigits (str% "12"), .s10,
       .leaf n.format (str% "$1-$2-$3"), .s8], .s8, .comment, .s8,
     .elem n.numberFormat [(n.pattern, str% "(\\d{4})(\\d{6})")]
      [.s10,
       .leaf n.leadingDigits (str% "159"), .s10,
       .leaf n.format (str% "$1-$2"), .s8], .s8, .comment, .s8,
     .elem n.numberFormat [(n.pattern, str% "(\\d)(\\d{3})(\\d{3})(\\d{3})")]
      [.s10,
       .leaf n.leadingDigits (str% "1[7-9]"), .s10,
       .leaf n.format (str% "$1-$2-$3-$4"), .s8], .s8, .comment, .s8,
     .elem n.numberFormat [(n.pattern, str% "(\\d{3})(\\d{1,2})(\\d{3})(\\d{4})")]
      [.s10,
       .leaf n.leadingDigits (str% "15"), .s10,
       .leaf n.format (str% "$1-$2 $3-$4"), .s8], .s6], .s6,
   .elem n.generalDesc []
    [.s8,
     .leaf n.nationalNumberPattern (str% "\n          1\\d{6}(?:\n            \\d{3,5}\n          )?|\n          [57]\\d{8}|\n          [1-489]\\d{7}\n        "), .s6], .s6,
   .elem n.noInternationalDialling []
    [.s8,
     .empty n.possibleLengths [(n.national, str% "10")], .s8,
     .leaf n.nationalNumberPattern (str% "1700\\d{6}"), .s6], .s6, .comment, .s6,
   .elem n.fixedLine []
    [.s8,
     .empty n.possibleLengths [(n.national, str% "8,11,12"), (n.localOnly, str% "7")], .s8,
     .leaf n.exampleNumber (str% "21234567"), .s8,
     .leaf n.nationalNumberPattern (str% "\n          153\\d{8,9}|\n          29[1-9]\\d{5}|\n          (?:\n            2[0-8]|\n            [3489]\\d\n          )\\d{6}\n        "), .s6], .s6, .comment, .s6,
   .elem n.mobile []
    [.s8,
     .empty n.possibleLengths [(n.national, str% "9")], .s8,
     .leaf n.exampleNumber (str% "502345678"), .s8,
     .leaf n.nationalNumberPattern (str% "\n          55(?:\n            4(?:\n              0[0-3]|\n              [16]0\n            )|\n            57[0-289]\n          )\\d{4}|\n          5(?:\n            (?:\n              [0-2][02-9]|\n              [36]\\d|\n              [49][2-9]|\n              8[3-7]\n            )\\d|\n            5(?:\n              01|\n              2\\d|\n              3[0-3]|\n              4[3-5]|\n              5[0-25689]|\n              6[6-8]|\n              7[0-267]|\n              8[7-9]|\n              9[1-9]\n            )\n          )\\d{5}\n        "), .s6], .s6, .comment, .s6,
   .elem n.tollFree []
    [.s8,
     .empty n.possibleLengths [(n.national, str% "7,10")], .s8,
     .leaf n.exampleNumber (str% "1800123456"), .s8,
     .leaf n.nationalNumberPattern (str% "\n          1(?:\n            255|\n            80[019]\\d{3}\n          )\\d{3}\n        "), .s6], .s6, .comment, .s6, .comment, .s6,
   .elem n.premiumRate []
    [.s8,
     .empty n.possibleLengths [(n.national, str% "8,10")], .s8,
     .leaf n.exampleNumber (str% "1919123456"), .s8,
     .leaf n.nationalNumberPattern (str% "\n          1212\\d{4}|\n          1(?:\n            200|\n            9(?:\n              0[0-2]|\n              19|\n              9\\d\n            )\n          )\\d{6}\n        "), .s6], .s6,
   .elem n.sharedCost []
    [.s8,
     .empty n.possibleLengths [(n.national, str% "10")], .s8,
     .leaf n.exampleNumber (str% "1700123456"), .s8,
     .leaf n.nationalNumberPattern (str% "1700\\d{6}"), .s6], .s6, .comment, .s6,
   .elem n.voip []
    [.s8,
     .empty n.possibleLengths [(n.national, str% "9")], .s8,
     .leaf n.exampleNumber (str% "771234567"), .s8,
     .leaf n.nationalNumberPattern (str% "\n          7(?:\n            38(?:\n              [05]\\d|\n              8[0138]\n            )|\n            8(?:\n              33|\n              55|\n              77|\n              81\n            )\\d\n          )\\d{4}|\n          7(?:\n            18|\n            2[23]|\n            3[237]|\n            47|\n            6[258]|\n            7\\d|\n            82|\n            9[2-9]\n          )\\d{6}\n        "), .s6], .s6, .comment, .s6,
   .elem n.uan []
    [.s8,
     .empty n.possibleLengths [(n.national, str% "10")], .s8,
     .leaf n.exampleNumber (str% "1599123456"), .s8,
     .leaf n.nationalNumberPattern (str% "1599\\d{6}"), .s6], .s6,
   .elem n.voicemail []
    [.s8,
     .empty n.possibleLengths [(n.national, str% "11,12")], .s8,
     .leaf n.exampleNumber (str% "15112340000"), .s8,
     .leaf n.nationalNumberPattern (str% "151\\d{8,9}"), .s6], .s4]

/-- what stands before this territory -/
noncomputable def IM_before : List Node :=
  [.l4, .comment, .s4, .comment, .s4, .comment, .s4, .comment, .s4, .comment, .s4]
/-- its attributes -/
noncomputable def IM_attrs : List (Str × Str) := [(n.id, str% "IM"), (n.countryCode, str% "44"), (n.leadingDigits, str% "74576|(?:16|7[56])24"), (n.internationalPrefix, str% "00"), (n.nationalPrefix, str% "0"), (n.nationalPrefixForParsing, str% "([25-8]\\d{5})$|0|180020"), (n.nationalPrefixTransformRule, str% "1624$1")]
/-- its content -/
noncomputable def IM : List Node :=
  [.s6,
   .elem n.generalDesc []
    [.s8,
     .leaf n.nationalNumberPattern (str% "\n          1624\\d{6}|\n          (?:\n            [3578]\\d|\n            90\n          )\\d{8}\n        "), .s6], .s6, .comment, .s6, .comment, .s6,
   .elem n.fixedLine []
    [.s8,
     .empty n.possibleLengths [(n.national, str% "10"), (n.localOnly, str% "6")], .s8,
     .leaf n.exampleNumber (str% "1624756789"), .s8,
     .leaf n.nationalNumberPattern (str% "\n          1624(?:\n            230|\n            [5-8]\\d\\d\n          )\\d{3}\n        "), .s6], .s6, .comment, .s6,
   .elem n.mobile []
    [.s8,
     .empty n.possibleLengths [(n.national, str% "10")], .s8,
     .leaf n.exampleNumber (str% "7924123456"), .s8,
     .leaf n.nationalNumberPattern (str% "\n          76245[06]\\d{4}|\n          7(?:\n            4576|\n            [59]24\\d|\n            624[0-4689]\n          )\\d{5}\n        "), .s6], .s6, .comment, .s6,
   .elem n.tollFree []
    [.s8,
     .empty n.possibleLengths [(n.national, str% "10")], .s8,
     .leaf n.exampleNumber (str% "8081624567"), .s8,
     .leaf n.nationalNumberPattern (str% "808162\\d{4}"), .s6], .s6, .comment, .s6,
   .elem n.premiumRate []
    [.s8,
     .empty n.possibleLengths [(n.national, str% "10")], .s8,
     .leaf n.exampleNumber (str% "9016247890"), .s8,
     .leaf n.nationalNumberPattern (str% "\n          8(?:\n            440[49]06|\n            72299\\d\n          )\\d{3}|\n          (?:\n            8(?:\n              45|\n              70\n            )|\n            90[0167]\n          )624\\d{4}\n        "), .s6], .s6, .comment, .s6,
   .elem n.personalNumber []
    [.s8,
     .empty n.possibleLengths [(n.national, str% "10")], .s8,
     .leaf n.exampleNumber (str% "7012345678"), .s8,
     .leaf n.nationalNumberPattern (str% "70\\d{8}"), .s6], .s6,
   .elem n.voip []
    [.s8,
     .empty n.possibleLengths [(n.national, str% "10")], .s8,
     .leaf n.exampleNumber (str% "5612345678"), .s8,
     .leaf n.nationalNumberPattern (str% "56\\d{8}"), .s6], .s6, .comment, .s6,
   .elem n.uan []
    [.s8,
     .empty n.possibleLengths [(n.national, str% "10")], .s8,
     .leaf n.exampleNumber (str% "5512345678"), .s8,
     .leaf n.nationalNumberPattern (str% "\n          3440[49]06\\d{3}|\n          (?:\n            3(?:\n              08162|\n              3\\d{4}|\n              45624|\n              7(?:\n                0624|\n                2299\n              )\n            )|\n            55\\d{4}\n          )\\d{4}\n        "), .s6], .s4]

/-- the nodes of this module -/
noncomputable def chunk06 : List (List Node × List (Str × Str) × List Node) :=
  [(GR_before, GR_attrs, GR), (GT_before, GT_attrs, GT), (GU_before, GU_attrs, GU), (GW_before, GW_attrs, GW),
   (GY_before, GY_attrs, GY), (HK_before, HK_attrs, HK), (HN_before, HN_attrs, HN), (HR_before, HR_attrs, HR),
   (HT_before, HT_attrs, HT), (HU_before, HU_attrs, HU), (ID_before, ID_attrs, ID), (IE_before, IE_attrs, IE),
   (IL_before, IL_attrs, IL), (IM_before, IM_attrs, IM)]

end Phone.Data.X
