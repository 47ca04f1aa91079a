import Verif.Data.XNames
/-! Territories of `/repo/assets/PhoneNumberMetadata.xml` as trees. Generated by `tools/gen_xml.py`; do not edit. -/

set_option maxRecDepth 100000
namespace Phone.Data.X
open Phone.Xml

/-- what stands before this territory -/
noncomputable def MG_before : List Node :=
  [.l4, .comment, .s4, .comment, .s4]
/-- its attributes -/
noncomputable def MG_attrs : List (Str × Str) := [(n.id, str% "MG"), (n.countryCode, str% "261"), (n.internationalPrefix, str% "00"), (n.nationalPrefix, str% "0"), (n.nationalPrefixForParsing, str% "([24-9]\\d{6})$|0"), (n.nationalPrefixTransformRule, str% "20$1")]
/-- its content -/
noncomputable def MG : List Node :=
  [.s6,
   .elem n.availableFormats []
    [.s8,
     .elem n.numberFormat [(n.pattern, str% "(\\d{2})(\\d{2})(\\d{3})(\\d{2})"), (n.nationalPrefixFormattingRule, str% "$NP$FG")]
      [.s10,
       .leaf n.leadingDigits (str% "[23]"), .s10,
       .leaf n.format (str% "$1 $2 $3 $4"), .s8], .s6], .s6,
   .elem n.generalDesc []
    [.s8,
     .leaf n.nationalNumberPattern (str% "[23]\\d{8}"), .s6], .s6, .comment, .s6,
   .elem n.fixedLine []
    [.s8,
     .empty n.possibleLengths [(n.national, str% "9"), (n.localOnly, str% "7")], .s8,
     .leaf n.exampleNumber (str% "202123456"), .s8,
     .leaf n.nationalNumberPattern (str% "\n          2072[29]\\d{4}|\n          20(?:\n            2\\d|\n            4[47]|\n            5[3467]|\n            6[279]|\n            7[356]|\n            8[268]|\n            9[2457]\n          )\\d{5}\n        "), .s6], .s6, .comment, .s6,
   .elem n.mobile []
    [.s8,
     .empty n.possibleLengths [(n.national, str% "9")], .s8,
     .leaf n.exampleNumber (str% "321234567"), .s8,
     .leaf n.nationalNumberPattern (str% "3[2-9]\\d{7}"), .s6], .s6, .comment, .s6,
   .elem n.voip []
    [.s8,
     .empty n.possibleLengths [(n.national, str% "9")], .s8,
     .leaf n.exampleNumber (str% "221234567"), .s8,
     .leaf n.nationalNumberPattern (str% "22\\d{7}"), .s6], .s4]

/-- what stands before this territory -/
noncomputable def MH_before : List Node :=
  [.l4, .comment, .s4, .comment, .s4]
/-- its attributes -/
noncomputable def MH_attrs : List (Str × Str) := [(n.id, str% "MH"), (n.countryCode, str% "692"), (n.internationalPrefix, str% "011"), (n.nationalPrefix, str% "1")]
/-- its content -/
noncomputable def MH : List Node :=
  [.s6,
   .elem n.availableFormats []
    [.s8,
     .elem n.numberFormat [(n.pattern, str% "(\\d{3})(\\d{4})")]
      [.s10,
       .leaf n.leadingDigits (str% "[2-6]"), .s10,
       .leaf n.format (str% "$1-$2"), .s8], .s6], .s6,
   .elem n.generalDesc []
    [.s8,
     .leaf n.nationalNumberPattern (str% "\n          329\\d{4}|\n          (?:\n            [256]\\d|\n            45\n          )\\d{5}\n        "), .s6], .s6,
   .elem n.fixedLine []
    [.s8,
     .empty n.possibleLengths [(n.national, str% "7")], .s8,
     .leaf n.exampleNumber (str% "2471234"), .s8,
     .leaf n.nationalNumberPattern (str% "\n          (?:\n            247|\n            528|\n            625\n          )\\d{4}\n        "), .s6], .s6,
   .elem n.mobile []
    [.s8,
     .empty n.possibleLengths [(n.national, str% "7")], .s8,
     .leaf n.exampleNumber (str% "2351234"), .s8,
     .leaf n.nationalNumberPattern (str% "\n          (?:\n            (?:\n              23|\n              54\n            )5|\n            329|\n            45[35-8]\n          )\\d{4}\n        "), .s6], .s6, .comment, .s6,
   .elem n.voip []
    [.s8,
     .empty n.possibleLengths [(n.national, str% "7")], .s8,
     .leaf n.exampleNumber (str% "6351234"), .s8,
     .leaf n.nationalNumberPattern (str% "635\\d{4}"), .s6], .s4]

/-- what stands before this territory -/
noncomputable def MK_before : List Node :=
  [.l4, .comment, .s4, .comment, .s4, .comment, .s4]
/-- its attributes -/
noncomputable def MK_attrs : List (Str × Str) := [(n.id, str% "MK"), (n.countryCode, str% "389"), (n.internationalPrefix, str% "00"), (n.nationalPrefix, str% "0"), (n.mobileNumberPortableRegion, str% "true")]
/-- its content -/
noncomputable def MK : List Node :=
  [.s6,
   .elem n.availableFormats []
    [.s8, .comment, .s8,
     .elem n.numberFormat [(n.pattern, str% "(\\d)(\\d{3})(\\d{4})"), (n.nationalPrefixFormattingRule, str% "$NP$FG")]
      [.s10,
       .leaf n.leadingDigits (str% "\n            2|\n            34[47]|\n            4(?:\n              [37]7|\n              5[47]|\n              64\n            )\n          "), .s10,
       .leaf n.format (str% "$1 $2 $3"), .s8], .s8, .comment, .s8,
     .elem n.numberFormat [(n.pattern, str% "(\\d{2})(\\d{3})(\\d{3})"), (n.nationalPrefixFormattingRule, str% "$NP$FG")]
      [.s10,
       .leaf n.leadingDigits (str% "[347]"), .s10,
       .leaf n.format (str% "$1 $2 $3"), .s8], .s8, .comment, .s8,
     .elem n.numberFormat [(n.pattern, str% "(\\d{3})(\\d)(\\d{2})(\\d{2})"), (n.nationalPrefixFormattingRule, str% "$NP$FG")]
      [.s10,
       .leaf n.leadingDigits (str% "[58]"), .s10,
       .leaf n.format (str% "$1 $2 $3 $4"), .s8], .s6], .s6,
   .elem n.generalDesc []
    [.s8,
     .leaf n.nationalNumberPattern (str% "[2-578]\\d{7}"), .s6], .s6, .comment, .s6,
   .elem n.fixedLine []
    [.s8,
     .empty n.possibleLengths [(n.national, str% "8"), (n.localOnly, str% "6,7")], .s8,
     .leaf n.exampleNumber (str% "22012345"), .s8,
     .leaf n.nationalNumberPattern (str% "\n          (?:\n            (?:\n              2(?:\n                62|\n                77\n              )0|\n              3444\n            )\\d|\n            4[56]440\n          )\\d{3}|\n          (?:\n            34|\n            4[357]\n          )700\\d{3}|\n          (?:\n            2(?:\n              [0-3]\\d|\n              5[0-578]|\n              6[01]|\n              82\n            )|\n            3(?:\n              1[3-68]|\n              [23][2-68]|\n              4[23568]\n            )|\n            4(?:\n              [23][2-68]|\n              4[3-68]|\n              5[2568]|\n              6[25-8]|\n              7[24-68]|\n              8[4-68]\n            )\n          )\\d{5}\n        "), .s6], .s6, .comment, .s6,
   .elem n.mobile []
    [.s8,
     .empty n.possibleLengths [(n.national, str% "8")], .s8,
     .leaf n.exampleNumber (str% "72345678"), .s8,
     .leaf n.nationalNumberPattern (str% "\n          7(?:\n            3555|\n            (?:\n              474|\n              9[019]7\n            )7\n          )\\d{3}|\n          7(?:\n            [0-25-8]\\d\\d|\n            3(?:\n              [1-478]\\d|\n              6[01]\n            )|\n            4(?:\n              2\\d|\n              60|\n              7[01578]\n            )|\n            9(?:\n              [2-4]\\d|\n              5[01]|\n              7[015]\n            )\n          )\\d{4}\n        "), .s6], .s6,
   .elem n.tollFree []
    [.s8,
     .empty n.possibleLengths [(n.national, str% "8")], .s8,
     .leaf n.exampleNumber (str% "80012345"), .s8,
     .leaf n.nationalNumberPattern (str% "800\\d{5}"), .s6], .s6,
   .elem n.premiumRate []
    [.s8,
     .empty n.possibleLengths [(n.national, str% "8")], .s8,
     .leaf n.exampleNumber (str% "50012345"), .s8,
     .leaf n.nationalNumberPattern (str% "5\\d{7}"), .s6], .s6,
   .elem n.sharedCost []
    [.s8,
     .empty n.possibleLengths [(n.national, str% "8")], .s8,
     .leaf n.exampleNumber (str% "80123456"), .s8,
     .leaf n.nationalNumberPattern (str% "\n          8(?:\n            0[1-9]|\n            [1-9]\\d\n          )\\d{5}\n        "), .s6], .s4]

/-- what stands before this territory -/
noncomputable def ML_before : List Node :=
  [.l4, .comment, .s4, .comment, .s4, .comment, .s4]
/-- its attributes -/
noncomputable def ML_attrs : List (Str × Str) := [(n.id, str% "ML"), (n.countryCode, str% "223"), (n.internationalPrefix, str% "00")]
/-- its content -/
noncomputable def ML : List Node :=
  [.s6,
   .elem n.availableFormats []
    [.s8, .comment, .s8,
     .elem n.numberFormat [(n.pattern, str% "(\\d{4})")]
      [.s10,
       .leaf n.leadingDigits (str% "\n            67[057-9]|\n            74[045]\n          "), .s10,
       .leaf n.leadingDigits (str% "\n            67(?:\n              0[09]|\n              [59]9|\n              77|\n              8[89]\n            )|\n            74(?:\n              0[02]|\n              44|\n              55\n            )\n          "), .s10,
       .leaf n.format (str% "$1"), .s10,
       .leaf n.intlFormat (str% "NA"), .s8], .s8,
     .elem n.numberFormat [(n.pattern, str% "(\\d{2})(\\d{2})(\\d{2})(\\d{2})")]
      [.s10,
       .leaf n.leadingDigits (str% "[24-9]"), .s10,
       .leaf n.format (str% "$1 $2 $3 $4"), .s8], .s6], .s6,
   .elem n.generalDesc []
    [.s8,
     .leaf n.nationalNumberPattern (str% "[24-9]\\d{7}"), .s6], .s6,
   .elem n.noInternationalDialling []
    [.s8,
     .empty n.possibleLengths [(n.national, str% "8")], .s8,
     .leaf n.nationalNumberPattern (str% "80\\d{6}"), .s6], .s6,
   .elem n.fixedLine []
    [.s8,
     .empty n.possibleLengths [(n.national, str% "8")], .s8,
     .leaf n.exampleNumber (str% "20212345"), .s8,
     .leaf n.nationalNumberPattern (str% "\n          2(?:\n            07[0-8]|\n            12[67]\n          )\\d{4}|\n          (?:\n            2(?:\n              02|\n              1[4-689]\n            )|\n            4(?:\n              0[0-4]|\n              4[1-59]\n            )\n          )\\d{5}\n        "), .s6], .s6,
   .elem n.mobile []
    [.s8,
     .empty n.possibleLengths [(n.national, str% "8")], .s8,
     .leaf n.exampleNumber (str% "65012345"), .s8,
     .leaf n.nationalNumberPattern (str% "\n          2(?:\n            0(?:\n              01|\n              79\n            )|\n            17\\d\n          )\\d{4}|\n          (?:\n            5[0-3]|\n            [679]\\d|\n            8[2-59]\n          )\\d{6}\n        "), .s6], .s6, .comment, .s6,
   .elem n.tollFree []
    [.s8,
     .empty n.possibleLengths [(n.national, str% "8")], .s8,
     .leaf n.exampleNumber (str% "80012345"), .s8,
     .leaf n.nationalNumberPattern (str% "80\\d{6}"), .s6], .s4]

/-- what stands before this territory -/
noncomputable def MM_before : List Node :=
  [.l4, .comment, .s4, .comment, .s4]
/-- its attributes -/
noncomputable def MM_attrs : List (Str × Str) := [(n.id, str% "MM"), (n.countryCode, str% "95"), (n.internationalPrefix, str% "00"), (n.nationalPrefix, str% "0")]
/-- its content -/
noncomputable def MM : List Node :=
  [.s6,
   .elem n.availableFormats []
    [.s8, .comment, .s8,
     .elem n.numberFormat [(n.pattern, str% "(\\d)(\\d{2})(\\d{3})"), (n.nationalPrefixFormattingRule, str% "$NP$FG")]
      [.s10,
       .leaf n.leadingDigits (str% "\n            16|\n            2\n          "), .s10,
       .leaf n.format (str% "$1 $2 $3"), .s8], .s8, .comment, .s8,
     .elem n.numberFormat [(n.pattern, str% "(\\d{2})(\\d{2})(\\d{3})"), (n.nationalPrefixFormattingRule, str% "$NP$FG")]
      [.s10,
       .leaf n.leadingDigits (str% "\n            4(?:\n              [2-46]|\n              5[3-5]\n            )|\n            5|\n            6(?:\n              [1-689]|\n              7[235-7]\n            )|\n            7(?:\n              [0-4]|\n              5[2-7]\n            )|\n            8[1-5]|\n            (?:\n              60|\n              86\n            )[23]\n          "), .s10,
       .leaf n.format (str% "$1 $2 $3"), .s8], .s8, .comment, .s8,
     .elem n.numberFormat [(n.pattern, str% "(\\d)(\\d{3})(\\d{3,4})"), (n.nationalPrefixFormattingRule, str% "$NP$FG")]
      [.s10,
       .leaf n.leadingDigits (str% "\n            [12]|\n            452|\n            678|\n            86\n          "), .s10,
       .leaf n.leadingDigits (str% "\n            [12]|\n            452|\n            6788|\n            86\n          "), .s10,
       .leaf n.format (str% "$1 $2 $3"), .s8], .s8, .comment, .s8,
     .elem n.numberFormat [(n.pattern, str% "(\\d{2})(\\d{3})(\\d{3,4})"), (n.nationalPrefixFormattingRule, str% "$NP$FG")]
      [.s10,
       .leaf n.leadingDigits (str% "\n            [4-7]|\n            8[1-35]\n          "), .s10,
       .leaf n.format (str% "$1 $2 $3"), .s8], .s8,
     .elem n.numberFormat [(n.pattern, str% "(\\d)(\\d{3})(\\d{4,6})"), (n.nationalPrefixFormattingRule, str% "$NP$FG")]
      [.s10,
       .leaf n.leadingDigits (str% "\n            9(?:\n              2[0-4]|\n              [35-9]|\n              4[137-9]\n            )\n          "), .s10,
       .leaf n.format (str% "$1 $2 $3"), .s8], .s8, .comment, .s8,
     .elem n.numberFormat [(n.pattern, str% "(\\d)(\\d{4})(\\d{4})"), (n.nationalPrefixFormattingRule, str% "$NP$FG")]
      [.s10,
       .leaf n.leadingDigits (str% "2"), .s10,
       .leaf n.format (str% "$1 $2 $3"), .s8], .s8, .comment, .s8,
     .elem n.numberFormat [(n.pattern, str% "(\\d{3})(\\d{3})(\\d{4})"), (n.nationalPrefixFormattingRule, str% "$NP$FG")]
      [.s10,
       .leaf n.leadingDigits (str% "8"), .s10,
       .leaf n.format (str% "$1 $2 $3"), .s8], .s8, .comment, .s8,
     .elem n.numberFormat [(n.pattern, str% "(\\d)(\\d{3})(\\d{3})(\\d{3})"), (n.nationalPrefixFormattingRule, str% "$NP$FG")]
      [.s10,
       .leaf n.leadingDigits (str% "92"), .s10,
       .leaf n.format (str% "$1 $2 $3 $4"), .s8], .s8,
     .elem n.numberFormat [(n.pattern, str% "(\\d)(\\d{5})(\\d{4})"), (n.nationalPrefixFormattingRule, str% "$NP$FG")]
      [.s10,
       .leaf n.leadingDigits (str% "9"), .s10,
       .leaf n.format (str% "$1 $2 $3"), .s8], .s6], .s6,
   .elem n.generalDesc []
    [.s8,
     .leaf n.nationalNumberPattern (str% "\n          1\\d{5,7}|\n          95\\d{6}|\n          (?:\n            [4-7]|\n            9[0-46-9]\n          )\\d{6,8}|\n          (?:\n            2|\n            8\\d\n          )\\d{5,8}\n        "), .s6], .s6,
   .elem n.fixedLine []
    [.s8,
     .empty n.possibleLengths [(n.national, str% "[6-9]"), (n.localOnly, str% "5")], .s8,
     .leaf n.exampleNumber (str% "1234567"), .s8,
     .leaf n.nationalNumberPattern (str% "\n          (?:\n            1(?:\n              (?:\n                12|\n                [28]\\d|\n                3[56]|\n                7[3-6]|\n                9[0-6]\n              )\\d|\n              4(?:\n                2[29]|\n                7[0-2]|\n                83\n              )|\n              6\n            )|\n            2(?:\n              2(?:\n                00|\n                8[34]\n              )|\n              4(?:\n                0\\d|\n                22|\n                7[0-2]|\n                83\n              )|\n              51\\d\\d\n            )|\n            4(?:\n              2(?:\n                2\\d\\d|\n                48[013]\n              )|\n              3(?:\n                20\\d|\n                4(?:\n                  70|\n                  83\n                )|\n                56\n              )|\n              420\\d|\n              5(?:\n                2\\d|\n                470\n              )\n            )|\n            6(?:\n              0(?:\n                [23]|\n                88\\d\n              )|\n              (?:\n                124|\n                [56]2\\d\n              )\\d|\n              2472|\n              3(?:\n                20\\d|\n                470\n              )|\n              4(?:\n                2[04]\\d|\n                472\n              )|\n              7(?:\n                3\\d\\d|\n                4[67]0|\n                8(?:\n                  [01459]\\d|\n                  8\n                )\n              )\n            )\n          )\\d{4}|\n          5(?:\n            2(?:\n              2\\d{5,6}|\n              47[02]\\d{4}\n            )|\n            (?:\n              3472|\n              4(?:\n                2(?:\n                  1|\n                  86\n                )|\n                470\n              )|\n              522\\d|\n              6(?:\n                20\\d|\n                483\n              )|\n              7(?:\n                20\\d|\n                48[01]\n              )|\n              8(?:\n                20\\d|\n                47[02]\n              )|\n              9(?:\n                20\\d|\n                470\n              )\n            )\\d{4}\n          )|\n          7(?:\n            (?:\n              0470|\n              4(?:\n                25\\d|\n                470\n              )|\n              5(?:\n                202|\n                470|\n                96\\d\n              )\n            )\\d{4}|\n            1(?:\n              20\\d{4,5}|\n              4(?:\n                70|\n                83\n              )\\d{4}\n            )\n          )|\n          8(?:\n            1(?:\n              2\\d{5,6}|\n              4(?:\n                10|\n                7[01]\\d\n              )\\d{3}\n            )|\n            2(?:\n              2\\d{5,6}|\n              (?:\n                320|\n                490\\d\n              )\\d{3}\n            )|\n            (?:\n              3(?:\n                2\\d\\d|\n                470\n              )|\n              4[24-7]|\n              5(?:\n                (?:\n                  2\\d|\n                  51\n                )\\d|\n                4(?:\n                  [1-35-9]\\d|\n                  4[0-57-9]\n                )\n              )|\n              6[23]\n            )\\d{4}\n          )|\n          (?:\n            1[2-6]\\d|\n            4(?:\n              2[24-8]|\n              3[2-7]|\n              [46][2-6]|\n              5[3-5]\n            )|\n            5(?:\n              [27][2-8]|\n              3[2-68]|\n              4[24-8]|\n              5[23]|\n              6[2-4]|\n              8[24-7]|\n              9[2-7]\n            )|\n            6(?:\n              [19]20|\n              42[03-6]|\n              (?:\n                52|\n                7[45]\n              )\\d\n            )|\n            7(?:\n              [04][24-8]|\n              [15][2-7]|\n              22|\n              3[2-4]\n            )|\n            8(?:\n              1[2-689]|\n              2[2-8]|\n              (?:\n                [35]2|\n                64\n              )\\d\n            )\n          )\\d{4}|\n          25\\d{5,6}|\n          (?:\n            2[2-9]|\n            6(?:\n              1[2356]|\n              [24][2-6]|\n              3[24-6]|\n              5[2-4]|\n              6[2-8]|\n              7[235-7]|\n              8[245]|\n              9[24]\n            )|\n            8(?:\n              3[24]|\n              5[245]\n            )\n          )\\d{4}\n        "), .s6], .s6, .comment, .s6,
   .elem n.mobile []
    [.s8,
     .empty n.possibleLengths [(n.national, str% "[7-10]")], .s8,
     .leaf n.exampleNumber (str% "92123456"), .s8,
     .leaf n.nationalNumberPattern (str% "\n          (?:\n            17[01]|\n            9(?:\n              2(?:\n                [0-4]|\n                [56]\\d\\d\n              )|\n              (?:\n                3(?:\n                  [0-36]|\n                  4\\d\n                )|\n                (?:\n                  6\\d|\n                  8[89]|\n                  9[4-8]\n                )\\d|\n                7(?:\n                  3|\n                  40|\n                  [5-9]\\d\n                )\n              )\\d|\n              4(?:\n                (?:\n                  [0245]\\d|\n                  [1379]\n                )\\d|\n                88\n              )|\n              5[0-6]\n            )\\d\n          )\\d{4}|\n          9[69]1\\d{6}|\n          9(?:\n            [68]\\d|\n            9[089]\n          )\\d{5}\n        "), .s6], .s6,
   .elem n.tollFree []
    [.s8,
     .empty n.possibleLengths [(n.national, str% "10")], .s8,
     .leaf n.exampleNumber (str% "8008001234"), .s8,
     .leaf n.nationalNumberPattern (str% "\n          80080(?:\n            0[1-9]|\n            2\\d\n          )\\d{3}\n        "), .s6], .s6,
   .elem n.voip []
    [.s8,
     .empty n.possibleLengths [(n.national, str% "8")], .s8,
     .leaf n.exampleNumber (str% "13331234"), .s8,
     .leaf n.nationalNumberPattern (str% "1333\\d{4}"), .s6], .s4]

/-- what stands before this territory -/
noncomputable def MN_before : List Node :=
  [.l4, .comment, .s4, .comment, .s4, .comment, .s4]
/-- its attributes -/
noncomputable def MN_attrs : List (Str × Str) := [(n.id, str% "MN"), (n.countryCode, str% "976"), (n.internationalPrefix, str% "001"), (n.nationalPrefix, str% "0")]
/-- its content -/
noncomputable def MN : List Node :=
  [.s6,
   .elem n.availableFormats []
    [.s8, .comment, .s8,
     .elem n.numberFormat [(n.pattern, str% "(\\d{2})(\\d{2})(\\d{4})"), (n.nationalPrefixFormattingRule, str% "$NP$FG")]
      [.s10,
       .leaf n.leadingDigits (str% "\n            11|\n            2[16]\n          "), .s10,
       .leaf n.format (str% "$1 $2 $3"), .s8], .s8, .comment, .s8,
     .elem n.numberFormat [(n.pattern, str% "(\\d{4})(\\d{4})")]
      [.s10,
       .leaf n.leadingDigits (str% "[5-9]"), .s10,
       .leaf n.format (str% "$1 $2"), .s8], .s8, .comment, .s8,
     .elem n.numberFormat [(n.pattern, str% "(\\d{3})(\\d{5,6})"), (n.nationalPrefixFormattingRule, str% "$NP$FG")]
      [.s10,
       .leaf n.leadingDigits (str% "[12]2[1-3]"), .s10,
       .leaf n.format (str% "$1 $2"), .s8], .s8, .comment, .s8,
     .elem n.numberFormat [(n.pattern, str% "(\\d{4})(\\d{5,6})"), (n.nationalPrefixFormattingRule, str% "$NP$FG")]
      [.s10,
       .leaf n.leadingDigits (str% "\n            [12](?:\n              27|\n              3[2-8]|\n              4[2-68]|\n              5[1-4689]\n            )\n          "), .s10,
       .leaf n.leadingDigits (str% "\n            [12](?:\n              27|\n              3[2-8]|\n              4[2-68]|\n              5[1-4689]\n            )[0-3]\n          "), .s10,
       .leaf n.format (str% "$1 $2"), .s8], .s8, .comment, .s8,
     .elem n.numberFormat [(n.pattern, str% "(\\d{5})(\\d{4,5})"), (n.nationalPrefixFormattingRule, str% "$NP$FG")]
      [.s10,
       .leaf n.leadingDigits (str% "[12]"), .s10,
       .leaf n.format (str% "$1 $2"), .s8], .s6], .s6,
   .elem n.generalDesc []
    [.s8,
     .leaf n.nationalNumberPattern (str% "\n          [12]\\d{7,9}|\n          [5-9]\\d{7}\n        "), .s6], .s6, .comment, .s6,
   .elem n.fixedLine []
    [.s8,
     .empty n.possibleLengths [(n.national, str% "[8-10]"), (n.localOnly, str% "[4-6]")], .s8,
     .leaf n.exampleNumber (str% "53123456"), .s8,
     .leaf n.nationalNumberPattern (str% "\n          [12](?:\n            2[1-3]|\n            (?:\n              3[2-8]|\n              4[2-68]|\n              5[1-4689]\n            )\\d\n          )\\d{5,6}|\n          7(?:\n            0(?:\n              [0-5]\\d|\n              7[078]|\n              80\n            )|\n            128\n          )\\d{4}|\n          [12]27\\d{6}|\n          (?:\n            11|\n            2[16]|\n            5[368]\n          )\\d{6}\n        "), .s6], .s6,
   .elem n.mobile []
    [.s8,
     .empty n.possibleLengths [(n.national, str% "8")], .s8,
     .leaf n.exampleNumber (str% "88123456"), .s8,
     .leaf n.nationalNumberPattern (str% "\n          (?:\n            87[01]|\n            92[0139]\n          )\\d{5}|\n          (?:\n            5[05]|\n            6[069]|\n            7[28]|\n            8[0135689]|\n            9[013-9]\n          )\\d{6}\n        "), .s6], .s6, .comment, .s6, .comment, .s6,
   .elem n.voip []
    [.s8,
     .empty n.possibleLengths [(n.national, str% "8")], .s8,
     .leaf n.exampleNumber (str% "75123456"), .s8,
     .leaf n.nationalNumberPattern (str% "\n          712[0-79]\\d{4}|\n          7(?:\n            1[013-9]|\n            [5-79]\\d\n          )\\d{5}\n        "), .s6], .s4]

/-- what stands before this territory -/
noncomputable def MO_before : List Node :=
  [.l4, .comment, .s4, .comment, .s4, .comment, .s4, .comment, .s4]
/-- its attributes -/
noncomputable def MO_attrs : List (Str × Str) := [(n.id, str% "MO"), (n.countryCode, str% "853"), (n.internationalPrefix, str% "00")]
/-- its content -/
noncomputable def MO : List Node :=
  [.s6,
   .elem n.availableFormats []
    [.s8,
     .elem n.numberFormat [(n.pattern, str% "(\\d{4})(\\d{3})")]
      [.s10,
       .leaf n.leadingDigits (str% "0"), .s10,
       .leaf n.format (str% "$1 $2"), .s8], .s8,
     .elem n.numberFormat [(n.pattern, str% "(\\d{4})(\\d{4})")]
      [.s10,
       .leaf n.leadingDigits (str% "[268]"), .s10,
       .leaf n.format (str% "$1 $2"), .s8], .s6], .s6,
   .elem n.generalDesc []
    [.s8,
     .leaf n.nationalNumberPattern (str% "\n          0800\\d{3}|\n          (?:\n            28|\n            [68]\\d\n          )\\d{6}\n        "), .s6], .s6, .comment, .s6,
   .elem n.fixedLine []
    [.s8,
     .empty n.possibleLengths [(n.national, str% "8")], .s8,
     .leaf n.exampleNumber (str% "28212345"), .s8,
     .leaf n.nationalNumberPattern (str% "\n          (?:\n            28[2-9]|\n            8(?:\n              11|\n              [2-57-9]\\d\n            )\n          )\\d{5}\n        "), .s6], .s6,
   .elem n.mobile []
    [.s8,
     .empty n.possibleLengths [(n.national, str% "8")], .s8,
     .leaf n.exampleNumber (str% "66123456"), .s8,
     .leaf n.nationalNumberPattern (str% "\n          6800[0-79]\\d{3}|\n          6(?:\n            [235]\\d\\d|\n            6(?:\n              0[0-5]|\n              [1-9]\\d\n            )|\n            8(?:\n              0[1-9]|\n              [14-8]\\d|\n              2[5-9]|\n              [39][0-4]\n            )\n          )\\d{4}\n        "), .s6], .s6,
   .elem n.tollFree []
    [.s8,
     .empty n.possibleLengths [(n.national, str% "7")], .s8,
     .leaf n.exampleNumber (str% "0800501"), .s8,
     .leaf n.nationalNumberPattern (str% "0800\\d{3}"), .s6], .s4]

/-- what stands before this territory -/
noncomputable def MP_before : List Node :=
  [.l4, .comment, .s4, .comment, .s4, .comment, .s4, .comment, .s4]
/-- its attributes -/
noncomputable def MP_attrs : List (Str × Str) := [(n.id, str% "MP"), (n.countryCode, str% "1"), (n.leadingDigits, str% "670"), (n.internationalPrefix, str% "011"), (n.nationalPrefix, str% "1"), (n.nationalPrefixForParsing, str% "([2-9]\\d{6})$|1"), (n.nationalPrefixTransformRule, str% "670$1")]
/-- its content -/
noncomputable def MP : List Node :=
  [.s6,
   .elem n.generalDesc []
    [.s8,
     .leaf n.nationalNumberPattern (str% "\n          [58]\\d{9}|\n          (?:\n            67|\n            90\n          )0\\d{7}\n        "), .s6], .s6, .comment, .s6,
   .elem n.fixedLine []
    [.s8,
     .empty n.possibleLengths [(n.national, str% "10"), (n.localOnly, str% "7")], .s8,
     .leaf n.exampleNumber (str% "6702345678"), .s8,
     .leaf n.nationalNumberPattern (str% "\n          670(?:\n            2(?:\n              3[3-7]|\n              56|\n              8[4-8]\n            )|\n            32[1-38]|\n            4(?:\n              33|\n              8[348]\n            )|\n            5(?:\n              32|\n              55|\n              88\n            )|\n            6(?:\n              64|\n              70|\n              82\n            )|\n            78[3589]|\n            8[3-9]8|\n            989\n          )\\d{4}\n        "), .s6], .s6,
   .elem n.mobile []
    [.s8,
     .empty n.possibleLengths [(n.national, str% "10"), (n.localOnly, str% "7")], .s8,
     .leaf n.exampleNumber (str% "6702345678"), .s8,
     .leaf n.nationalNumberPattern (str% "\n          670(?:\n            2(?:\n              3[3-7]|\n              56|\n              8[4-8]\n            )|\n            32[1-38]|\n            4(?:\n              33|\n              8[348]\n            )|\n            5(?:\n              32|\n              55|\n              88\n            )|\n            6(?:\n              64|\n              70|\n              82\n            )|\n            78[3589]|\n            8[3-9]8|\n            989\n          )\\d{4}\n        "), .s6], .s6,
   .elem n.tollFree []
    [.s8,
     .empty n.possibleLengths [(n.national, str% "10")], .s8,
     .leaf n.exampleNumber (str% "8002123456"), .s8,
     .leaf n.nationalNumberPattern (str% "\n          8(?:\n            00|\n            33|\n            44|\n            55|\n            66|\n            77|\n            88\n          )[2-9]\\d{6}\n        "), .s6], .s6,
   .elem n.premiumRate []
    [.s8,
     .empty n.possibleLengths [(n.national, str% "10")], .s8,
     .leaf n.exampleNumber (str% "9002123456"), .s8,
     .leaf n.nationalNumberPattern (str% "900[2-9]\\d{6}"), .s6], .s6, .comment, .s6,
   .elem n.personalNumber []
    [.s8,
     .empty n.possibleLengths [(n.national, str% "10")], .s8,
     .leaf n.exampleNumber (str% "5002345678"), .s8,
     .leaf n.nationalNumberPattern (str% "\n          52(?:\n            3(?:\n              [2-46-9][02-9]\\d|\n              5(?:\n                [02-46-9]\\d|\n                5[0-46-9]\n              )\n            )|\n            4(?:\n              [2-478][02-9]\\d|\n              5(?:\n                [034]\\d|\n                2[024-9]|\n                5[0-46-9]\n              )|\n              6(?:\n                0[1-9]|\n                [2-9]\\d\n              )|\n              9(?:\n                [05-9]\\d|\n                2[0-5]|\n                49\n              )\n            )\n          )\\d{4}|\n          52[34][2-9]1[02-9]\\d{4}|\n          5(?:\n            00|\n            2[125-9]|\n            3[23]|\n            44|\n            66|\n            77|\n            88\n          )[2-9]\\d{6}\n        "), .s6], .s4]

/-- what stands before this territory -/
noncomputable def MQ_before : List Node :=
  [.l4, .comment, .s4, .comment, .s4, .comment, .s4, .comment, .s4]
/-- its attributes -/
noncomputable def MQ_attrs : List (Str × Str) := [(n.id, str% "MQ"), (n.countryCode, str% "596"), (n.internationalPrefix, str% "00"), (n.nationalPrefix, str% "0"), (n.mobileNumberPortableRegion, str% "true")]
/-- its content -/
noncomputable def MQ : List Node :=
  [.s6,
   .elem n.availableFormats []
    [.s8,
     .elem n.numberFormat [(n.pattern, str% "(\\d{3})(\\d{2})(\\d{2})(\\d{2})"), (n.nationalPrefixFormattingRule, str% "$NP$FG")]
      [.s10,
       .leaf n.leadingDigits (str% "\n            [5-79]|\n            8(?:\n              0[6-9]|\n              [36]\n            )\n          "), .s10,
       .leaf n.format (str% "$1 $2 $3 $4"), .s8], .s8,
     .elem n.numberFormat [(n.pattern, str% "(\\d{3})(\\d{2})(\\d{2})(\\d{2})"), (n.nationalPrefixFormattingRule, str% "$NP$FG")]
      [.s10,
       .leaf n.leadingDigits (str% "8"), .s10,
       .leaf n.format (str% "$1 $2 $3 $4"), .s8], .s6], .s6,
   .elem n.generalDesc []
    [.s8,
     .leaf n.nationalNumberPattern (str% "\n          7091\\d{5}|\n          (?:\n            [56]9|\n            [89]\\d\n          )\\d{7}\n        "), .s6], .s6,
   .elem n.fixedLine []
    [.s8,
     .empty n.possibleLengths [(n.national, str% "9")], .s8,
     .leaf n.exampleNumber (str% "596301234"), .s8,
     .leaf n.nationalNumberPattern (str% "\n          (?:\n            59(?:\n              6(?:\n                [03-7]\\d|\n                1[05]|\n                2[7-9]|\n                8[0-39]|\n                9[04-9]\n              )|\n              89\\d\n            )|\n            80[6-9]\\d\\d|\n            9(?:\n              477[6-9]|\n              767[4589]\n            )\n          )\\d{4}\n        "), .s6], .s6, .comment, .s6,
   .elem n.mobile []
    [.s8,
     .empty n.possibleLengths [(n.national, str% "9")], .s8,
     .leaf n.exampleNumber (str% "696201234"), .s8,
     .leaf n.nationalNumberPattern (str% "\n          (?:\n            69[67]\\d\\d|\n            7091[0-3]\n          )\\d{4}\n        "), .s6], .s6, .comment, .s6,
   .elem n.tollFree []
    [.s8,
     .empty n.possibleLengths [(n.national, str% "9")], .s8,
     .leaf n.exampleNumber (str% "800012345"), .s8,
     .leaf n.nationalNumberPattern (str% "80[0-5]\\d{6}"), .s6], .s6,
   .elem n.premiumRate []
    [.s8,
     .empty n.possibleLengths [(n.national, str% "9")], .s8,
     .leaf n.exampleNumber (str% "810123456"), .s8,
     .leaf n.nationalNumberPattern (str% "8[129]\\d{7}"), .s6], .s6,
   .elem n.voip []
    [.s8,
     .empty n.possibleLengths [(n.national, str% "9")], .s8,
     .leaf n.exampleNumber (str% "976612345"), .s8,
     .leaf n.nationalNumberPattern (str% "\n          9(?:\n            397[0-3]|\n            477[0-5]|\n            76(?:\n              6\\d|\n              7[0-367]\n            )\n          )\\d{4}\n        "), .s6], .s4]

/-- what stands before this territory -/
noncomputable def MR_before : List Node :=
  [.l4, .comment, .s4, .comment, .s4, .comment, .s4]
/-- its attributes -/
noncomputable def MR_attrs : List (Str × Str) := [(n.id, str% "MR"), (n.countryCode, str% "222"), (n.internationalPrefix, str% "00")]
/-- its content -/
noncomputable def MR : List Node :=
  [.s6,
   .elem n.availableFormats []
    [.s8,
     .elem n.numberFormat [(n.pattern, str% "(\\d{2})(\\d{2})(\\d{2})(\\d{2})")]
      [.s10,
       .leaf n.leadingDigits (str% "[2-48]"), .s10,
       .leaf n.format (str% "$1 $2 $3 $4"), .s8], .s6], .s6,
   .elem n.generalDesc []
    [.s8,
     .leaf n.nationalNumberPattern (str% "\n          (?:\n            [2-4]\\d\\d|\n            800\n          )\\d{5}\n        "), .s6], .s6,
   .elem n.fixedLine []
    [.s8,
     .empty n.possibleLengths [(n.national, str% "8")], .s8,
     .leaf n.exampleNumber (str% "35123456"), .s8,
     .leaf n.nationalNumberPattern (str% "\n          (?:\n            25[08]|\n            35\\d|\n            45[1-7]\n          )\\d{5}\n        "), .s6], .s6, .comment, .s6,
   .elem n.mobile []
    [.s8,
     .empty n.possibleLengths [(n.national, str% "8")], .s8,
     .leaf n.exampleNumber (str% "22123456"), .s8,
     .leaf n.nationalNumberPattern (str% "[2-4][0-46-9]\\d{6}"), .s6], .s6,
   .elem n.tollFree []
    [.s8,
     .empty n.possibleLengths [(n.national, str% "8")], .s8,
     .leaf n.exampleNumber (str% "80012345"), .s8,
     .leaf n.nationalNumberPattern (str% "800\\d{5}"), .s6], .s4]

/-- what stands before this territory -/
noncomputable def MS_before : List Node :=
  [.l4, .comment, .s4, .comment, .s4, .comment, .s4]
/-- its attributes -/
noncomputable def MS_attrs : List (Str × Str) := [(n.id, str% "MS"), (n.countryCode, str% "1"), (n.leadingDigits, str% "664"), (n.internationalPrefix, str% "011"), (n.nationalPrefix, str% "1"), (n.nationalPrefixForParsing, str% "([34]\\d{6})$|1"), (n.nationalPrefixTransformRule, str% "664$1"), (n.mobileNumberPortableRegion, str% "true")]
/-- its content -/
noncomputable def MS : List Node :=
  [.s6,
   .elem n.generalDesc []
    [.s8,
     .leaf n.nationalNumberPattern (str% "\n          (?:\n            [58]\\d\\d|\n            664|\n            900\n          )\\d{7}\n        "), .s6], .s6,
   .elem n.fixedLine []
    [.s8,
     .empty n.possibleLengths [(n.national, str% "10"), (n.localOnly, str% "7")], .s8,
     .leaf n.exampleNumber (str% "6644912345"), .s8,
     .leaf n.nationalNumberPattern (str% "\n          6644(?:\n            1[0-3]|\n            91\n          )\\d{4}\n        "), .s6], .s6,
   .elem n.mobile []
    [.s8,
     .empty n.possibleLengths [(n.national, str% "10"), (n.localOnly, str% "7")], .s8,
     .leaf n.exampleNumber (str% "6644923456"), .s8,
     .leaf n.nationalNumberPattern (str% "\n          664(?:\n            3(?:\n              49|\n              9[1-6]\n            )|\n            49[2-6]\n          )\\d{4}\n        "), .s6], .s6,
   .elem n.tollFree []
    [.s8,
     .empty n.possibleLengths [(n.national, str% "10")], .s8,
     .leaf n.exampleNumber (str% "8002123456"), .s8,
     .leaf n.nationalNumberPattern (str% "\n          8(?:\n            00|\n            33|\n            44|\n            55|\n            66|\n            77|\n            88\n          )[2-9]\\d{6}\n        "), .s6], .s6,
   .elem n.premiumRate []
    [.s8,
     .empty n.possibleLengths [(n.national, str% "10")], .s8,
     .leaf n.exampleNumber (str% "9002123456"), .s8,
     .leaf n.nationalNumberPattern (str% "900[2-9]\\d{6}"), .s6], .s6, .comment, .s6,
   .elem n.personalNumber []
    [.s8,
     .empty n.possibleLengths [(n.national, str% "10")], .s8,
     .leaf n.exampleNumber (str% "5002345678"), .s8,
     .leaf n.nationalNumberPattern (str% "\n          52(?:\n            3(?:\n              [2-46-9][02-9]\\d|\n              5(?:\n                [02-46-9]\\d|\n                5[0-46-9]\n              )\n            )|\n            4(?:\n              [2-478][02-9]\\d|\n              5(?:\n                [034]\\d|\n                2[024-9]|\n                5[0-46-9]\n              )|\n              6(?:\n                0[1-9]|\n                [2-9]\\d\n              )|\n              9(?:\n                [05-9]\\d|\n                2[0-5]|\n                49\n              )\n            )\n          )\\d{4}|\n          52[34][2-9]1[02-9]\\d{4}|\n          5(?:\n            00|\n            2[125-9]|\n            3[23]|\n            44|\n            66|\n            77|\n            88\n          )[2-9]\\d{6}\n        "), .s6], .s4]

/-- what stands before this territory -/
noncomputable def MT_before : List Node :=
  [.l4, .comment, .s4, .comment, .s4, .comment, .s4, .comment, .s4]
/-- its attributes -/
noncomputable def MT_attrs : List (Str × Str) := [(n.id, str% "MT"), (n.countryCode, str% "356"), (n.internationalPrefix, str% "00"), (n.mobileNumberPortableRegion, str% "true")]
/-- its content -/
noncomputable def MT : List Node :=
  [.s6,
   .elem n.availableFormats []
    [.s8,
     .elem n.numberFormat [(n.pattern, str% "(\\d{4})(\\d{4})")]
      [.s10,
       .leaf n.leadingDigits (str% "[2357-9]"), .s10,
       .leaf n.format (str% "$1 $2"), .s8], .s6], .s6,
   .elem n.generalDesc []
    [.s8,
     .leaf n.nationalNumberPattern (str% "\n          3550\\d{4}|\n          (?:\n            [2579]\\d\\d|\n            800\n          )\\d{5}\n        "), .s6], .s6,
   .elem n.fixedLine []
    [.s8,
     .empty n.possibleLengths [(n.national, str% "8")], .s8,
     .leaf n.exampleNumber (str% "21001234"), .s8,
     .leaf n.nationalNumberPattern (str% "\n          20(?:\n            3[1-4]|\n            6[059]\n          )\\d{4}|\n          2(?:\n            0[19]|\n            [1-357]\\d|\n            60\n          )\\d{5}\n        "), .s6], .s6,
   .elem n.mobile []
    [.s8,
     .empty n.possibleLengths [(n.national, str% "8")], .s8,
     .leaf n.exampleNumber (str% "96961234"), .s8,
     .leaf n.nationalNumberPattern (str% "\n          (?:\n            7(?:\n              210|\n              [79]\\d\\d\n            )|\n            9(?:\n              [29]\\d\\d|\n              69[67]|\n              8(?:\n                1[1-3]|\n                89|\n                97\n              )\n            )\n          )\\d{4}\n        "), .s6], .s6,
   .elem n.pager []
    [.s8,
     .empty n.possibleLengths [(n.national, str% "8")], .s8,
     .leaf n.exampleNumber (str% "71171234"), .s8,
     .leaf n.nationalNumberPattern (str% "7117\\d{4}"), .s6], .s6,
   .elem n.tollFree []
    [.s8,
     .empty n.possibleLengths [(n.national, str% "8")], .s8,
     .leaf n.exampleNumber (str% "80071234"), .s8,
     .leaf n.nationalNumberPattern (str% "\n          800(?:\n            02|\n            [3467]\\d\n          )\\d{3}\n        "), .s6], .s6,
   .elem n.premiumRate []
    [.s8,
     .empty n.possibleLengths [(n.national, str% "8")], .s8,
     .leaf n.exampleNumber (str% "50037123"), .s8,
     .leaf n.nationalNumberPattern (str% "\n          5(?:\n            0(?:\n              0(?:\n                37|\n                43\n              )|\n              (?:\n                6\\d|\n                70|\n                9[0168]\n              )\\d\n            )|\n            [12]\\d0[1-5]\n          )\\d{3}\n        "), .s6], .s6, .comment, .s6,
   .elem n.voip []
    [.s8,
     .empty n.possibleLengths [(n.national, str% "8")], .s8,
     .leaf n.exampleNumber (str% "35501234"), .s8,
     .leaf n.nationalNumberPattern (str% "3550\\d{4}"), .s6], .s6, .comment, .s6,
   .elem n.uan []
    [.s8,
     .empty n.possibleLengths [(n.national, str% "8")], .s8,
     .leaf n.exampleNumber (str% "50112345"), .s8,
     .leaf n.nationalNumberPattern (str% "501\\d{5}"), .s6], .s4]

/-- what stands before this territory -/
noncomputable def MU_before : List Node :=
  [.l4, .comment, .s4, .comment, .s4, .comment, .s4]
/-- its attributes -/
noncomputable def MU_attrs : List (Str × Str) := [(n.id, str% "MU"), (n.countryCode, str% "230"), (n.preferredInternationalPrefix, str% "020"), (n.internationalPrefix, str% "0(?:0|[24-7]0|3[03])")]
/-- its content -/
noncomputable def MU : List Node :=
  [.s6,
   .elem n.availableFormats []
    [.s8,
     .elem n.numberFormat [(n.pattern, str% "(\\d{3})(\\d{4})")]
      [.s10,
       .leaf n.leadingDigits (str% "\n            [2-46]|\n            8[013]\n          "), .s10,
       .leaf n.format (str% "$1 $2"), .s8], .s8,
     .elem n.numberFormat [(n.pattern, str% "(\\d{4})(\\d{4})")]
      [.s10,
       .leaf n.leadingDigits (str% "[57]"), .s10,
       .leaf n.format (str% "$1 $2"), .s8], .s8,
     .elem n.numberFormat [(n.pattern, str% "(\\d{5})(\\d{5})")]
      [.s10,
       .leaf n.leadingDigits (str% "8"), .s10,
       .leaf n.format (str% "$1 $2"), .s8], .s6], .s6,
   .elem n.generalDesc []
    [.s8,
     .leaf n.nationalNumberPattern (str% "\n          (?:\n            [57]|\n            8\\d\\d\n          )\\d{7}|\n          [2-468]\\d{6}\n        "), .s6], .s6, .comment, .s6,
   .elem n.fixedLine []
    [.s8,
     .empty n.possibleLengths [(n.national, str% "7,8")], .s8,
     .leaf n.exampleNumber (str% "54480123"), .s8,
     .leaf n.nationalNumberPattern (str% "\n          (?:\n            2(?:\n              [0346-8]\\d|\n              1[0-8]\n            )|\n            4(?:\n              [013568]\\d|\n              2[0-24-8]|\n              71|\n              90\n            )|\n            54(?:\n              [3-5]\\d|\n              71\n            )|\n            6\\d\\d|\n            8(?:\n              14|\n              3[129]\n            )\n          )\\d{4}\n        "), .s6], .s6,
   .elem n.mobile []
    [.s8,
     .empty n.possibleLengths [(n.national, str% "8")], .s8,
     .leaf n.exampleNumber (str% "52512345"), .s8,
     .leaf n.nationalNumberPattern (str% "\n          5(?:\n            4(?:\n              2[1-389]|\n              7[1-9]\n            )|\n            87[15-8]\n          )\\d{4}|\n          (?:\n            5(?:\n              2[5-9]|\n              4[3-689]|\n              [57]\\d|\n              8[0-689]|\n              9[0-8]\n            )|\n            7(?:\n              0[0-7]|\n              3[013]\n            )\n          )\\d{5}\n        "), .s6], .s6,
   .elem n.pager []
    [.s8,
     .empty n.possibleLengths [(n.national, str% "7")], .s8,
     .leaf n.exampleNumber (str% "2190123"), .s8,
     .leaf n.nationalNumberPattern (str% "219\\d{4}"), .s6], .s6, .comment, .s6,
   .elem n.tollFree []
    [.s8,
     .empty n.possibleLengths [(n.national, str% "7,10")], .s8,
     .leaf n.exampleNumber (str% "8001234"), .s8,
     .leaf n.nationalNumberPattern (str% "\n          802\\d{7}|\n          80[0-2]\\d{4}\n        "), .s6], .s6,
   .elem n.premiumRate []
    [.s8,
     .empty n.possibleLengths [(n.national, str% "7")], .s8,
     .leaf n.exampleNumber (str% "3012345"), .s8,
     .leaf n.nationalNumberPattern (str% "30\\d{5}"), .s6], .s6,
   .elem n.voip []
    [.s8,
     .empty n.possibleLengths [(n.national, str% "7")], .s8,
     .leaf n.exampleNumber (str% "3201234"), .s8,
     .leaf n.nationalNumberPattern (str% "\n          3(?:\n            20|\n            9\\d\n          )\\d{4}\n        "), .s6], .s4]

/-- what stands before this territory -/
noncomputable def MV_before : List Node :=
  [.l4, .comment, .s4, .comment, .s4, .comment, .s4]
/-- its attributes -/
noncomputable def MV_attrs : List (Str × Str) := [(n.id, str% "MV"), (n.countryCode, str% "960"), (n.preferredInternationalPrefix, str% "00"), (n.internationalPrefix, str% "0(?:0|19)")]
/-- its content -/
noncomputable def MV : List Node :=
  [.s6,
   .elem n.availableFormats []
    [.s8,
     .elem n.numberFormat [(n.pattern, str% "(\\d{3})(\\d{4})")]
      [.s10,
       .leaf n.leadingDigits (str% "[34679]"), .s10,
       .leaf n.format (str% "$1-$2"), .s8], .s8, .comment, .s8,
     .elem n.numberFormat [(n.pattern, str% "(\\d{3})(\\d{3})(\\d{4})")]
      [.s10,
       .leaf n.leadingDigits (str% "[89]"), .s10,
       .leaf n.format (str% "$1 $2 $3"), .s8], .s6], .s6,
   .elem n.generalDesc []
    [.s8,
     .leaf n.nationalNumberPattern (str% "\n          (?:\n            800|\n            9[0-57-9]\\d\n          )\\d{7}|\n          [34679]\\d{6}\n        "), .s6], .s6, .comment, .s6,
   .elem n.fixedLine []
    [.s8,
     .empty n.possibleLengths [(n.national, str% "7")], .s8,
     .leaf n.exampleNumber (str% "6701234"), .s8,
     .leaf n.nationalNumberPattern (str% "\n          (?:\n            3(?:\n              0[0-4]|\n              3[0-59]\n            )|\n            6(?:\n              [58][024689]|\n              6[024-68]|\n              7[02468]\n            )\n          )\\d{4}\n        "), .s6], .s6, .comment, .s6,
   .elem n.mobile []
    [.s8,
     .empty n.possibleLengths [(n.national, str% "7")], .s8,
     .leaf n.exampleNumber (str% "7712345"), .s8,
     .leaf n.nationalNumberPattern (str% "\n          (?:\n            46[46]|\n            [79]\\d\\d\n          )\\d{4}\n        "), .s6], .s6,
   .elem n.tollFree []
    [.s8,
     .empty n.possibleLengths [(n.national, str% "10")], .s8,
     .leaf n.exampleNumber (str% "8001234567"), .s8,
     .leaf n.nationalNumberPattern (str% "800\\d{7}"), .s6], .s6,
   .elem n.premiumRate []
    [.s8,
     .empty n.possibleLengths [(n.national, str% "10")], .s8,
     .leaf n.exampleNumber (str% "9001234567"), .s8,
     .leaf n.nationalNumberPattern (str% "900\\d{7}"), .s6], .s6, .comment, .s6,
   .elem n.uan []
    [.s8,
     .empty n.possibleLengths [(n.national, str% "7")], .s8,
     .leaf n.exampleNumber (str% "4001234"), .s8,
     .leaf n.nationalNumberPattern (str% "\n          4(?:\n            0[01]|\n            50\n          )\\d{4}\n        "), .s6], .s4]

/-- what stands before this territory -/
noncomputable def MW_before : List Node :=
  [.l4, .comment, .s4, .comment, .s4, .comment, .s4]
/-- its attributes -/
noncomputable def MW_attrs : List (Str × Str) := [(n.id, str% "MW"), (n.countryCode, str% "265"), (n.internationalPrefix, str% "00"), (n.nationalPrefix, str% "0")]
/-- its content -/
noncomputable def MW : List Node :=
  [.s6,
   .elem n.availableFormats []
    [.s8,
     .elem n.numberFormat [(n.pattern, str% "(\\d)(\\d{3})(\\d{3})"), (n.nationalPrefixFormattingRule, str% "$NP$FG")]
      [.s10,
       .leaf n.leadingDigits (str% "1[2-9]"), .s10,
       .leaf n.format (str% "$1 $2 $3"), .s8], .s8,
     .elem n.numberFormat [(n.pattern, str% "(\\d{3})(\\d{2})(\\d{2})(\\d{2})"), (n.nationalPrefixFormattingRule, str% "$NP$FG")]
      [.s10,
       .leaf n.leadingDigits (str% "[1-37-9]"), .s10,
       .leaf n.format (str% "$1 $2 $3 $4"), .s8], .s6], .s6,
   .elem n.generalDesc []
    [.s8,
     .leaf n.nationalNumberPattern (str% "\n          (?:\n            [1289]\\d|\n            31|\n            77\n          )\\d{7}|\n          1\\d{6}\n        "), .s6], .s6, .comment, .s6,
   .elem n.fixedLine []
    [.s8,
     .empty n.possibleLengths [(n.national, str% "7")], .s8,
     .leaf n.exampleNumber (str% "1234567"), .s8,
     .leaf n.nationalNumberPattern (str% "1[2-9]\\d{5}"), .s6], .s6,
   .elem n.mobile []
    [.s8,
     .empty n.possibleLengths [(n.national, str% "9")], .s8,
     .leaf n.exampleNumber (str% "991234567"), .s8,
     .leaf n.nationalNumberPattern (str% "\n          111\\d{6}|\n          (?:\n            2[12]|\n            31|\n            77|\n            [89][89]\n          )\\d{7}\n        "), .s6], .s4]

/-- what stands before this territory -/
noncomputable def MX_before : List Node :=
  [.l4, .comment, .s4, .comment, .s4, .comment, .s4, .comment, .s4, .comment, .s4, .comment, .s4]
/-- its attributes -/
noncomputable def MX_attrs : List (Str × Str) := [(n.id, str% "MX"), (n.countryCode, str% "52"), (n.preferredInternationalPrefix, str% "00"), (n.internationalPrefix, str% "0[09]"), (n.mobileNumberPortableRegion, str% "true")]
/-- its content -/
noncomputable def MX : List Node :=
  [.s6,
   .elem n.availableFormats []
    [.s8, .comment, .s8,
     .elem n.numberFormat [(n.pattern, str% "(\\d{5})")]
      [.s10,
       .leaf n.leadingDigits (str% "53"), .s10,
       .leaf n.format (str% "$1"), .s10,
       .leaf n.intlFormat (str% "NA"), .s8], .s8, .comment, .s8,
     .elem n.numberFormat [(n.pattern, str% "(\\d{2})(\\d{4})(\\d{4})")]
      [.s10,
       .leaf n.leadingDigits (str% "\n            33|\n            5[56]|\n            81\n          "), .s10,
       .leaf n.format (str% "$1 $2 $3"), .s8], .s8, .comment, .s8,
     .elem n.numberFormat [(n.pattern, str% "(\\d{3})(\\d{3})(\\d{4})")]
      [.s10,
       .leaf n.leadingDigits (str% "[2-9]"), .s10,
       .leaf n.format (str% "$1 $2 $3"), .s8], .s6], .s6,
   .elem n.generalDesc []
    [.s8,
     .leaf n.nationalNumberPattern (str% "[2-9]\\d{9}"), .s6], .s6, .comment, .s6, .comment, .s6,
   .elem n.fixedLine []
    [.s8,
     .empty n.possibleLengths [(n.national, str% "10"), (n.localOnly, str% "7,8")], .s8,
     .leaf n.exampleNumber (str% "2001234567"), .s8,
     .leaf n.nationalNumberPattern (str% "\n          (?:\n            2(?:\n              0[01]|\n              2\\d|\n              3[1-35-8]|\n              4[13-9]|\n              7[1-689]|\n              8[1-578]|\n              9[467]\n            )|\n            3(?:\n              1[1-79]|\n              [2458][1-9]|\n              3\\d|\n              7[1-8]|\n              9[1-5]\n            )|\n            4(?:\n              1[1-57-9]|\n              [267][1-9]|\n              3[1-8]|\n              [45]\\d|\n              8[1-35-9]|\n              9[2-689]\n            )|\n            5(?:\n              [56]\\d|\n              88|\n              9[1-79]\n            )|\n            6(?:\n              1[2-68]|\n              [2-4][1-9]|\n              5[1-36-9]|\n              6[0-57-9]|\n              7[1-7]|\n              8[67]|\n              9[4-8]\n            )|\n            7(?:\n              [1346][1-9]|\n              [27]\\d|\n              5[13-9]|\n              8[1-69]|\n              9[17]\n            )|\n            8(?:\n              1\\d|\n              2[13-689]|\n              3[1-6]|\n              4[124-6]|\n              6[1246-9]|\n              7[0-378]|\n              9[12479]\n            )|\n            9(?:\n              1[346-9]|\n              2[1-4]|\n              3[2-46-8]|\n              5[1348]|\n              [69]\\d|\n              7[12]|\n              8[1-8]\n            )\n          )\\d{7}\n        "), .s6], .s6, .comment, .s6,
   .elem n.mobile []
    [.s8,
     .empty n.possibleLengths [(n.national, str% "10"), (n.localOnly, str% "7,8")], .s8,
     .leaf n.exampleNumber (str% "2221234567"), .s8,
     .leaf n.nationalNumberPattern (str% "\n          (?:\n            2(?:\n              2\\d|\n              3[1-35-8]|\n              4[13-9]|\n              7[1-689]|\n              8[1-578]|\n              9[467]\n            )|\n            3(?:\n              1[1-79]|\n              [2458][1-9]|\n              3\\d|\n              7[1-8]|\n              9[1-5]\n            )|\n            4(?:\n              1[1-57-9]|\n              [267][1-9]|\n              3[1-8]|\n              [45]\\d|\n              8[1-35-9]|\n              9[2-689]\n            )|\n            5(?:\n              [56]\\d|\n              88|\n              9[1-79]\n            )|\n            6(?:\n              1[2-68]|\n              [2-4][1-9]|\n              5[1-36-9]|\n              6[0-57-9]|\n              7[1-7]|\n              8[67]|\n              9[4-8]\n            )|\n            7(?:\n              [1346][1-9]|\n              [27]\\d|\n              5[13-9]|\n              8[1-69]|\n              9[17]\n            )|\n            8(?:\n              1\\d|\n              2[13-689]|\n              3[1-6]|\n              4[124-6]|\n              6[1246-9]|\n              7[0-378]|\n              9[12479]\n            )|\n            9(?:\n              1[346-9]|\n              2[1-4]|\n              3[2-46-8]|\n              5[1348]|\n              [69]\\d|\n              7[12]|\n              8[1-8]\n            )\n          )\\d{7}\n        "), .s6], .s6,
   .elem n.tollFree []
    [.s8,
     .empty n.possibleLengths [(n.national, str% "10")], .s8,
     .leaf n.exampleNumber (str% "8001234567"), .s8,
     .leaf n.nationalNumberPattern (str% "\n          8(?:\n            00|\n            88\n          )\\d{7}\n        "), .s6], .s6,
   .elem n.premiumRate []
    [.s8,
     .empty n.possibleLengths [(n.national, str% "10")], .s8,
     .leaf n.exampleNumber (str% "9001234567"), .s8,
     .leaf n.nationalNumberPattern (str% "900\\d{7}"), .s6], .s6,
   .elem n.sharedCost []
    [.s8,
     .empty n.possibleLengths [(n.national, str% "10")], .s8,
     .leaf n.exampleNumber (str% "3001234567"), .s8,
     .leaf n.nationalNumberPattern (str% "300\\d{7}"), .s6], .s6,
   .elem n.personalNumber []
    [.s8,
     .empty n.possibleLengths [(n.national, str% "10")], .s8,
     .leaf n.exampleNumber (str% "5001234567"), .s8,
     .leaf n.nationalNumberPattern (str% "500\\d{7}"), .s6], .s4]

/-- what stands before this territory -/
noncomputable def MY_before : List Node :=
  [.l4, .comment, .s4, .comment, .s4, .comment, .s4]
/-- its attributes -/
noncomputable def MY_attrs : List (Str × Str) := [(n.id, str% "MY"), (n.countryCode, str% "60"), (n.internationalPrefix, str% "00"), (n.nationalPrefix, str% "0"), (n.mobileNumberPortableRegion, str% "true")]
/-- its content -/
noncomputable def MY : List Node :=
  [.s6,
   .elem n.availableFormats []
    [.s8, .comment, .s8,
     .elem n.numberFormat [(n.pattern, str% "(\\d)(\\d{3})(\\d{4})"), (n.nationalPrefixFormattingRule, str% "$NP$FG")]
      [.s10,
       .leaf n.leadingDigits (str% "[4-79]"), .s10,
       .leaf n.format (str% "$1-$2 $3"), .s8], .s8, .comment, .s8,
     .elem n.numberFormat [(n.pattern, str% "(\\d{2})(\\d{3})(\\d{3,4})"), (n.nationalPrefixFormattingRule, str% "$NP$FG")]
      [.s10,
       .leaf n.leadingDigits (str% "\n            1(?:\n              [02469]|\n              [378][1-9]|\n              53\n            )|\n            8\n          "), .s10,
       .leaf n.leadingDigits (str% "\n            1(?:\n              [02469]|\n              [37][1-9]|\n              53|\n              8(?:\n                [1-46-9]|\n                5[7-9]\n              )\n            )|\n            8\n          "), .s10,
       .leaf n.format (str% "$1-$2 $3"), .s8], .s8, .comment, .s8,
     .elem n.numberFormat [(n.pattern, str% "(\\d)(\\d{4})(\\d{4})"), (n.nationalPrefixFormattingRule, str% "$NP$FG")]
      [.s10,
       .leaf n.leadingDigits (str% "3"), .s10,
       .leaf n.format (str% "$1-$2 $3"), .s8], .s8, .comment, .s8,
     .elem n.numberFormat [(n.pattern, str% "(\\d)(\\d{3})(\\d{2})(\\d{4})")]
      [.s10,
       .leaf n.leadingDigits (str% "\n            1(?:\n              [367]|\n              80\n            )\n          "), .s10,
       .leaf n.format (str% "$1-$2-$3-$4"), .s8], .s8, .comment, .s8,
     .elem n.numberFormat [(n.pattern, str% "(\\d{3})(\\d{3})(\\d{4})"), (n.nationalPrefixFormattingRule, str% "$NP$FG")]
      [.s10,
       .leaf n.leadingDigits (str% "15"), .s10,
       .leaf n.format (str% "$1-$2 $3"), .s8], .s8, .comment, .s8,
     .elem n.numberFormat [(n.pattern, str% "(\\d{2})(\\d{4})(\\d{4})"), (n.nationalPrefixFormattingRule, str% "$NP$FG")]
      [.s10,
       .leaf n.leadingDigits (str% "1"), .s10,
       .leaf n.format (str% "$1-$2 $3"), .s8], .s6], .s6,
   .elem n.generalDesc []
    [.s8,
     .leaf n.nationalNumberPattern (str% "\n          1\\d{8,9}|\n          (?:\n            3\\d|\n            [4-9]\n          )\\d{7}\n        "), .s6], .s6, .comment, .s6,
   .elem n.fixedLine []
    [.s8,
     .empty n.possibleLengths [(n.national, str% "8,9"), (n.localOnly, str% "6,7")], .s8,
     .leaf n.exampleNumber (str% "323856789"), .s8,
     .leaf n.nationalNumberPattern (str% "\n          427[01]\\d{4}|\n          (?:\n            3(?:\n              2[0-36-9]|\n              3[0-368]|\n              4[0-278]|\n              5[0-24-8]|\n              6[0-467]|\n              7[1246-9]|\n              8\\d|\n              9[0-57]\n            )\\d|\n            4(?:\n              2[0-689]|\n              [3-79]\\d|\n              8[1-35689]\n            )|\n            5(?:\n              2[0-589]|\n              [3468]\\d|\n              5[0-489]|\n              7[1-9]|\n              9[23]\n            )|\n            6(?:\n              2[2-9]|\n              3[1357-9]|\n              [46]\\d|\n              5[0-6]|\n              7[0-35-9]|\n              85|\n              9[015-8]\n            )|\n            7(?:\n              [2579]\\d|\n              3[03-68]|\n              4[0-8]|\n              6[5-9]|\n              8[0-35-9]\n            )|\n            8(?:\n              [24][2-8]|\n              3[2-5]|\n              5[2-7]|\n              6[2-589]|\n              7[2-578]|\n              [89][2-9]\n            )|\n            9(?:\n              0[57]|\n              13|\n              [25-7]\\d|\n              [3489][0-8]\n            )\n          )\\d{5}\n        "), .s6], .s6, .comment, .s6,
   .elem n.mobile []
    [.s8,
     .empty n.possibleLengths [(n.national, str% "9,10")], .s8,
     .leaf n.exampleNumber (str% "123456789"), .s8,
     .leaf n.nationalNumberPattern (str% "\n          1(?:\n            (?:\n              1888[689]|\n              4400|\n              8(?:\n                47|\n                8[27]\n              )[0-4]\n            )\\d{4}|\n            9\\d{7,8}\n          )|\n          1(?:\n            0(?:\n              [23568]\\d|\n              4[0-6]|\n              7[016-9]|\n              9[0-8]\n            )|\n            1(?:\n              [1-5]\\d\\d|\n              6(?:\n                0[5-9]|\n                [1-9]\\d\n              )|\n              7(?:\n                [0-4]\\d|\n                5[0-79]|\n                6[02-4]|\n                8[02-5]\n              )\n            )|\n            (?:\n              [26]\\d|\n              [37][1-9]|\n              4[235-9]\n            )\\d|\n            5(?:\n              31|\n              9\\d\\d\n            )|\n            8(?:\n              1[23]|\n              [236]\\d|\n              4[06]|\n              5(?:\n                46|\n                [7-9]\n              )|\n              7[016-9]|\n              8[01]|\n              9[0-8]\n            )\n          )\\d{5}\n        "), .s6], .s6, .comment, .s6,
   .elem n.tollFree []
    [.s8,
     .empty n.possibleLengths [(n.national, str% "10")], .s8,
     .leaf n.exampleNumber (str% "1300123456"), .s8,
     .leaf n.nationalNumberPattern (str% "1[378]00\\d{6}"), .s6], .s6,
   .elem n.premiumRate []
    [.s8,
     .empty n.possibleLengths [(n.national, str% "10")], .s8,
     .leaf n.exampleNumber (str% "1600123456"), .s8,
     .leaf n.nationalNumberPattern (str% "1600\\d{6}"), .s6], .s6,
   .elem n.voip []
    [.s8,
     .empty n.possibleLengths [(n.national, str% "10")], .s8,
     .leaf n.exampleNumber (str% "1546012345"), .s8,
     .leaf n.nationalNumberPattern (str% "\n          15(?:\n            4(?:\n              6[0-4]\\d|\n              8(?:\n                0[125]|\n                [17]\\d|\n                21|\n                3[01]|\n                4[01589]|\n                5[014]|\n                6[02]\n              )\n            )|\n            6(?:\n              32[0-6]|\n              78\\d\n            )\n          )\\d{4}\n        "), .s6], .s4]

/-- what stands before this territory -/
noncomputable def MZ_before : List Node :=
  [.l4, .comment, .s4, .comment, .s4, .comment, .s4]
/-- its attributes -/
noncomputable def MZ_attrs : List (Str × Str) := [(n.id, str% "MZ"), (n.countryCode, str% "258"), (n.internationalPrefix, str% "00")]
/-- its content -/
noncomputable def MZ : List Node :=
  [.s6,
   .elem n.availableFormats []
    [.s8,
     .elem n.numberFormat [(n.pattern, str% "(\\d{2})(\\d{3})(\\d{3,4})")]
      [.s10,
       .leaf n.leadingDigits (str% "\n            2|\n            8[2-79]\n          "), .s10,
       .leaf n.format (str% "$1 $2 $3"), .s8], .s8,
     .elem n.numberFormat [(n.pattern, str% "(\\d{3})(\\d{3})(\\d{3})")]
      [.s10,
       .leaf n.leadingDigits (str% "8"), .s10,
       .leaf n.format (str% "$1 $2 $3"), .s8], .s6], .s6,
   .elem n.generalDesc []
    [.s8,
     .leaf n.nationalNumberPattern (str% "\n          (?:\n            2|\n            8\\d\n          )\\d{7}\n        "), .s6], .s6,
   .elem n.fixedLine []
    [.s8,
     .empty n.possibleLengths [(n.national, str% "8")], .s8,
     .leaf n.exampleNumber (str% "21123456"), .s8,
     .leaf n.nationalNumberPattern (str% "\n          2(?:\n            [1346]\\d|\n            5[0-2]|\n            [78][12]|\n            93\n          )\\d{5}\n        "), .s6], .s6,
   .elem n.mobile []
    [.s8,
     .empty n.possibleLengths [(n.national, str% "9")], .s8,
     .leaf n.exampleNumber (str% "821234567"), .s8,
     .leaf n.nationalNumberPattern (str% "8[2-79]\\d{7}"), .s6], .s6, .comment, .s6,
   .elem n.tollFree []
    [.s8,
     .empty n.possibleLengths [(n.national, str% "9")], .s8,
     .leaf n.exampleNumber (str% "800123456"), .s8,
     .leaf n.nationalNumberPattern (str% "800\\d{6}"), .s6], .s4]

/-- the nodes of this module -/
noncomputable def chunk10 : List (List Node × List (Str × Str) × List Node) :=
  [(MG_before, MG_attrs, MG), (MH_before, MH_attrs, MH), (MK_before, MK_attrs, MK), (ML_before, ML_attrs, ML),
   (MM_before, MM_attrs, MM), (MN_before, MN_attrs, MN), (MO_before, MO_attrs, MO), (MP_before, MP_attrs, MP),
   (MQ_before, MQ_attrs, MQ), (MR_before, MR_attrs, MR), (MS_before, MS_attrs, MS), (MT_before, MT_attrs, MT),
   (MU_before, MU_attrs, MU), (MV_before, MV_attrs, MV), (MW_before, MW_attrs, MW), (MX_before, MX_attrs, MX),
   (MY_before, MY_attrs, MY), (MZ_before, MZ_attrs, MZ)]

end Phone.Data.X
