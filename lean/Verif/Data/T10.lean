import Verif.Model.Database
/-! Territories of `/repo/assets/PhoneNumberMetadata.xml` as `/repo/src/metadata/loader.rs` reads them.
Generated by `tools/gen_data.py`; do not edit. -/

set_option maxRecDepth 100000
namespace Phone.Data

/-- territory id=MG countryCode=261 -/
noncomputable def MG : Loader.Metadata :=
  { general := some { nationalNumber := some (str% "[23]\\d{8}") },
    fixedLine := some { nationalNumber := some (str% "\n          2072[29]\\d{4}|\n          20(?:\n            2\\d|\n            4[47]|\n            5[3467]|\n            6[279]|\n            7[356]|\n            8[268]|\n            9[2457]\n          )\\d{5}\n        "), possibleLength := [9], possibleLocalLength := [7], example? := some (str% "202123456") },
    mobile := some { nationalNumber := some (str% "3[2-9]\\d{7}"), possibleLength := [9], example? := some (str% "321234567") },
    voip := some { nationalNumber := some (str% "22\\d{7}"), possibleLength := [9], example? := some (str% "221234567") },
    id := some (str% "MG"),
    countryCode := some 261,
    internationalPrefix := some (str% "00"),
    nationalPrefix := some (str% "0"),
    nationalPrefixForParsing := some (str% "([24-9]\\d{6})$|0"),
    nationalPrefixTransformRule := some (str% "20$1"),
    formats := [
      { pattern := some (str% "(\\d{2})(\\d{2})(\\d{3})(\\d{2})"), format := some (str% "$1 $2 $3 $4"), leadingDigits := [str% "[23]"], nationalPrefixFormattingRule := some (str% "$NP$FG") }],
    internationalFormats := [
      { pattern := some (str% "(\\d{2})(\\d{2})(\\d{3})(\\d{2})"), format := some (str% "$1 $2 $3 $4"), leadingDigits := [str% "[23]"], nationalPrefixFormattingRule := some (str% "$NP$FG") }] }

/-- territory id=MH countryCode=692 -/
noncomputable def MH : Loader.Metadata :=
  { general := some { nationalNumber := some (str% "\n          329\\d{4}|\n          (?:\n            [256]\\d|\n            45\n          )\\d{5}\n        ") },
    fixedLine := some { nationalNumber := some (str% "\n          (?:\n            247|\n            528|\n            625\n          )\\d{4}\n        "), possibleLength := [7], example? := some (str% "2471234") },
    mobile := some { nationalNumber := some (str% "\n          (?:\n            (?:\n              23|\n              54\n            )5|\n            329|\n            45[35-8]\n          )\\d{4}\n        "), possibleLength := [7], example? := some (str% "2351234") },
    voip := some { nationalNumber := some (str% "635\\d{4}"), possibleLength := [7], example? := some (str% "6351234") },
    id := some (str% "MH"),
    countryCode := some 692,
    internationalPrefix := some (str% "011"),
    nationalPrefix := some (str% "1"),
    formats := [
      { pattern := some (str% "(\\d{3})(\\d{4})"), format := some (str% "$1-$2"), leadingDigits := [str% "[2-6]"] }],
    internationalFormats := [
      { pattern := some (str% "(\\d{3})(\\d{4})"), format := some (str% "$1-$2"), leadingDigits := [str% "[2-6]"] }] }

/-- territory id=MK countryCode=389 -/
noncomputable def MK : Loader.Metadata :=
  { general := some { nationalNumber := some (str% "[2-578]\\d{7}") },
    fixedLine := some { nationalNumber := some (str% "\n          (?:\n            (?:\n              2(?:\n                62|\n                77\n              )0|\n              3444\n            )\\d|\n            4[56]440\n          )\\d{3}|\n          (?:\n            34|\n            4[357]\n          )700\\d{3}|\n          (?:\n            2(?:\n              [0-3]\\d|\n              5[0-578]|\n              6[01]|\n              82\n            )|\n            3(?:\n              1[3-68]|\n              [23][2-68]|\n              4[23568]\n            )|\n            4(?:\n              [23][2-68]|\n              4[3-68]|\n              5[2568]|\n              6[25-8]|\n              7[24-68]|\n              8[4-68]\n            )\n          )\\d{5}\n        "), possibleLength := [8], possibleLocalLength := [6, 7], example? := some (str% "22012345") },
    mobile := some { nationalNumber := some (str% "\n          7(?:\n            3555|\n            (?:\n              474|\n              9[019]7\n            )7\n          )\\d{3}|\n          7(?:\n            [0-25-8]\\d\\d|\n            3(?:\n              [1-478]\\d|\n              6[01]\n            )|\n            4(?:\n              2\\d|\n              60|\n              7[01578]\n            )|\n            9(?:\n              [2-4]\\d|\n              5[01]|\n              7[015]\n            )\n          )\\d{4}\n        "), possibleLength := [8], example? := some (str% "72345678") },
    tollFree := some { nationalNumber := some (str% "800\\d{5}"), possibleLength := [8], example? := some (str% "80012345") },
    premiumRate := some { nationalNumber := some (str% "5\\d{7}"), possibleLength := [8], example? := some (str% "50012345") },
    sharedCost := some { nationalNumber := some (str% "\n          8(?:\n            0[1-9]|\n            [1-9]\\d\n          )\\d{5}\n        "), possibleLength := [8], example? := some (str% "80123456") },
    id := some (str% "MK"),
    countryCode := some 389,
    internationalPrefix := some (str% "00"),
    nationalPrefix := some (str% "0"),
    formats := [
      { pattern := some (str% "(\\d)(\\d{3})(\\d{4})"), format := some (str% "$1 $2 $3"), leadingDigits := [str% "\n            2|\n            34[47]|\n            4(?:\n              [37]7|\n              5[47]|\n              64\n            )\n          "], nationalPrefixFormattingRule := some (str% "$NP$FG") },
      { pattern := some (str% "(\\d{2})(\\d{3})(\\d{3})"), format := some (str% "$1 $2 $3"), leadingDigits := [str% "[347]"], nationalPrefixFormattingRule := some (str% "$NP$FG") },
      { pattern := some (str% "(\\d{3})(\\d)(\\d{2})(\\d{2})"), format := some (str% "$1 $2 $3 $4"), leadingDigits := [str% "[58]"], nationalPrefixFormattingRule := some (str% "$NP$FG") }],
    internationalFormats := [
      { pattern := some (str% "(\\d)(\\d{3})(\\d{4})"), format := some (str% "$1 $2 $3"), leadingDigits := [str% "\n            2|\n            34[47]|\n            4(?:\n              [37]7|\n              5[47]|\n              64\n            )\n          "], nationalPrefixFormattingRule := some (str% "$NP$FG") },
      { pattern := some (str% "(\\d{2})(\\d{3})(\\d{3})"), format := some (str% "$1 $2 $3"), leadingDigits := [str% "[347]"], nationalPrefixFormattingRule := some (str% "$NP$FG") },
      { pattern := some (str% "(\\d{3})(\\d)(\\d{2})(\\d{2})"), format := some (str% "$1 $2 $3 $4"), leadingDigits := [str% "[58]"], nationalPrefixFormattingRule := some (str% "$NP$FG") }],
    mobileNumberPortable := true }

/-- territory id=ML countryCode=223 -/
noncomputable def ML : Loader.Metadata :=
  { general := some { nationalNumber := some (str% "[24-9]\\d{7}") },
    fixedLine := some { nationalNumber := some (str% "\n          2(?:\n            07[0-8]|\n            12[67]\n          )\\d{4}|\n          (?:\n            2(?:\n              02|\n              1[4-689]\n            )|\n            4(?:\n              0[0-4]|\n              4[1-59]\n            )\n          )\\d{5}\n        "), possibleLength := [8], example? := some (str% "20212345") },
    mobile := some { nationalNumber := some (str% "\n          2(?:\n            0(?:\n              01|\n              79\n            )|\n            17\\d\n          )\\d{4}|\n          (?:\n            5[0-3]|\n            [679]\\d|\n            8[2-59]\n          )\\d{6}\n        "), possibleLength := [8], example? := some (str% "65012345") },
    tollFree := some { nationalNumber := some (str% "80\\d{6}"), possibleLength := [8], example? := some (str% "80012345") },
    noInternational := some { nationalNumber := some (str% "80\\d{6}"), possibleLength := [8] },
    id := some (str% "ML"),
    countryCode := some 223,
    internationalPrefix := some (str% "00"),
    formats := [
      { pattern := some (str% "(\\d{4})"), format := some (str% "$1"), leadingDigits := [str% "\n            67[057-9]|\n            74[045]\n          ", str% "\n            67(?:\n              0[09]|\n              [59]9|\n              77|\n              8[89]\n            )|\n            74(?:\n              0[02]|\n              44|\n              55\n            )\n          "] },
      { pattern := some (str% "(\\d{2})(\\d{2})(\\d{2})(\\d{2})"), format := some (str% "$1 $2 $3 $4"), leadingDigits := [str% "[24-9]"] }],
    internationalFormats := [
      { pattern := some (str% "(\\d{2})(\\d{2})(\\d{2})(\\d{2})"), format := some (str% "$1 $2 $3 $4"), leadingDigits := [str% "[24-9]"] }] }

/-- territory id=MM countryCode=95 -/
noncomputable def MM : Loader.Metadata :=
  { general := some { nationalNumber := some (str% "\n          1\\d{5,7}|\n          95\\d{6}|\n          (?:\n            [4-7]|\n            9[0-46-9]\n          )\\d{6,8}|\n          (?:\n            2|\n            8\\d\n          )\\d{5,8}\n        ") },
    fixedLine := some { nationalNumber := some (str% "\n          (?:\n            1(?:\n              (?:\n                12|\n                [28]\\d|\n                3[56]|\n                7[3-6]|\n                9[0-6]\n              )\\d|\n              4(?:\n                2[29]|\n                7[0-2]|\n                83\n              )|\n              6\n            )|\n            2(?:\n              2(?:\n                00|\n                8[34]\n              )|\n              4(?:\n                0\\d|\n                22|\n                7[0-2]|\n                83\n              )|\n              51\\d\\d\n            )|\n            4(?:\n              2(?:\n                2\\d\\d|\n                48[013]\n              )|\n              3(?:\n                20\\d|\n                4(?:\n                  70|\n                  83\n                )|\n                56\n              )|\n              420\\d|\n              5(?:\n                2\\d|\n                470\n              )\n            )|\n            6(?:\n              0(?:\n                [23]|\n                88\\d\n              )|\n              (?:\n                124|\n                [56]2\\d\n              )\\d|\n              2472|\n              3(?:\n                20\\d|\n                470\n              )|\n              4(?:\n                2[04]\\d|\n                472\n              )|\n              7(?:\n                3\\d\\d|\n                4[67]0|\n                8(?:\n                  [01459]\\d|\n                  8\n                )\n              )\n            )\n          )\\d{4}|\n          5(?:\n            2(?:\n              2\\d{5,6}|\n              47[02]\\d{4}\n            )|\n            (?:\n              3472|\n              4(?:\n                2(?:\n                  1|\n                  86\n                )|\n                470\n              )|\n              522\\d|\n              6(?:\n                20\\d|\n                483\n              )|\n              7(?:\n                20\\d|\n                48[01]\n              )|\n              8(?:\n                20\\d|\n                47[02]\n              )|\n              9(?:\n                20\\d|\n                470\n              )\n            )\\d{4}\n          )|\n          7(?:\n            (?:\n              0470|\n              4(?:\n                25\\d|\n                470\n              )|\n              5(?:\n                202|\n                470|\n                96\\d\n              )\n            )\\d{4}|\n            1(?:\n              20\\d{4,5}|\n              4(?:\n                70|\n                83\n              )\\d{4}\n            )\n          )|\n          8(?:\n            1(?:\n              2\\d{5,6}|\n              4(?:\n                10|\n                7[01]\\d\n              )\\d{3}\n            )|\n            2(?:\n              2\\d{5,6}|\n              (?:\n                320|\n                490\\d\n              )\\d{3}\n            )|\n            (?:\n              3(?:\n                2\\d\\d|\n                470\n              )|\n              4[24-7]|\n              5(?:\n                (?:\n                  2\\d|\n                  51\n                )\\d|\n                4(?:\n                  [1-35-9]\\d|\n                  4[0-57-9]\n                )\n              )|\n              6[23]\n            )\\d{4}\n          )|\n          (?:\n            1[2-6]\\d|\n            4(?:\n              2[24-8]|\n              3[2-7]|\n              [46][2-6]|\n              5[3-5]\n            )|\n            5(?:\n              [27][2-8]|\n              3[2-68]|\n              4[24-8]|\n              5[23]|\n              6[2-4]|\n              8[24-7]|\n              9[2-7]\n            )|\n            6(?:\n              [19]20|\n              42[03-6]|\n              (?:\n                52|\n                7[45]\n              )\\d\n            )|\n            7(?:\n              [04][24-8]|\n              [15][2-7]|\n              22|\n              3[2-4]\n            )|\n            8(?:\n              1[2-689]|\n              2[2-8]|\n              (?:\n                [35]2|\n                64\n              )\\d\n            )\n          )\\d{4}|\n          25\\d{5,6}|\n          (?:\n            2[2-9]|\n            6(?:\n              1[2356]|\n              [24][2-6]|\n              3[24-6]|\n              5[2-4]|\n              6[2-8]|\n              7[235-7]|\n              8[245]|\n              9[24]\n            )|\n            8(?:\n              3[24]|\n              5[245]\n            )\n          )\\d{4}\n        "), possibleLength := [6, 7, 8, 9], possibleLocalLength := [5], example? := some (str% "1234567") },
    mobile := some { nationalNumber := some (str% "\n          (?:\n            17[01]|\n            9(?:\n              2(?:\n                [0-4]|\n                [56]\\d\\d\n              )|\n              (?:\n                3(?:\n                  [0-36]|\n                  4\\d\n                )|\n                (?:\n                  6\\d|\n                  8[89]|\n                  9[4-8]\n                )\\d|\n                7(?:\n                  3|\n                  40|\n                  [5-9]\\d\n                )\n              )\\d|\n              4(?:\n                (?:\n                  [0245]\\d|\n                  [1379]\n                )\\d|\n                88\n              )|\n              5[0-6]\n            )\\d\n          )\\d{4}|\n          9[69]1\\d{6}|\n          9(?:\n            [68]\\d|\n            9[089]\n          )\\d{5}\n        "), possibleLength := [7, 8, 9, 10], example? := some (str% "92123456") },
    tollFree := some { nationalNumber := some (str% "\n          80080(?:\n            0[1-9]|\n            2\\d\n          )\\d{3}\n        "), possibleLength := [10], example? := some (str% "8008001234") },
    voip := some { nationalNumber := some (str% "1333\\d{4}"), possibleLength := [8], example? := some (str% "13331234") },
    id := some (str% "MM"),
    countryCode := some 95,
    internationalPrefix := some (str% "00"),
    nationalPrefix := some (str% "0"),
    formats := [
      { pattern := some (str% "(\\d)(\\d{2})(\\d{3})"), format := some (str% "$1 $2 $3"), leadingDigits := [str% "\n            16|\n            2\n          "], nationalPrefixFormattingRule := some (str% "$NP$FG") },
      { pattern := some (str% "(\\d{2})(\\d{2})(\\d{3})"), format := some (str% "$1 $2 $3"), leadingDigits := [str% "\n            4(?:\n              [2-46]|\n              5[3-5]\n            )|\n            5|\n            6(?:\n              [1-689]|\n              7[235-7]\n            )|\n            7(?:\n              [0-4]|\n              5[2-7]\n            )|\n            8[1-5]|\n            (?:\n              60|\n              86\n            )[23]\n          "], nationalPrefixFormattingRule := some (str% "$NP$FG") },
      { pattern := some (str% "(\\d)(\\d{3})(\\d{3,4})"), format := some (str% "$1 $2 $3"), leadingDigits := [str% "\n            [12]|\n            452|\n            678|\n            86\n          ", str% "\n            [12]|\n            452|\n            6788|\n            86\n          "], nationalPrefixFormattingRule := some (str% "$NP$FG") },
      { pattern := some (str% "(\\d{2})(\\d{3})(\\d{3,4})"), format := some (str% "$1 $2 $3"), leadingDigits := [str% "\n            [4-7]|\n            8[1-35]\n          "], nationalPrefixFormattingRule := some (str% "$NP$FG") },
      { pattern := some (str% "(\\d)(\\d{3})(\\d{4,6})"), format := some (str% "$1 $2 $3"), leadingDigits := [str% "\n            9(?:\n              2[0-4]|\n              [35-9]|\n              4[137-9]\n            )\n          "], nationalPrefixFormattingRule := some (str% "$NP$FG") },
      { pattern := some (str% "(\\d)(\\d{4})(\\d{4})"), format := some (str% "$1 $2 $3"), leadingDigits := [str% "2"], nationalPrefixFormattingRule := some (str% "$NP$FG") },
      { pattern := some (str% "(\\d{3})(\\d{3})(\\d{4})"), format := some (str% "$1 $2 $3"), leadingDigits := [str% "8"], nationalPrefixFormattingRule := some (str% "$NP$FG") },
      { pattern := some (str% "(\\d)(\\d{3})(\\d{3})(\\d{3})"), format := some (str% "$1 $2 $3 $4"), leadingDigits := [str% "92"], nationalPrefixFormattingRule := some (str% "$NP$FG") },
      { pattern := some (str% "(\\d)(\\d{5})(\\d{4})"), format := some (str% "$1 $2 $3"), leadingDigits := [str% "9"], nationalPrefixFormattingRule := some (str% "$NP$FG") }],
    internationalFormats := [
      { pattern := some (str% "(\\d)(\\d{2})(\\d{3})"), format := some (str% "$1 $2 $3"), leadingDigits := [str% "\n            16|\n            2\n          "], nationalPrefixFormattingRule := some (str% "$NP$FG") },
      { pattern := some (str% "(\\d{2})(\\d{2})(\\d{3})"), format := some (str% "$1 $2 $3"), leadingDigits := [str% "\n            4(?:\n              [2-46]|\n              5[3-5]\n            )|\n            5|\n            6(?:\n              [1-689]|\n              7[235-7]\n            )|\n            7(?:\n              [0-4]|\n              5[2-7]\n            )|\n            8[1-5]|\n            (?:\n              60|\n              86\n            )[23]\n          "], nationalPrefixFormattingRule := some (str% "$NP$FG") },
      { pattern := some (str% "(\\d)(\\d{3})(\\d{3,4})"), format := some (str% "$1 $2 $3"), leadingDigits := [str% "\n            [12]|\n            452|\n            678|\n            86\n          ", str% "\n            [12]|\n            452|\n            6788|\n            86\n          "], nationalPrefixFormattingRule := some (str% "$NP$FG") },
      { pattern := some (str% "(\\d{2})(\\d{3})(\\d{3,4})"), format := some (str% "$1 $2 $3"), leadingDigits := [str% "\n            [4-7]|\n            8[1-35]\n          "], nationalPrefixFormattingRule := some (str% "$NP$FG") },
      { pattern := some (str% "(\\d)(\\d{3})(\\d{4,6})"), format := some (str% "$1 $2 $3"), leadingDigits := [str% "\n            9(?:\n              2[0-4]|\n              [35-9]|\n              4[137-9]\n            )\n          "], nationalPrefixFormattingRule := some (str% "$NP$FG") },
      { pattern := some (str% "(\\d)(\\d{4})(\\d{4})"), format := some (str% "$1 $2 $3"), leadingDigits := [str% "2"], nationalPrefixFormattingRule := some (str% "$NP$FG") },
      { pattern := some (str% "(\\d{3})(\\d{3})(\\d{4})"), format := some (str% "$1 $2 $3"), leadingDigits := [str% "8"], nationalPrefixFormattingRule := some (str% "$NP$FG") },
      { pattern := some (str% "(\\d)(\\d{3})(\\d{3})(\\d{3})"), format := some (str% "$1 $2 $3 $4"), leadingDigits := [str% "92"], nationalPrefixFormattingRule := some (str% "$NP$FG") },
      { pattern := some (str% "(\\d)(\\d{5})(\\d{4})"), format := some (str% "$1 $2 $3"), leadingDigits := [str% "9"], nationalPrefixFormattingRule := some (str% "$NP$FG") }] }

/-- territory id=MN countryCode=976 -/
noncomputable def MN : Loader.Metadata :=
  { general := some { nationalNumber := some (str% "\n          [12]\\d{7,9}|\n          [5-9]\\d{7}\n        ") },
    fixedLine := some { nationalNumber := some (str% "\n          [12](?:\n            2[1-3]|\n            (?:\n              3[2-8]|\n              4[2-68]|\n              5[1-4689]\n            )\\d\n          )\\d{5,6}|\n          7(?:\n            0(?:\n              [0-5]\\d|\n              7[078]|\n              80\n            )|\n            128\n          )\\d{4}|\n          [12]27\\d{6}|\n          (?:\n            11|\n            2[16]|\n            5[368]\n          )\\d{6}\n        "), possibleLength := [8, 9, 10], possibleLocalLength := [4, 5, 6], example? := some (str% "53123456") },
    mobile := some { nationalNumber := some (str% "\n          (?:\n            87[01]|\n            92[0139]\n          )\\d{5}|\n          (?:\n            5[05]|\n            6[069]|\n            7[28]|\n            8[0135689]|\n            9[013-9]\n          )\\d{6}\n        "), possibleLength := [8], example? := some (str% "88123456") },
    voip := some { nationalNumber := some (str% "\n          712[0-79]\\d{4}|\n          7(?:\n            1[013-9]|\n            [5-79]\\d\n          )\\d{5}\n        "), possibleLength := [8], example? := some (str% "75123456") },
    id := some (str% "MN"),
    countryCode := some 976,
    internationalPrefix := some (str% "001"),
    nationalPrefix := some (str% "0"),
    formats := [
      { pattern := some (str% "(\\d{2})(\\d{2})(\\d{4})"), format := some (str% "$1 $2 $3"), leadingDigits := [str% "\n            11|\n            2[16]\n          "], nationalPrefixFormattingRule := some (str% "$NP$FG") },
      { pattern := some (str% "(\\d{4})(\\d{4})"), format := some (str% "$1 $2"), leadingDigits := [str% "[5-9]"] },
      { pattern := some (str% "(\\d{3})(\\d{5,6})"), format := some (str% "$1 $2"), leadingDigits := [str% "[12]2[1-3]"], nationalPrefixFormattingRule := some (str% "$NP$FG") },
      { pattern := some (str% "(\\d{4})(\\d{5,6})"), format := some (str% "$1 $2"), leadingDigits := [str% "\n            [12](?:\n              27|\n              3[2-8]|\n              4[2-68]|\n              5[1-4689]\n            )\n          ", str% "\n            [12](?:\n              27|\n              3[2-8]|\n              4[2-68]|\n              5[1-4689]\n            )[0-3]\n          "], nationalPrefixFormattingRule := some (str% "$NP$FG") },
      { pattern := some (str% "(\\d{5})(\\d{4,5})"), format := some (str% "$1 $2"), leadingDigits := [str% "[12]"], nationalPrefixFormattingRule := some (str% "$NP$FG") }],
    internationalFormats := [
      { pattern := some (str% "(\\d{2})(\\d{2})(\\d{4})"), format := some (str% "$1 $2 $3"), leadingDigits := [str% "\n            11|\n            2[16]\n          "], nationalPrefixFormattingRule := some (str% "$NP$FG") },
      { pattern := some (str% "(\\d{4})(\\d{4})"), format := some (str% "$1 $2"), leadingDigits := [str% "[5-9]"] },
      { pattern := some (str% "(\\d{3})(\\d{5,6})"), format := some (str% "$1 $2"), leadingDigits := [str% "[12]2[1-3]"], nationalPrefixFormattingRule := some (str% "$NP$FG") },
      { pattern := some (str% "(\\d{4})(\\d{5,6})"), format := some (str% "$1 $2"), leadingDigits := [str% "\n            [12](?:\n              27|\n              3[2-8]|\n              4[2-68]|\n              5[1-4689]\n            )\n          ", str% "\n            [12](?:\n              27|\n              3[2-8]|\n              4[2-68]|\n              5[1-4689]\n            )[0-3]\n          "], nationalPrefixFormattingRule := some (str% "$NP$FG") },
      { pattern := some (str% "(\\d{5})(\\d{4,5})"), format := some (str% "$1 $2"), leadingDigits := [str% "[12]"], nationalPrefixFormattingRule := some (str% "$NP$FG") }] }

/-- territory id=MO countryCode=853 -/
noncomputable def MO : Loader.Metadata :=
  { general := some { nationalNumber := some (str% "\n          0800\\d{3}|\n          (?:\n            28|\n            [68]\\d\n          )\\d{6}\n        ") },
    fixedLine := some { nationalNumber := some (str% "\n          (?:\n            28[2-9]|\n            8(?:\n              11|\n              [2-57-9]\\d\n            )\n          )\\d{5}\n        "), possibleLength := [8], example? := some (str% "28212345") },
    mobile := some { nationalNumber := some (str% "\n          6800[0-79]\\d{3}|\n          6(?:\n            [235]\\d\\d|\n            6(?:\n              0[0-5]|\n              [1-9]\\d\n            )|\n            8(?:\n              0[1-9]|\n              [14-8]\\d|\n              2[5-9]|\n              [39][0-4]\n            )\n          )\\d{4}\n        "), possibleLength := [8], example? := some (str% "66123456") },
    tollFree := some { nationalNumber := some (str% "0800\\d{3}"), possibleLength := [7], example? := some (str% "0800501") },
    id := some (str% "MO"),
    countryCode := some 853,
    internationalPrefix := some (str% "00"),
    formats := [
      { pattern := some (str% "(\\d{4})(\\d{3})"), format := some (str% "$1 $2"), leadingDigits := [str% "0"] },
      { pattern := some (str% "(\\d{4})(\\d{4})"), format := some (str% "$1 $2"), leadingDigits := [str% "[268]"] }],
    internationalFormats := [
      { pattern := some (str% "(\\d{4})(\\d{3})"), format := some (str% "$1 $2"), leadingDigits := [str% "0"] },
      { pattern := some (str% "(\\d{4})(\\d{4})"), format := some (str% "$1 $2"), leadingDigits := [str% "[268]"] }] }

/-- territory id=MP countryCode=1 -/
noncomputable def MP : Loader.Metadata :=
  { general := some { nationalNumber := some (str% "\n          [58]\\d{9}|\n          (?:\n            67|\n            90\n          )0\\d{7}\n        ") },
    fixedLine := some { nationalNumber := some (str% "\n          670(?:\n            2(?:\n              3[3-7]|\n              56|\n              8[4-8]\n            )|\n            32[1-38]|\n            4(?:\n              33|\n              8[348]\n            )|\n            5(?:\n              32|\n              55|\n              88\n            )|\n            6(?:\n              64|\n              70|\n              82\n            )|\n            78[3589]|\n            8[3-9]8|\n            989\n          )\\d{4}\n        "), possibleLength := [10], possibleLocalLength := [7], example? := some (str% "6702345678") },
    mobile := some { nationalNumber := some (str% "\n          670(?:\n            2(?:\n              3[3-7]|\n              56|\n              8[4-8]\n            )|\n            32[1-38]|\n            4(?:\n              33|\n              8[348]\n            )|\n            5(?:\n              32|\n              55|\n              88\n            )|\n            6(?:\n              64|\n              70|\n              82\n            )|\n            78[3589]|\n            8[3-9]8|\n            989\n          )\\d{4}\n        "), possibleLength := [10], possibleLocalLength := [7], example? := some (str% "6702345678") },
    tollFree := some { nationalNumber := some (str% "\n          8(?:\n            00|\n            33|\n            44|\n            55|\n            66|\n            77|\n            88\n          )[2-9]\\d{6}\n        "), possibleLength := [10], example? := some (str% "8002123456") },
    premiumRate := some { nationalNumber := some (str% "900[2-9]\\d{6}"), possibleLength := [10], example? := some (str% "9002123456") },
    personalNumber := some { nationalNumber := some (str% "\n          52(?:\n            3(?:\n              [2-46-9][02-9]\\d|\n              5(?:\n                [02-46-9]\\d|\n                5[0-46-9]\n              )\n            )|\n            4(?:\n              [2-478][02-9]\\d|\n              5(?:\n                [034]\\d|\n                2[024-9]|\n                5[0-46-9]\n              )|\n              6(?:\n                0[1-9]|\n                [2-9]\\d\n              )|\n              9(?:\n                [05-9]\\d|\n                2[0-5]|\n                49\n              )\n            )\n          )\\d{4}|\n          52[34][2-9]1[02-9]\\d{4}|\n          5(?:\n            00|\n            2[125-9]|\n            3[23]|\n            44|\n            66|\n            77|\n            88\n          )[2-9]\\d{6}\n        "), possibleLength := [10], example? := some (str% "5002345678") },
    id := some (str% "MP"),
    countryCode := some 1,
    internationalPrefix := some (str% "011"),
    nationalPrefix := some (str% "1"),
    nationalPrefixForParsing := some (str% "([2-9]\\d{6})$|1"),
    nationalPrefixTransformRule := some (str% "670$1"),
    leadingDigits := some (str% "670") }

/-- territory id=MQ countryCode=596 -/
noncomputable def MQ : Loader.Metadata :=
  { general := some { nationalNumber := some (str% "\n          7091\\d{5}|\n          (?:\n            [56]9|\n            [89]\\d\n          )\\d{7}\n        ") },
    fixedLine := some { nationalNumber := some (str% "\n          (?:\n            59(?:\n              6(?:\n                [03-7]\\d|\n                1[05]|\n                2[7-9]|\n                8[0-39]|\n                9[04-9]\n              )|\n              89\\d\n            )|\n            80[6-9]\\d\\d|\n            9(?:\n              477[6-9]|\n              767[4589]\n            )\n          )\\d{4}\n        "), possibleLength := [9], example? := some (str% "596301234") },
    mobile := some { nationalNumber := some (str% "\n          (?:\n            69[67]\\d\\d|\n            7091[0-3]\n          )\\d{4}\n        "), possibleLength := [9], example? := some (str% "696201234") },
    tollFree := some { nationalNumber := some (str% "80[0-5]\\d{6}"), possibleLength := [9], example? := some (str% "800012345") },
    premiumRate := some { nationalNumber := some (str% "8[129]\\d{7}"), possibleLength := [9], example? := some (str% "810123456") },
    voip := some { nationalNumber := some (str% "\n          9(?:\n            397[0-3]|\n            477[0-5]|\n            76(?:\n              6\\d|\n              7[0-367]\n            )\n          )\\d{4}\n        "), possibleLength := [9], example? := some (str% "976612345") },
    id := some (str% "MQ"),
    countryCode := some 596,
    internationalPrefix := some (str% "00"),
    nationalPrefix := some (str% "0"),
    formats := [
      { pattern := some (str% "(\\d{3})(\\d{2})(\\d{2})(\\d{2})"), format := some (str% "$1 $2 $3 $4"), leadingDigits := [str% "\n            [5-79]|\n            8(?:\n              0[6-9]|\n              [36]\n            )\n          "], nationalPrefixFormattingRule := some (str% "$NP$FG") },
      { pattern := some (str% "(\\d{3})(\\d{2})(\\d{2})(\\d{2})"), format := some (str% "$1 $2 $3 $4"), leadingDigits := [str% "8"], nationalPrefixFormattingRule := some (str% "$NP$FG") }],
    internationalFormats := [
      { pattern := some (str% "(\\d{3})(\\d{2})(\\d{2})(\\d{2})"), format := some (str% "$1 $2 $3 $4"), leadingDigits := [str% "\n            [5-79]|\n            8(?:\n              0[6-9]|\n              [36]\n            )\n          "], nationalPrefixFormattingRule := some (str% "$NP$FG") },
      { pattern := some (str% "(\\d{3})(\\d{2})(\\d{2})(\\d{2})"), format := some (str% "$1 $2 $3 $4"), leadingDigits := [str% "8"], nationalPrefixFormattingRule := some (str% "$NP$FG") }],
    mobileNumberPortable := true }

/-- territory id=MR countryCode=222 -/
noncomputable def MR : Loader.Metadata :=
  { general := some { nationalNumber := some (str% "\n          (?:\n            [2-4]\\d\\d|\n            800\n          )\\d{5}\n        ") },
    fixedLine := some { nationalNumber := some (str% "\n          (?:\n            25[08]|\n            35\\d|\n            45[1-7]\n          )\\d{5}\n        "), possibleLength := [8], example? := some (str% "35123456") },
    mobile := some { nationalNumber := some (str% "[2-4][0-46-9]\\d{6}"), possibleLength := [8], example? := some (str% "22123456") },
    tollFree := some { nationalNumber := some (str% "800\\d{5}"), possibleLength := [8], example? := some (str% "80012345") },
    id := some (str% "MR"),
    countryCode := some 222,
    internationalPrefix := some (str% "00"),
    formats := [
      { pattern := some (str% "(\\d{2})(\\d{2})(\\d{2})(\\d{2})"), format := some (str% "$1 $2 $3 $4"), leadingDigits := [str% "[2-48]"] }],
    internationalFormats := [
      { pattern := some (str% "(\\d{2})(\\d{2})(\\d{2})(\\d{2})"), format := some (str% "$1 $2 $3 $4"), leadingDigits := [str% "[2-48]"] }] }

/-- territory id=MS countryCode=1 -/
noncomputable def MS : Loader.Metadata :=
  { general := some { nationalNumber := some (str% "\n          (?:\n            [58]\\d\\d|\n            664|\n            900\n          )\\d{7}\n        ") },
    fixedLine := some { nationalNumber := some (str% "\n          6644(?:\n            1[0-3]|\n            91\n          )\\d{4}\n        "), possibleLength := [10], possibleLocalLength := [7], example? := some (str% "6644912345") },
    mobile := some { nationalNumber := some (str% "\n          664(?:\n            3(?:\n              49|\n              9[1-6]\n            )|\n            49[2-6]\n          )\\d{4}\n        "), possibleLength := [10], possibleLocalLength := [7], example? := some (str% "6644923456") },
    tollFree := some { nationalNumber := some (str% "\n          8(?:\n            00|\n            33|\n            44|\n            55|\n            66|\n            77|\n            88\n          )[2-9]\\d{6}\n        "), possibleLength := [10], example? := some (str% "8002123456") },
    premiumRate := some { nationalNumber := some (str% "900[2-9]\\d{6}"), possibleLength := [10], example? := some (str% "9002123456") },
    personalNumber := some { nationalNumber := some (str% "\n          52(?:\n            3(?:\n              [2-46-9][02-9]\\d|\n              5(?:\n                [02-46-9]\\d|\n                5[0-46-9]\n              )\n            )|\n            4(?:\n              [2-478][02-9]\\d|\n              5(?:\n                [034]\\d|\n                2[024-9]|\n                5[0-46-9]\n              )|\n              6(?:\n                0[1-9]|\n                [2-9]\\d\n              )|\n              9(?:\n                [05-9]\\d|\n                2[0-5]|\n                49\n              )\n            )\n          )\\d{4}|\n          52[34][2-9]1[02-9]\\d{4}|\n          5(?:\n            00|\n            2[125-9]|\n            3[23]|\n            44|\n            66|\n            77|\n            88\n          )[2-9]\\d{6}\n        "), possibleLength := [10], example? := some (str% "5002345678") },
    id := some (str% "MS"),
    countryCode := some 1,
    internationalPrefix := some (str% "011"),
    nationalPrefix := some (str% "1"),
    nationalPrefixForParsing := some (str% "([34]\\d{6})$|1"),
    nationalPrefixTransformRule := some (str% "664$1"),
    leadingDigits := some (str% "664"),
    mobileNumberPortable := true }

/-- territory id=MT countryCode=356 -/
noncomputable def MT : Loader.Metadata :=
  { general := some { nationalNumber := some (str% "\n          3550\\d{4}|\n          (?:\n            [2579]\\d\\d|\n            800\n          )\\d{5}\n        ") },
    fixedLine := some { nationalNumber := some (str% "\n          20(?:\n            3[1-4]|\n            6[059]\n          )\\d{4}|\n          2(?:\n            0[19]|\n            [1-357]\\d|\n            60\n          )\\d{5}\n        "), possibleLength := [8], example? := some (str% "21001234") },
    mobile := some { nationalNumber := some (str% "\n          (?:\n            7(?:\n              210|\n              [79]\\d\\d\n            )|\n            9(?:\n              [29]\\d\\d|\n              69[67]|\n              8(?:\n                1[1-3]|\n                89|\n                97\n              )\n            )\n          )\\d{4}\n        "), possibleLength := [8], example? := some (str% "96961234") },
    tollFree := some { nationalNumber := some (str% "\n          800(?:\n            02|\n            [3467]\\d\n          )\\d{3}\n        "), possibleLength := [8], example? := some (str% "80071234") },
    premiumRate := some { nationalNumber := some (str% "\n          5(?:\n            0(?:\n              0(?:\n                37|\n                43\n              )|\n              (?:\n                6\\d|\n                70|\n                9[0168]\n              )\\d\n            )|\n            [12]\\d0[1-5]\n          )\\d{3}\n        "), possibleLength := [8], example? := some (str% "50037123") },
    voip := some { nationalNumber := some (str% "3550\\d{4}"), possibleLength := [8], example? := some (str% "35501234") },
    pager := some { nationalNumber := some (str% "7117\\d{4}"), possibleLength := [8], example? := some (str% "71171234") },
    uan := some { nationalNumber := some (str% "501\\d{5}"), possibleLength := [8], example? := some (str% "50112345") },
    id := some (str% "MT"),
    countryCode := some 356,
    internationalPrefix := some (str% "00"),
    formats := [
      { pattern := some (str% "(\\d{4})(\\d{4})"), format := some (str% "$1 $2"), leadingDigits := [str% "[2357-9]"] }],
    internationalFormats := [
      { pattern := some (str% "(\\d{4})(\\d{4})"), format := some (str% "$1 $2"), leadingDigits := [str% "[2357-9]"] }],
    mobileNumberPortable := true }

/-- territory id=MU countryCode=230 -/
noncomputable def MU : Loader.Metadata :=
  { general := some { nationalNumber := some (str% "\n          (?:\n            [57]|\n            8\\d\\d\n          )\\d{7}|\n          [2-468]\\d{6}\n        ") },
    fixedLine := some { nationalNumber := some (str% "\n          (?:\n            2(?:\n              [0346-8]\\d|\n              1[0-8]\n            )|\n            4(?:\n              [013568]\\d|\n              2[0-24-8]|\n              71|\n              90\n            )|\n            54(?:\n              [3-5]\\d|\n              71\n            )|\n            6\\d\\d|\n            8(?:\n              14|\n              3[129]\n            )\n          )\\d{4}\n        "), possibleLength := [7, 8], example? := some (str% "54480123") },
    mobile := some { nationalNumber := some (str% "\n          5(?:\n            4(?:\n              2[1-389]|\n              7[1-9]\n            )|\n            87[15-8]\n          )\\d{4}|\n          (?:\n            5(?:\n              2[5-9]|\n              4[3-689]|\n              [57]\\d|\n              8[0-689]|\n              9[0-8]\n            )|\n            7(?:\n              0[0-7]|\n              3[013]\n            )\n          )\\d{5}\n        "), possibleLength := [8], example? := some (str% "52512345") },
    tollFree := some { nationalNumber := some (str% "\n          802\\d{7}|\n          80[0-2]\\d{4}\n        "), possibleLength := [7, 10], example? := some (str% "8001234") },
    premiumRate := some { nationalNumber := some (str% "30\\d{5}"), possibleLength := [7], example? := some (str% "3012345") },
    voip := some { nationalNumber := some (str% "\n          3(?:\n            20|\n            9\\d\n          )\\d{4}\n        "), possibleLength := [7], example? := some (str% "3201234") },
    pager := some { nationalNumber := some (str% "219\\d{4}"), possibleLength := [7], example? := some (str% "2190123") },
    id := some (str% "MU"),
    countryCode := some 230,
    internationalPrefix := some (str% "0(?:0|[24-7]0|3[03])"),
    preferredInternationalPrefix := some (str% "020"),
    formats := [
      { pattern := some (str% "(\\d{3})(\\d{4})"), format := some (str% "$1 $2"), leadingDigits := [str% "\n            [2-46]|\n            8[013]\n          "] },
      { pattern := some (str% "(\\d{4})(\\d{4})"), format := some (str% "$1 $2"), leadingDigits := [str% "[57]"] },
      { pattern := some (str% "(\\d{5})(\\d{5})"), format := some (str% "$1 $2"), leadingDigits := [str% "8"] }],
    internationalFormats := [
      { pattern := some (str% "(\\d{3})(\\d{4})"), format := some (str% "$1 $2"), leadingDigits := [str% "\n            [2-46]|\n            8[013]\n          "] },
      { pattern := some (str% "(\\d{4})(\\d{4})"), format := some (str% "$1 $2"), leadingDigits := [str% "[57]"] },
      { pattern := some (str% "(\\d{5})(\\d{5})"), format := some (str% "$1 $2"), leadingDigits := [str% "8"] }] }

/-- territory id=MV countryCode=960 -/
noncomputable def MV : Loader.Metadata :=
  { general := some { nationalNumber := some (str% "\n          (?:\n            800|\n            9[0-57-9]\\d\n          )\\d{7}|\n          [34679]\\d{6}\n        ") },
    fixedLine := some { nationalNumber := some (str% "\n          (?:\n            3(?:\n              0[0-4]|\n              3[0-59]\n            )|\n            6(?:\n              [58][024689]|\n              6[024-68]|\n              7[02468]\n            )\n          )\\d{4}\n        "), possibleLength := [7], example? := some (str% "6701234") },
    mobile := some { nationalNumber := some (str% "\n          (?:\n            46[46]|\n            [79]\\d\\d\n          )\\d{4}\n        "), possibleLength := [7], example? := some (str% "7712345") },
    tollFree := some { nationalNumber := some (str% "800\\d{7}"), possibleLength := [10], example? := some (str% "8001234567") },
    premiumRate := some { nationalNumber := some (str% "900\\d{7}"), possibleLength := [10], example? := some (str% "9001234567") },
    uan := some { nationalNumber := some (str% "\n          4(?:\n            0[01]|\n            50\n          )\\d{4}\n        "), possibleLength := [7], example? := some (str% "4001234") },
    id := some (str% "MV"),
    countryCode := some 960,
    internationalPrefix := some (str% "0(?:0|19)"),
    preferredInternationalPrefix := some (str% "00"),
    formats := [
      { pattern := some (str% "(\\d{3})(\\d{4})"), format := some (str% "$1-$2"), leadingDigits := [str% "[34679]"] },
      { pattern := some (str% "(\\d{3})(\\d{3})(\\d{4})"), format := some (str% "$1 $2 $3"), leadingDigits := [str% "[89]"] }],
    internationalFormats := [
      { pattern := some (str% "(\\d{3})(\\d{4})"), format := some (str% "$1-$2"), leadingDigits := [str% "[34679]"] },
      { pattern := some (str% "(\\d{3})(\\d{3})(\\d{4})"), format := some (str% "$1 $2 $3"), leadingDigits := [str% "[89]"] }] }

/-- territory id=MW countryCode=265 -/
noncomputable def MW : Loader.Metadata :=
  { general := some { nationalNumber := some (str% "\n          (?:\n            [1289]\\d|\n            31|\n            77\n          )\\d{7}|\n          1\\d{6}\n        ") },
    fixedLine := some { nationalNumber := some (str% "1[2-9]\\d{5}"), possibleLength := [7], example? := some (str% "1234567") },
    mobile := some { nationalNumber := some (str% "\n          111\\d{6}|\n          (?:\n            2[12]|\n            31|\n            77|\n            [89][89]\n          )\\d{7}\n        "), possibleLength := [9], example? := some (str% "991234567") },
    id := some (str% "MW"),
    countryCode := some 265,
    internationalPrefix := some (str% "00"),
    nationalPrefix := some (str% "0"),
    formats := [
      { pattern := some (str% "(\\d)(\\d{3})(\\d{3})"), format := some (str% "$1 $2 $3"), leadingDigits := [str% "1[2-9]"], nationalPrefixFormattingRule := some (str% "$NP$FG") },
      { pattern := some (str% "(\\d{3})(\\d{2})(\\d{2})(\\d{2})"), format := some (str% "$1 $2 $3 $4"), leadingDigits := [str% "[1-37-9]"], nationalPrefixFormattingRule := some (str% "$NP$FG") }],
    internationalFormats := [
      { pattern := some (str% "(\\d)(\\d{3})(\\d{3})"), format := some (str% "$1 $2 $3"), leadingDigits := [str% "1[2-9]"], nationalPrefixFormattingRule := some (str% "$NP$FG") },
      { pattern := some (str% "(\\d{3})(\\d{2})(\\d{2})(\\d{2})"), format := some (str% "$1 $2 $3 $4"), leadingDigits := [str% "[1-37-9]"], nationalPrefixFormattingRule := some (str% "$NP$FG") }] }

/-- territory id=MX countryCode=52 -/
noncomputable def MX : Loader.Metadata :=
  { general := some { nationalNumber := some (str% "[2-9]\\d{9}") },
    fixedLine := some { nationalNumber := some (str% "\n          (?:\n            2(?:\n              0[01]|\n              2\\d|\n              3[1-35-8]|\n              4[13-9]|\n              7[1-689]|\n              8[1-578]|\n              9[467]\n            )|\n            3(?:\n              1[1-79]|\n              [2458][1-9]|\n              3\\d|\n              7[1-8]|\n              9[1-5]\n            )|\n            4(?:\n              1[1-57-9]|\n              [267][1-9]|\n              3[1-8]|\n              [45]\\d|\n              8[1-35-9]|\n              9[2-689]\n            )|\n            5(?:\n              [56]\\d|\n              88|\n              9[1-79]\n            )|\n            6(?:\n              1[2-68]|\n              [2-4][1-9]|\n              5[1-36-9]|\n              6[0-57-9]|\n              7[1-7]|\n              8[67]|\n              9[4-8]\n            )|\n            7(?:\n              [1346][1-9]|\n              [27]\\d|\n              5[13-9]|\n              8[1-69]|\n              9[17]\n            )|\n            8(?:\n              1\\d|\n              2[13-689]|\n              3[1-6]|\n              4[124-6]|\n              6[1246-9]|\n              7[0-378]|\n              9[12479]\n            )|\n            9(?:\n              1[346-9]|\n              2[1-4]|\n              3[2-46-8]|\n              5[1348]|\n              [69]\\d|\n              7[12]|\n              8[1-8]\n            )\n          )\\d{7}\n        "), possibleLength := [10], possibleLocalLength := [7, 8], example? := some (str% "2001234567") },
    mobile := some { nationalNumber := some (str% "\n          (?:\n            2(?:\n              2\\d|\n              3[1-35-8]|\n              4[13-9]|\n              7[1-689]|\n              8[1-578]|\n              9[467]\n            )|\n            3(?:\n              1[1-79]|\n              [2458][1-9]|\n              3\\d|\n              7[1-8]|\n              9[1-5]\n            )|\n            4(?:\n              1[1-57-9]|\n              [267][1-9]|\n              3[1-8]|\n              [45]\\d|\n              8[1-35-9]|\n              9[2-689]\n            )|\n            5(?:\n              [56]\\d|\n              88|\n              9[1-79]\n            )|\n            6(?:\n              1[2-68]|\n              [2-4][1-9]|\n              5[1-36-9]|\n              6[0-57-9]|\n              7[1-7]|\n              8[67]|\n              9[4-8]\n            )|\n            7(?:\n              [1346][1-9]|\n              [27]\\d|\n              5[13-9]|\n              8[1-69]|\n              9[17]\n            )|\n            8(?:\n              1\\d|\n              2[13-689]|\n              3[1-6]|\n              4[124-6]|\n              6[1246-9]|\n              7[0-378]|\n              9[12479]\n            )|\n            9(?:\n              1[346-9]|\n              2[1-4]|\n              3[2-46-8]|\n              5[1348]|\n              [69]\\d|\n              7[12]|\n              8[1-8]\n            )\n          )\\d{7}\n        "), possibleLength := [10], possibleLocalLength := [7, 8], example? := some (str% "2221234567") },
    tollFree := some { nationalNumber := some (str% "\n          8(?:\n            00|\n            88\n          )\\d{7}\n        "), possibleLength := [10], example? := some (str% "8001234567") },
    premiumRate := some { nationalNumber := some (str% "900\\d{7}"), possibleLength := [10], example? := some (str% "9001234567") },
    sharedCost := some { nationalNumber := some (str% "300\\d{7}"), possibleLength := [10], example? := some (str% "3001234567") },
    personalNumber := some { nationalNumber := some (str% "500\\d{7}"), possibleLength := [10], example? := some (str% "5001234567") },
    id := some (str% "MX"),
    countryCode := some 52,
    internationalPrefix := some (str% "0[09]"),
    preferredInternationalPrefix := some (str% "00"),
    formats := [
      { pattern := some (str% "(\\d{5})"), format := some (str% "$1"), leadingDigits := [str% "53"] },
      { pattern := some (str% "(\\d{2})(\\d{4})(\\d{4})"), format := some (str% "$1 $2 $3"), leadingDigits := [str% "\n            33|\n            5[56]|\n            81\n          "] },
      { pattern := some (str% "(\\d{3})(\\d{3})(\\d{4})"), format := some (str% "$1 $2 $3"), leadingDigits := [str% "[2-9]"] }],
    internationalFormats := [
      { pattern := some (str% "(\\d{2})(\\d{4})(\\d{4})"), format := some (str% "$1 $2 $3"), leadingDigits := [str% "\n            33|\n            5[56]|\n            81\n          "] },
      { pattern := some (str% "(\\d{3})(\\d{3})(\\d{4})"), format := some (str% "$1 $2 $3"), leadingDigits := [str% "[2-9]"] }],
    mobileNumberPortable := true }

/-- territory id=MY countryCode=60 -/
noncomputable def MY : Loader.Metadata :=
  { general := some { nationalNumber := some (str% "\n          1\\d{8,9}|\n          (?:\n            3\\d|\n            [4-9]\n          )\\d{7}\n        ") },
    fixedLine := some { nationalNumber := some (str% "\n          427[01]\\d{4}|\n          (?:\n            3(?:\n              2[0-36-9]|\n              3[0-368]|\n              4[0-278]|\n              5[0-24-8]|\n              6[0-467]|\n              7[1246-9]|\n              8\\d|\n              9[0-57]\n            )\\d|\n            4(?:\n              2[0-689]|\n              [3-79]\\d|\n              8[1-35689]\n            )|\n            5(?:\n              2[0-589]|\n              [3468]\\d|\n              5[0-489]|\n              7[1-9]|\n              9[23]\n            )|\n            6(?:\n              2[2-9]|\n              3[1357-9]|\n              [46]\\d|\n              5[0-6]|\n              7[0-35-9]|\n              85|\n              9[015-8]\n            )|\n            7(?:\n              [2579]\\d|\n              3[03-68]|\n              4[0-8]|\n              6[5-9]|\n              8[0-35-9]\n            )|\n            8(?:\n              [24][2-8]|\n              3[2-5]|\n              5[2-7]|\n              6[2-589]|\n              7[2-578]|\n              [89][2-9]\n            )|\n            9(?:\n              0[57]|\n              13|\n              [25-7]\\d|\n              [3489][0-8]\n            )\n          )\\d{5}\n        "), possibleLength := [8, 9], possibleLocalLength := [6, 7], example? := some (str% "323856789") },
    mobile := some { nationalNumber := some (str% "\n          1(?:\n            (?:\n              1888[689]|\n              4400|\n              8(?:\n                47|\n                8[27]\n              )[0-4]\n            )\\d{4}|\n            9\\d{7,8}\n          )|\n          1(?:\n            0(?:\n              [23568]\\d|\n              4[0-6]|\n              7[016-9]|\n              9[0-8]\n            )|\n            1(?:\n              [1-5]\\d\\d|\n              6(?:\n                0[5-9]|\n                [1-9]\\d\n              )|\n              7(?:\n                [0-4]\\d|\n                5[0-79]|\n                6[02-4]|\n                8[02-5]\n              )\n            )|\n            (?:\n              [26]\\d|\n              [37][1-9]|\n              4[235-9]\n            )\\d|\n            5(?:\n              31|\n              9\\d\\d\n            )|\n            8(?:\n              1[23]|\n              [236]\\d|\n              4[06]|\n              5(?:\n                46|\n                [7-9]\n              )|\n              7[016-9]|\n              8[01]|\n              9[0-8]\n            )\n          )\\d{5}\n        "), possibleLength := [9, 10], example? := some (str% "123456789") },
    tollFree := some { nationalNumber := some (str% "1[378]00\\d{6}"), possibleLength := [10], example? := some (str% "1300123456") },
    premiumRate := some { nationalNumber := some (str% "1600\\d{6}"), possibleLength := [10], example? := some (str% "1600123456") },
    voip := some { nationalNumber := some (str% "\n          15(?:\n            4(?:\n              6[0-4]\\d|\n              8(?:\n                0[125]|\n                [17]\\d|\n                21|\n                3[01]|\n                4[01589]|\n                5[014]|\n                6[02]\n              )\n            )|\n            6(?:\n              32[0-6]|\n              78\\d\n            )\n          )\\d{4}\n        "), possibleLength := [10], example? := some (str% "1546012345") },
    id := some (str% "MY"),
    countryCode := some 60,
    internationalPrefix := some (str% "00"),
    nationalPrefix := some (str% "0"),
    formats := [
      { pattern := some (str% "(\\d)(\\d{3})(\\d{4})"), format := some (str% "$1-$2 $3"), leadingDigits := [str% "[4-79]"], nationalPrefixFormattingRule := some (str% "$NP$FG") },
      { pattern := some (str% "(\\d{2})(\\d{3})(\\d{3,4})"), format := some (str% "$1-$2 $3"), leadingDigits := [str% "\n            1(?:\n              [02469]|\n              [378][1-9]|\n              53\n            )|\n            8\n          ", str% "\n            1(?:\n              [02469]|\n              [37][1-9]|\n              53|\n              8(?:\n                [1-46-9]|\n                5[7-9]\n              )\n            )|\n            8\n          "], nationalPrefixFormattingRule := some (str% "$NP$FG") },
      { pattern := some (str% "(\\d)(\\d{4})(\\d{4})"), format := some (str% "$1-$2 $3"), leadingDigits := [str% "3"], nationalPrefixFormattingRule := some (str% "$NP$FG") },
      { pattern := some (str% "(\\d)(\\d{3})(\\d{2})(\\d{4})"), format := some (str% "$1-$2-$3-$4"), leadingDigits := [str% "\n            1(?:\n              [367]|\n              80\n            )\n          "] },
      { pattern := some (str% "(\\d{3})(\\d{3})(\\d{4})"), format := some (str% "$1-$2 $3"), leadingDigits := [str% "15"], nationalPrefixFormattingRule := some (str% "$NP$FG") },
      { pattern := some (str% "(\\d{2})(\\d{4})(\\d{4})"), format := some (str% "$1-$2 $3"), leadingDigits := [str% "1"], nationalPrefixFormattingRule := some (str% "$NP$FG") }],
    internationalFormats := [
      { pattern := some (str% "(\\d)(\\d{3})(\\d{4})"), format := some (str% "$1-$2 $3"), leadingDigits := [str% "[4-79]"], nationalPrefixFormattingRule := some (str% "$NP$FG") },
      { pattern := some (str% "(\\d{2})(\\d{3})(\\d{3,4})"), format := some (str% "$1-$2 $3"), leadingDigits := [str% "\n            1(?:\n              [02469]|\n              [378][1-9]|\n              53\n            )|\n            8\n          ", str% "\n            1(?:\n              [02469]|\n              [37][1-9]|\n              53|\n              8(?:\n                [1-46-9]|\n                5[7-9]\n              )\n            )|\n            8\n          "], nationalPrefixFormattingRule := some (str% "$NP$FG") },
      { pattern := some (str% "(\\d)(\\d{4})(\\d{4})"), format := some (str% "$1-$2 $3"), leadingDigits := [str% "3"], nationalPrefixFormattingRule := some (str% "$NP$FG") },
      { pattern := some (str% "(\\d)(\\d{3})(\\d{2})(\\d{4})"), format := some (str% "$1-$2-$3-$4"), leadingDigits := [str% "\n            1(?:\n              [367]|\n              80\n            )\n          "] },
      { pattern := some (str% "(\\d{3})(\\d{3})(\\d{4})"), format := some (str% "$1-$2 $3"), leadingDigits := [str% "15"], nationalPrefixFormattingRule := some (str% "$NP$FG") },
      { pattern := some (str% "(\\d{2})(\\d{4})(\\d{4})"), format := some (str% "$1-$2 $3"), leadingDigits := [str% "1"], nationalPrefixFormattingRule := some (str% "$NP$FG") }],
    mobileNumberPortable := true }

/-- territory id=MZ countryCode=258 -/
noncomputable def MZ : Loader.Metadata :=
  { general := some { nationalNumber := some (str% "\n          (?:\n            2|\n            8\\d\n          )\\d{7}\n        ") },
    fixedLine := some { nationalNumber := some (str% "\n          2(?:\n            [1346]\\d|\n            5[0-2]|\n            [78][12]|\n            93\n          )\\d{5}\n        "), possibleLength := [8], example? := some (str% "21123456") },
    mobile := some { nationalNumber := some (str% "8[2-79]\\d{7}"), possibleLength := [9], example? := some (str% "821234567") },
    tollFree := some { nationalNumber := some (str% "800\\d{6}"), possibleLength := [9], example? := some (str% "800123456") },
    id := some (str% "MZ"),
    countryCode := some 258,
    internationalPrefix := some (str% "00"),
    formats := [
      { pattern := some (str% "(\\d{2})(\\d{3})(\\d{3,4})"), format := some (str% "$1 $2 $3"), leadingDigits := [str% "\n            2|\n            8[2-79]\n          "] },
      { pattern := some (str% "(\\d{3})(\\d{3})(\\d{3})"), format := some (str% "$1 $2 $3"), leadingDigits := [str% "8"] }],
    internationalFormats := [
      { pattern := some (str% "(\\d{2})(\\d{3})(\\d{3,4})"), format := some (str% "$1 $2 $3"), leadingDigits := [str% "\n            2|\n            8[2-79]\n          "] },
      { pattern := some (str% "(\\d{3})(\\d{3})(\\d{3})"), format := some (str% "$1 $2 $3"), leadingDigits := [str% "8"] }] }

/-- the territories of this module, in document order -/
noncomputable def chunk10 : List Loader.Metadata :=
  [MG, MH, MK, ML, MM, MN, MO, MP, MQ, MR, MS, MT, MU, MV, MW, MX, MY, MZ]

end Phone.Data
