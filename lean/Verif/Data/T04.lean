import Verif.Model.Database
/-! Territories of `/repo/assets/PhoneNumberMetadata.xml` as `/repo/src/metadata/loader.rs` reads them.
Generated by `tools/gen_data.py`; do not edit. -/

set_option maxRecDepth 100000
namespace Phone.Data

/-- territory id=CU countryCode=53 -/
noncomputable def CU : Loader.Metadata :=
  { general := some { nationalNumber := some (str% "\n          (?:\n            [2-7]|\n            8\\d\\d\n          )\\d{7}|\n          [2-47]\\d{6}|\n          [34]\\d{5}\n        ") },
    fixedLine := some { nationalNumber := some (str% "\n          (?:\n            3[23]|\n            4[89]\n          )\\d{4,6}|\n          (?:\n            31|\n            4[36]|\n            8(?:\n              0[25]|\n              78\n            )\\d\n          )\\d{6}|\n          (?:\n            2[1-4]|\n            4[1257]|\n            7\\d\n          )\\d{5,6}\n        "), possibleLength := [6, 7, 8, 10], possibleLocalLength := [4, 5], example? := some (str% "71234567") },
    mobile := some { nationalNumber := some (str% "\n          (?:\n            5\\d|\n            6[2-4]\n          )\\d{6}\n        "), possibleLength := [8], example? := some (str% "51234567") },
    tollFree := some { nationalNumber := some (str% "800\\d{7}"), possibleLength := [10], example? := some (str% "8001234567") },
    sharedCost := some { nationalNumber := some (str% "807\\d{7}"), possibleLength := [10], example? := some (str% "8071234567") },
    id := some (str% "CU"),
    countryCode := some 53,
    internationalPrefix := some (str% "119"),
    nationalPrefix := some (str% "0"),
    formats := [
      { pattern := some (str% "(\\d{2})(\\d{4,6})"), format := some (str% "$1 $2"), leadingDigits := [str% "\n            2[1-4]|\n            [34]\n          "], nationalPrefixFormattingRule := some (str% "($NP$FG)") },
      { pattern := some (str% "(\\d)(\\d{6,7})"), format := some (str% "$1 $2"), leadingDigits := [str% "7"], nationalPrefixFormattingRule := some (str% "($NP$FG)") },
      { pattern := some (str% "(\\d)(\\d{7})"), format := some (str% "$1 $2"), leadingDigits := [str% "[56]"], nationalPrefixFormattingRule := some (str% "$NP$FG") },
      { pattern := some (str% "(\\d{3})(\\d{7})"), format := some (str% "$1 $2"), leadingDigits := [str% "8"], nationalPrefixFormattingRule := some (str% "$NP$FG") }],
    internationalFormats := [
      { pattern := some (str% "(\\d{2})(\\d{4,6})"), format := some (str% "$1 $2"), leadingDigits := [str% "\n            2[1-4]|\n            [34]\n          "], nationalPrefixFormattingRule := some (str% "($NP$FG)") },
      { pattern := some (str% "(\\d)(\\d{6,7})"), format := some (str% "$1 $2"), leadingDigits := [str% "7"], nationalPrefixFormattingRule := some (str% "($NP$FG)") },
      { pattern := some (str% "(\\d)(\\d{7})"), format := some (str% "$1 $2"), leadingDigits := [str% "[56]"], nationalPrefixFormattingRule := some (str% "$NP$FG") },
      { pattern := some (str% "(\\d{3})(\\d{7})"), format := some (str% "$1 $2"), leadingDigits := [str% "8"], nationalPrefixFormattingRule := some (str% "$NP$FG") }] }

/-- territory id=CV countryCode=238 -/
noncomputable def CV : Loader.Metadata :=
  { general := some { nationalNumber := some (str% "\n          (?:\n            [2-59]\\d\\d|\n            800\n          )\\d{4}\n        ") },
    fixedLine := some { nationalNumber := some (str% "\n          2(?:\n            2[1-7]|\n            3[0-8]|\n            4[12]|\n            5[1256]|\n            6\\d|\n            7[1-3]|\n            8[1-5]\n          )\\d{4}\n        "), possibleLength := [7], example? := some (str% "2211234") },
    mobile := some { nationalNumber := some (str% "\n          (?:\n            36|\n            5[1-389]|\n            9\\d\n          )\\d{5}\n        "), possibleLength := [7], example? := some (str% "9911234") },
    tollFree := some { nationalNumber := some (str% "800\\d{4}"), possibleLength := [7], example? := some (str% "8001234") },
    voip := some { nationalNumber := some (str% "\n          (?:\n            3[3-5]|\n            4[356]\n          )\\d{5}\n        "), possibleLength := [7], example? := some (str% "3401234") },
    id := some (str% "CV"),
    countryCode := some 238,
    internationalPrefix := some (str% "0"),
    formats := [
      { pattern := some (str% "(\\d{3})(\\d{2})(\\d{2})"), format := some (str% "$1 $2 $3"), leadingDigits := [str% "[2-589]"] }],
    internationalFormats := [
      { pattern := some (str% "(\\d{3})(\\d{2})(\\d{2})"), format := some (str% "$1 $2 $3"), leadingDigits := [str% "[2-589]"] }] }

/-- territory id=CW countryCode=599 -/
noncomputable def CW : Loader.Metadata :=
  { general := some { nationalNumber := some (str% "\n          (?:\n            [34]1|\n            60|\n            (?:\n              7|\n              9\\d\n            )\\d\n          )\\d{5}\n        ") },
    fixedLine := some { nationalNumber := some (str% "\n          9(?:\n            4(?:\n              3[0-5]|\n              4[14]|\n              6\\d\n            )|\n            50\\d|\n            7(?:\n              2[014]|\n              3[02-9]|\n              4[4-9]|\n              6[357]|\n              77|\n              8[7-9]\n            )|\n            8(?:\n              3[39]|\n              [46]\\d|\n              7[01]|\n              8[57-9]\n            )\n          )\\d{4}\n        "), possibleLength := [7, 8], example? := some (str% "94351234") },
    mobile := some { nationalNumber := some (str% "\n          953[01]\\d{4}|\n          9(?:\n            5[12467]|\n            6[5-9]\n          )\\d{5}\n        "), possibleLength := [7, 8], example? := some (str% "95181234") },
    sharedCost := some { nationalNumber := some (str% "60[0-2]\\d{4}"), possibleLength := [7], example? := some (str% "6001234") },
    pager := some { nationalNumber := some (str% "955\\d{5}"), possibleLength := [8], example? := some (str% "95581234") },
    id := some (str% "CW"),
    countryCode := some 599,
    internationalPrefix := some (str% "00"),
    formats := [
      { pattern := some (str% "(\\d{3})(\\d{4})"), format := some (str% "$1 $2"), leadingDigits := [str% "[3467]"] },
      { pattern := some (str% "(\\d)(\\d{3})(\\d{4})"), format := some (str% "$1 $2 $3"), leadingDigits := [str% "9[4-8]"] }],
    internationalFormats := [
      { pattern := some (str% "(\\d{3})(\\d{4})"), format := some (str% "$1 $2"), leadingDigits := [str% "[3467]"] },
      { pattern := some (str% "(\\d)(\\d{3})(\\d{4})"), format := some (str% "$1 $2 $3"), leadingDigits := [str% "9[4-8]"] }],
    mainCountryForCode := true,
    leadingDigits := some (str% "[69]") }

/-- territory id=CX countryCode=61 -/
noncomputable def CX : Loader.Metadata :=
  { general := some { nationalNumber := some (str% "\n          1(?:\n            [0-79]\\d{8}(?:\n              \\d{2}\n            )?|\n            8[0-24-9]\\d{7}\n          )|\n          [148]\\d{8}|\n          1\\d{5,7}\n        ") },
    fixedLine := some { nationalNumber := some (str% "\n          8(?:\n            51(?:\n              0(?:\n                01|\n                30|\n                59|\n                88\n              )|\n              1(?:\n                17|\n                46|\n                75\n              )|\n              2(?:\n                22|\n                35\n              )\n            )|\n            91(?:\n              00[6-9]|\n              1(?:\n                [28]1|\n                49|\n                78\n              )|\n              2(?:\n                09|\n                63\n              )|\n              3(?:\n                12|\n                26|\n                75\n              )|\n              4(?:\n                56|\n                97\n              )|\n              64\\d|\n              7(?:\n                0[01]|\n                1[0-2]\n              )|\n              958\n            )\n          )\\d{3}\n        "), possibleLength := [9], possibleLocalLength := [8], example? := some (str% "891641234") },
    mobile := some { nationalNumber := some (str% "\n          4(?:\n            79[01]|\n            83[0-36-9]|\n            95[0-3]\n          )\\d{5}|\n          4(?:\n            [0-36]\\d|\n            4[047-9]|\n            [58][0-24-9]|\n            7[02-8]|\n            9[0-47-9]\n          )\\d{6}\n        "), possibleLength := [9], example? := some (str% "412345678") },
    tollFree := some { nationalNumber := some (str% "\n          180(?:\n            0\\d{3}|\n            2\n          )\\d{3}\n        "), possibleLength := [7, 10], example? := some (str% "1800123456") },
    premiumRate := some { nationalNumber := some (str% "190[0-26]\\d{6}"), possibleLength := [10], example? := some (str% "1900123456") },
    sharedCost := some { nationalNumber := some (str% "\n          13(?:\n            00\\d{6}(?:\n              \\d{2}\n            )?|\n            45[0-4]\\d{3}\n          )|\n          13\\d{4}\n        "), possibleLength := [6, 8, 10, 12], example? := some (str% "1300123456") },
    voip := some { nationalNumber := some (str% "\n          14(?:\n            5(?:\n              1[0458]|\n              [23][458]\n            )|\n            71\\d\n          )\\d{4}\n        "), possibleLength := [9], example? := some (str% "147101234") },
    id := some (str% "CX"),
    countryCode := some 61,
    internationalPrefix := some (str% "001[14-689]|14(?:1[14]|34|4[17]|[56]6|7[47]|88)0011"),
    preferredInternationalPrefix := some (str% "0011"),
    nationalPrefix := some (str% "0"),
    nationalPrefixForParsing := some (str% "([59]\\d{7})$|0"),
    nationalPrefixTransformRule := some (str% "8$1") }

/-- territory id=CY countryCode=357 -/
noncomputable def CY : Loader.Metadata :=
  { general := some { nationalNumber := some (str% "\n          (?:\n            [279]\\d|\n            [58]0\n          )\\d{6}\n        ") },
    fixedLine := some { nationalNumber := some (str% "2[2-6]\\d{6}"), possibleLength := [8], example? := some (str% "22345678") },
    mobile := some { nationalNumber := some (str% "\n          9(?:\n            10|\n            [4-79]\\d\n          )\\d{5}\n        "), possibleLength := [8], example? := some (str% "96123456") },
    tollFree := some { nationalNumber := some (str% "800\\d{5}"), possibleLength := [8], example? := some (str% "80001234") },
    premiumRate := some { nationalNumber := some (str% "90[09]\\d{5}"), possibleLength := [8], example? := some (str% "90012345") },
    sharedCost := some { nationalNumber := some (str% "80[1-9]\\d{5}"), possibleLength := [8], example? := some (str% "80112345") },
    personalNumber := some { nationalNumber := some (str% "700\\d{5}"), possibleLength := [8], example? := some (str% "70012345") },
    uan := some { nationalNumber := some (str% "\n          (?:\n            50|\n            77\n          )\\d{6}\n        "), possibleLength := [8], example? := some (str% "77123456") },
    id := some (str% "CY"),
    countryCode := some 357,
    internationalPrefix := some (str% "00"),
    formats := [
      { pattern := some (str% "(\\d{2})(\\d{6})"), format := some (str% "$1 $2"), leadingDigits := [str% "[257-9]"] }],
    internationalFormats := [
      { pattern := some (str% "(\\d{2})(\\d{6})"), format := some (str% "$1 $2"), leadingDigits := [str% "[257-9]"] }],
    mobileNumberPortable := true }

/-- territory id=CZ countryCode=420 -/
noncomputable def CZ : Loader.Metadata :=
  { general := some { nationalNumber := some (str% "\n          (?:\n            [2-578]\\d|\n            60\n          )\\d{7}|\n          9\\d{8,11}\n        ") },
    fixedLine := some { nationalNumber := some (str% "\n          (?:\n            2\\d|\n            3[1257-9]|\n            4[16-9]|\n            5[13-9]\n          )\\d{7}\n        "), possibleLength := [9], example? := some (str% "212345678") },
    mobile := some { nationalNumber := some (str% "\n          7060\\d{5}|\n          (?:\n            60[1-8]|\n            7(?:\n              0[2-5]|\n              19|\n              [2379]\\d\n            )\n          )\\d{6}\n        "), possibleLength := [9], example? := some (str% "601123456") },
    tollFree := some { nationalNumber := some (str% "800\\d{6}"), possibleLength := [9], example? := some (str% "800123456") },
    premiumRate := some { nationalNumber := some (str% "\n          9(?:\n            0[05689]|\n            76\n          )\\d{6}\n        "), possibleLength := [9], example? := some (str% "900123456") },
    sharedCost := some { nationalNumber := some (str% "8[134]\\d{7}"), possibleLength := [9], example? := some (str% "811234567") },
    personalNumber := some { nationalNumber := some (str% "70[01]\\d{6}"), possibleLength := [9], example? := some (str% "700123456") },
    voip := some { nationalNumber := some (str% "9[17]0\\d{6}"), possibleLength := [9], example? := some (str% "910123456") },
    uan := some { nationalNumber := some (str% "\n          9(?:\n            5\\d|\n            7[2-4]\n          )\\d{6}\n        "), possibleLength := [9], example? := some (str% "972123456") },
    voicemail := some { nationalNumber := some (str% "\n          9(?:\n            3\\d{9}|\n            6\\d{7,10}\n          )\n        "), possibleLength := [9, 10, 11, 12], example? := some (str% "93123456789") },
    id := some (str% "CZ"),
    countryCode := some 420,
    internationalPrefix := some (str% "00"),
    formats := [
      { pattern := some (str% "(\\d{3})(\\d{3})(\\d{3})"), format := some (str% "$1 $2 $3"), leadingDigits := [str% "\n            [2-8]|\n            9[015-7]\n          "] },
      { pattern := some (str% "(\\d{2})(\\d{3})(\\d{3})(\\d{2})"), format := some (str% "$1 $2 $3 $4"), leadingDigits := [str% "96"] },
      { pattern := some (str% "(\\d{2})(\\d{3})(\\d{3})(\\d{3})"), format := some (str% "$1 $2 $3 $4"), leadingDigits := [str% "9"] },
      { pattern := some (str% "(\\d{3})(\\d{3})(\\d{3})(\\d{3})"), format := some (str% "$1 $2 $3 $4"), leadingDigits := [str% "9"] }],
    internationalFormats := [
      { pattern := some (str% "(\\d{3})(\\d{3})(\\d{3})"), format := some (str% "$1 $2 $3"), leadingDigits := [str% "\n            [2-8]|\n            9[015-7]\n          "] },
      { pattern := some (str% "(\\d{2})(\\d{3})(\\d{3})(\\d{2})"), format := some (str% "$1 $2 $3 $4"), leadingDigits := [str% "96"] },
      { pattern := some (str% "(\\d{2})(\\d{3})(\\d{3})(\\d{3})"), format := some (str% "$1 $2 $3 $4"), leadingDigits := [str% "9"] },
      { pattern := some (str% "(\\d{3})(\\d{3})(\\d{3})(\\d{3})"), format := some (str% "$1 $2 $3 $4"), leadingDigits := [str% "9"] }],
    mobileNumberPortable := true }

/-- territory id=DE countryCode=49 -/
noncomputable def DE : Loader.Metadata :=
  { general := some { nationalNumber := some (str% "\n          [2579]\\d{5,14}|\n          49(?:\n            [34]0|\n            69|\n            8\\d\n          )\\d\\d?|\n          49(?:\n            37|\n            49|\n            60|\n            7[089]|\n            9\\d\n          )\\d{1,3}|\n          49(?:\n            2[024-9]|\n            3[2-689]|\n            7[1-7]\n          )\\d{1,8}|\n          (?:\n            1|\n            [368]\\d|\n            4[0-8]\n          )\\d{3,13}|\n          49(?:\n            [015]\\d|\n            2[13]|\n            31|\n            [46][1-8]\n          )\\d{1,9}\n        ") },
    fixedLine := some { nationalNumber := some (str% "\n          32\\d{9,11}|\n          49[1-6]\\d{10}|\n          322\\d{6}|\n          49[0-7]\\d{3,9}|\n          (?:\n            [34]0|\n            [68]9\n          )\\d{3,13}|\n          (?:\n            2(?:\n              0[1-689]|\n              [1-3569]\\d|\n              4[0-8]|\n              7[1-7]|\n              8[0-7]\n            )|\n            3(?:\n              [3569]\\d|\n              4[0-79]|\n              7[1-7]|\n              8[1-8]\n            )|\n            4(?:\n              1[02-9]|\n              [2-48]\\d|\n              5[0-6]|\n              6[0-8]|\n              7[0-79]\n            )|\n            5(?:\n              0[2-8]|\n              [124-6]\\d|\n              [38][0-8]|\n              [79][0-7]\n            )|\n            6(?:\n              0[02-9]|\n              [1-358]\\d|\n              [47][0-8]|\n              6[1-9]\n            )|\n            7(?:\n              0[2-8]|\n              1[1-9]|\n              [27][0-7]|\n              3\\d|\n              [4-6][0-8]|\n              8[0-5]|\n              9[013-7]\n            )|\n            8(?:\n              0[2-9]|\n              1[0-79]|\n              2\\d|\n              3[0-46-9]|\n              4[0-6]|\n              5[013-9]|\n              6[1-8]|\n              7[0-8]|\n              8[0-24-6]\n            )|\n            9(?:\n              0[6-9]|\n              [1-4]\\d|\n              [589][0-7]|\n              6[0-8]|\n              7[0-467]\n            )\n          )\\d{3,12}\n        "), possibleLength := [5, 6, 7, 8, 9, 10, 11, 12, 13, 14, 15], possibleLocalLength := [2, 3, 4], example? := some (str% "30123456") },
    mobile := some { nationalNumber := some (str% "\n          1(?:\n            6[023]|\n            7\\d\n          )\\d{7,8}|\n          15(?:\n            [0-25-9]\\d\\d|\n            3(?:\n              10|\n              33\n            )\n          )\\d{6}\n        "), possibleLength := [10, 11], example? := some (str% "15123456789") },
    tollFree := some { nationalNumber := some (str% "800\\d{7,12}"), possibleLength := [10, 11, 12, 13, 14, 15], example? := some (str% "8001234567890") },
    premiumRate := some { nationalNumber := some (str% "\n          (?:\n            137[7-9]|\n            900(?:\n              [135]|\n              9\\d\n            )\n          )\\d{6}\n        "), possibleLength := [10, 11], example? := some (str% "9001234567") },
    sharedCost := some { nationalNumber := some (str% "\n          180\\d{5,11}|\n          13(?:\n            7[1-6]\\d\\d|\n            8\n          )\\d{4}\n        "), possibleLength := [7, 8, 9, 10, 11, 12, 13, 14], example? := some (str% "18012345") },
    personalNumber := some { nationalNumber := some (str% "700\\d{8}"), possibleLength := [11], example? := some (str% "70012345678") },
    pager := some { nationalNumber := some (str% "\n          16(?:\n            4\\d{1,10}|\n            [89]\\d{1,11}\n          )\n        "), possibleLength := [4, 5, 6, 7, 8, 9, 10, 11, 12, 13, 14], example? := some (str% "16412345") },
    uan := some { nationalNumber := some (str% "\n          18(?:\n            1\\d{5,11}|\n            [2-9]\\d{8}\n          )\n        "), possibleLength := [8, 9, 10, 11, 12, 13, 14], example? := some (str% "18500123456") },
    voicemail := some { nationalNumber := some (str% "\n          1(?:\n            6(?:\n              013|\n              255|\n              399\n            )|\n            7(?:\n              (?:\n                [015]1|\n                [69]3\n              )3|\n              [2-4]55|\n              [78]99\n            )\n          )\\d{7,8}|\n          15(?:\n            (?:\n              [03-68]00|\n              113\n            )\\d|\n            2\\d55|\n            7\\d99|\n            9\\d33\n          )\\d{7}\n        "), possibleLength := [12, 13], example? := some (str% "177991234567") },
    id := some (str% "DE"),
    countryCode := some 49,
    internationalPrefix := some (str% "00"),
    nationalPrefix := some (str% "0"),
    formats := [
      { pattern := some (str% "(\\d{2})(\\d{3,13})"), format := some (str% "$1 $2"), leadingDigits := [str% "\n            3[02]|\n            40|\n            [68]9\n          "], nationalPrefixFormattingRule := some (str% "$NP$FG") },
      { pattern := some (str% "(\\d{6})"), format := some (str% "$1"), leadingDigits := [str% "227", str% "2277"] },
      { pattern := some (str% "(\\d{3})(\\d{3,12})"), format := some (str% "$1 $2"), leadingDigits := [str% "\n            2(?:\n              0[1-389]|\n              1[124]|\n              2[18]|\n              3[14]\n            )|\n            3(?:\n              [35-9][15]|\n              4[015]\n            )|\n            906|\n            (?:\n              2[4-9]|\n              4[2-9]|\n              [579][1-9]|\n              [68][1-8]\n            )1\n          ", str% "\n            2(?:\n              0[1-389]|\n              12[0-8]\n            )|\n            3(?:\n              [35-9][15]|\n              4[015]\n            )|\n            906|\n            2(?:\n              [13][14]|\n              2[18]\n            )|\n            (?:\n              2[4-9]|\n              4[2-9]|\n              [579][1-9]|\n              [68][1-8]\n            )1\n          "], nationalPrefixFormattingRule := some (str% "$NP$FG") },
      { pattern := some (str% "(\\d{4})(\\d{2,11})"), format := some (str% "$1 $2"), leadingDigits := [str% "\n            [24-6]|\n            3(?:\n              [3569][02-46-9]|\n              4[2-4679]|\n              7[2-467]|\n              8[2-46-8]\n            )|\n            70[2-8]|\n            8(?:\n              0[2-9]|\n              [1-8]\n            )|\n            90[7-9]|\n            [79][1-9]\n          ", str% "\n            [24-6]|\n            3(?:\n              3(?:\n                0[1-467]|\n                2[127-9]|\n                3[124578]|\n                7[1257-9]|\n                8[1256]|\n                9[145]\n              )|\n              4(?:\n                2[135]|\n                4[13578]|\n                9[1346]\n              )|\n              5(?:\n                0[14]|\n                2[1-3589]|\n                6[1-4]|\n                7[13468]|\n                8[13568]\n              )|\n              6(?:\n                2[1-489]|\n                3[124-6]|\n                6[13]|\n                7[12579]|\n                8[1-356]|\n                9[135]\n              )|\n              7(?:\n                2[1-7]|\n                4[145]|\n                6[1-5]|\n                7[1-4]\n              )|\n              8(?:\n                21|\n                3[1468]|\n                6|\n                7[1467]|\n                8[136]\n              )|\n              9(?:\n                0[12479]|\n                2[1358]|\n                4[134679]|\n                6[1-9]|\n                7[136]|\n                8[147]|\n                9[1468]\n              )\n            )|\n            70[2-8]|\n            8(?:\n              0[2-9]|\n              [1-8]\n            )|\n            90[7-9]|\n            [79][1-9]|\n            3[68]4[1347]|\n            3(?:\n              47|\n              60\n            )[1356]|\n            3(?:\n              3[46]|\n              46|\n              5[49]\n            )[1246]|\n            3[4579]3[1357]\n          "], nationalPrefixFormattingRule := some (str% "$NP$FG") },
      { pattern := some (str% "(\\d{3})(\\d{4})"), format := some (str% "$1 $2"), leadingDigits := [str% "138"], nationalPrefixFormattingRule := some (str% "$NP$FG") },
      { pattern := some (str% "(\\d{5})(\\d{2,10})"), format := some (str% "$1 $2"), leadingDigits := [str% "3"], nationalPrefixFormattingRule := some (str% "$NP$FG") },
      { pattern := some (str% "(\\d{3})(\\d{5,11})"), format := some (str% "$1 $2"), leadingDigits := [str% "181"], nationalPrefixFormattingRule := some (str% "$NP$FG") },
      { pattern := some (str% "(\\d{3})(\\d)(\\d{4,10})"), format := some (str% "$1 $2 $3"), leadingDigits := [str% "\n            1(?:\n              3|\n              80\n            )|\n            9\n          "], nationalPrefixFormattingRule := some (str% "$NP$FG") },
      { pattern := some (str% "(\\d{3})(\\d{7,8})"), format := some (str% "$1 $2"), leadingDigits := [str% "1[67]"], nationalPrefixFormattingRule := some (str% "$NP$FG") },
      { pattern := some (str% "(\\d{3})(\\d{7,12})"), format := some (str% "$1 $2"), leadingDigits := [str% "8"], nationalPrefixFormattingRule := some (str% "$NP$FG") },
      { pattern := some (str% "(\\d{5})(\\d{6})"), format := some (str% "$1 $2"), leadingDigits := [str% "185", str% "1850", str% "18500"], nationalPrefixFormattingRule := some (str% "$NP$FG") },
      { pattern := some (str% "(\\d{3})(\\d{4})(\\d{4})"), format := some (str% "$1 $2 $3"), leadingDigits := [str% "7"], nationalPrefixFormattingRule := some (str% "$NP$FG") },
      { pattern := some (str% "(\\d{4})(\\d{7})"), format := some (str% "$1 $2"), leadingDigits := [str% "18[68]"], nationalPrefixFormattingRule := some (str% "$NP$FG") },
      { pattern := some (str% "(\\d{4})(\\d{7})"), format := some (str% "$1 $2"), leadingDigits := [str% "15[1279]"], nationalPrefixFormattingRule := some (str% "$NP$FG") },
      { pattern := some (str% "(\\d{5})(\\d{6})"), format := some (str% "$1 $2"), leadingDigits := [str% "15[03568]", str% "\n            15(?:\n              [0568]|\n              3[13]\n            )\n          "], nationalPrefixFormattingRule := some (str% "$NP$FG") },
      { pattern := some (str% "(\\d{3})(\\d{8})"), format := some (str% "$1 $2"), leadingDigits := [str% "18"], nationalPrefixFormattingRule := some (str% "$NP$FG") },
      { pattern := some (str% "(\\d{3})(\\d{2})(\\d{7,8})"), format := some (str% "$1 $2 $3"), leadingDigits := [str% "\n            1(?:\n              6[023]|\n              7\n            )\n          "], nationalPrefixFormattingRule := some (str% "$NP$FG") },
      { pattern := some (str% "(\\d{4})(\\d{2})(\\d{7})"), format := some (str% "$1 $2 $3"), leadingDigits := [str% "15[279]"], nationalPrefixFormattingRule := some (str% "$NP$FG") },
      { pattern := some (str% "(\\d{3})(\\d{2})(\\d{8})"), format := some (str% "$1 $2 $3"), leadingDigits := [str% "15"], nationalPrefixFormattingRule := some (str% "$NP$FG") }],
    internationalFormats := [
      { pattern := some (str% "(\\d{2})(\\d{3,13})"), format := some (str% "$1 $2"), leadingDigits := [str% "\n            3[02]|\n            40|\n            [68]9\n          "], nationalPrefixFormattingRule := some (str% "$NP$FG") },
      { pattern := some (str% "(\\d{3})(\\d{3,12})"), format := some (str% "$1 $2"), leadingDigits := [str% "\n            2(?:\n              0[1-389]|\n              1[124]|\n              2[18]|\n              3[14]\n            )|\n            3(?:\n              [35-9][15]|\n              4[015]\n            )|\n            906|\n            (?:\n              2[4-9]|\n              4[2-9]|\n              [579][1-9]|\n              [68][1-8]\n            )1\n          ", str% "\n            2(?:\n              0[1-389]|\n              12[0-8]\n            )|\n            3(?:\n              [35-9][15]|\n              4[015]\n            )|\n            906|\n            2(?:\n              [13][14]|\n              2[18]\n            )|\n            (?:\n              2[4-9]|\n              4[2-9]|\n              [579][1-9]|\n              [68][1-8]\n            )1\n          "], nationalPrefixFormattingRule := some (str% "$NP$FG") },
      { pattern := some (str% "(\\d{4})(\\d{2,11})"), format := some (str% "$1 $2"), leadingDigits := [str% "\n            [24-6]|\n            3(?:\n              [3569][02-46-9]|\n              4[2-4679]|\n              7[2-467]|\n              8[2-46-8]\n            )|\n            70[2-8]|\n            8(?:\n              0[2-9]|\n              [1-8]\n            )|\n            90[7-9]|\n            [79][1-9]\n          ", str% "\n            [24-6]|\n            3(?:\n              3(?:\n                0[1-467]|\n                2[127-9]|\n                3[124578]|\n                7[1257-9]|\n                8[1256]|\n                9[145]\n              )|\n              4(?:\n                2[135]|\n                4[13578]|\n                9[1346]\n              )|\n              5(?:\n                0[14]|\n                2[1-3589]|\n                6[1-4]|\n                7[13468]|\n                8[13568]\n              )|\n              6(?:\n                2[1-489]|\n                3[124-6]|\n                6[13]|\n                7[12579]|\n                8[1-356]|\n                9[135]\n              )|\n              7(?:\n                2[1-7]|\n                4[145]|\n                6[1-5]|\n                7[1-4]\n              )|\n              8(?:\n                21|\n                3[1468]|\n                6|\n                7[1467]|\n                8[136]\n              )|\n              9(?:\n                0[12479]|\n                2[1358]|\n                4[134679]|\n                6[1-9]|\n                7[136]|\n                8[147]|\n                9[1468]\n              )\n            )|\n            70[2-8]|\n            8(?:\n              0[2-9]|\n              [1-8]\n            )|\n            90[7-9]|\n            [79][1-9]|\n            3[68]4[1347]|\n            3(?:\n              47|\n              60\n            )[1356]|\n            3(?:\n              3[46]|\n              46|\n              5[49]\n            )[1246]|\n            3[4579]3[1357]\n          "], nationalPrefixFormattingRule := some (str% "$NP$FG") },
      { pattern := some (str% "(\\d{3})(\\d{4})"), format := some (str% "$1 $2"), leadingDigits := [str% "138"], nationalPrefixFormattingRule := some (str% "$NP$FG") },
      { pattern := some (str% "(\\d{5})(\\d{2,10})"), format := some (str% "$1 $2"), leadingDigits := [str% "3"], nationalPrefixFormattingRule := some (str% "$NP$FG") },
      { pattern := some (str% "(\\d{3})(\\d{5,11})"), format := some (str% "$1 $2"), leadingDigits := [str% "181"], nationalPrefixFormattingRule := some (str% "$NP$FG") },
      { pattern := some (str% "(\\d{3})(\\d)(\\d{4,10})"), format := some (str% "$1 $2 $3"), leadingDigits := [str% "\n            1(?:\n              3|\n              80\n            )|\n            9\n          "], nationalPrefixFormattingRule := some (str% "$NP$FG") },
      { pattern := some (str% "(\\d{3})(\\d{7,8})"), format := some (str% "$1 $2"), leadingDigits := [str% "1[67]"], nationalPrefixFormattingRule := some (str% "$NP$FG") },
      { pattern := some (str% "(\\d{3})(\\d{7,12})"), format := some (str% "$1 $2"), leadingDigits := [str% "8"], nationalPrefixFormattingRule := some (str% "$NP$FG") },
      { pattern := some (str% "(\\d{5})(\\d{6})"), format := some (str% "$1 $2"), leadingDigits := [str% "185", str% "1850", str% "18500"], nationalPrefixFormattingRule := some (str% "$NP$FG") },
      { pattern := some (str% "(\\d{3})(\\d{4})(\\d{4})"), format := some (str% "$1 $2 $3"), leadingDigits := [str% "7"], nationalPrefixFormattingRule := some (str% "$NP$FG") },
      { pattern := some (str% "(\\d{4})(\\d{7})"), format := some (str% "$1 $2"), leadingDigits := [str% "18[68]"], nationalPrefixFormattingRule := some (str% "$NP$FG") },
      { pattern := some (str% "(\\d{4})(\\d{7})"), format := some (str% "$1 $2"), leadingDigits := [str% "15[1279]"], nationalPrefixFormattingRule := some (str% "$NP$FG") },
      { pattern := some (str% "(\\d{5})(\\d{6})"), format := some (str% "$1 $2"), leadingDigits := [str% "15[03568]", str% "\n            15(?:\n              [0568]|\n              3[13]\n            )\n          "], nationalPrefixFormattingRule := some (str% "$NP$FG") },
      { pattern := some (str% "(\\d{3})(\\d{8})"), format := some (str% "$1 $2"), leadingDigits := [str% "18"], nationalPrefixFormattingRule := some (str% "$NP$FG") },
      { pattern := some (str% "(\\d{3})(\\d{2})(\\d{7,8})"), format := some (str% "$1 $2 $3"), leadingDigits := [str% "\n            1(?:\n              6[023]|\n              7\n            )\n          "], nationalPrefixFormattingRule := some (str% "$NP$FG") },
      { pattern := some (str% "(\\d{4})(\\d{2})(\\d{7})"), format := some (str% "$1 $2 $3"), leadingDigits := [str% "15[279]"], nationalPrefixFormattingRule := some (str% "$NP$FG") },
      { pattern := some (str% "(\\d{3})(\\d{2})(\\d{8})"), format := some (str% "$1 $2 $3"), leadingDigits := [str% "15"], nationalPrefixFormattingRule := some (str% "$NP$FG") }],
    mobileNumberPortable := true }

/-- territory id=DJ countryCode=253 -/
noncomputable def DJ : Loader.Metadata :=
  { general := some { nationalNumber := some (str% "\n          (?:\n            2\\d|\n            77\n          )\\d{6}\n        ") },
    fixedLine := some { nationalNumber := some (str% "\n          2(?:\n            1[2-5]|\n            7[45]\n          )\\d{5}\n        "), possibleLength := [8], example? := some (str% "21360003") },
    mobile := some { nationalNumber := some (str% "77\\d{6}"), possibleLength := [8], example? := some (str% "77831001") },
    id := some (str% "DJ"),
    countryCode := some 253,
    internationalPrefix := some (str% "00"),
    formats := [
      { pattern := some (str% "(\\d{2})(\\d{2})(\\d{2})(\\d{2})"), format := some (str% "$1 $2 $3 $4"), leadingDigits := [str% "[27]"] }],
    internationalFormats := [
      { pattern := some (str% "(\\d{2})(\\d{2})(\\d{2})(\\d{2})"), format := some (str% "$1 $2 $3 $4"), leadingDigits := [str% "[27]"] }] }

/-- territory id=DK countryCode=45 -/
noncomputable def DK : Loader.Metadata :=
  { general := some { nationalNumber := some (str% "[2-9]\\d{7}") },
    fixedLine := some { nationalNumber := some (str% "\n          (?:\n            2(?:\n              [0-59][1-9]|\n              [6-8]\\d\n            )|\n            3(?:\n              [0-3][1-9]|\n              4[13]|\n              5[1-58]|\n              6[1347-9]|\n              7\\d|\n              8[1-8]|\n              9[1-79]\n            )|\n            4(?:\n              [0-25][1-9]|\n              [34][2-9]|\n              6[13-579]|\n              7[13579]|\n              8[1-47]|\n              9[127]\n            )|\n            5(?:\n              [0-36][1-9]|\n              4[146-9]|\n              5[3-57-9]|\n              7[568]|\n              8[1-358]|\n              9[1-69]\n            )|\n            6(?:\n              [0135][1-9]|\n              2[1-68]|\n              4[2-8]|\n              6[1689]|\n              [78]\\d|\n              9[15689]\n            )|\n            7(?:\n              [0-69][1-9]|\n              7[3-9]|\n              8[147]\n            )|\n            8(?:\n              [16-9][1-9]|\n              2[1-58]\n            )|\n            9(?:\n              [1-47-9][1-9]|\n              6\\d\n            )\n          )\\d{5}\n        "), possibleLength := [8], example? := some (str% "32123456") },
    mobile := some { nationalNumber := some (str% "\n          (?:\n            2[6-8]|\n            37|\n            6[78]|\n            96\n          )\\d{6}|\n          (?:\n            2[0-59]|\n            3[0-689]|\n            [457]\\d|\n            6[0-69]|\n            8[126-9]|\n            9[1-47-9]\n          )[1-9]\\d{5}\n        "), possibleLength := [8], example? := some (str% "34412345") },
    tollFree := some { nationalNumber := some (str% "80\\d{6}"), possibleLength := [8], example? := some (str% "80123456") },
    premiumRate := some { nationalNumber := some (str% "90\\d{6}"), possibleLength := [8], example? := some (str% "90123456") },
    id := some (str% "DK"),
    countryCode := some 45,
    internationalPrefix := some (str% "00"),
    formats := [
      { pattern := some (str% "(\\d{2})(\\d{2})(\\d{2})(\\d{2})"), format := some (str% "$1 $2 $3 $4"), leadingDigits := [str% "[2-9]"] }],
    internationalFormats := [
      { pattern := some (str% "(\\d{2})(\\d{2})(\\d{2})(\\d{2})"), format := some (str% "$1 $2 $3 $4"), leadingDigits := [str% "[2-9]"] }],
    mobileNumberPortable := true }

/-- territory id=DM countryCode=1 -/
noncomputable def DM : Loader.Metadata :=
  { general := some { nationalNumber := some (str% "\n          (?:\n            [58]\\d\\d|\n            767|\n            900\n          )\\d{7}\n        ") },
    fixedLine := some { nationalNumber := some (str% "\n          767(?:\n            2(?:\n              55|\n              66\n            )|\n            4(?:\n              2[01]|\n              4[0-25-9]\n            )|\n            50[0-4]\n          )\\d{4}\n        "), possibleLength := [10], possibleLocalLength := [7], example? := some (str% "7674201234") },
    mobile := some { nationalNumber := some (str% "\n          767(?:\n            2(?:\n              [2-4689]5|\n              7[5-7]\n            )|\n            31[5-7]|\n            61[1-8]|\n            70[1-6]\n          )\\d{4}\n        "), possibleLength := [10], possibleLocalLength := [7], example? := some (str% "7672251234") },
    tollFree := some { nationalNumber := some (str% "\n          8(?:\n            00|\n            33|\n            44|\n            55|\n            66|\n            77|\n            88\n          )[2-9]\\d{6}\n        "), possibleLength := [10], example? := some (str% "8002123456") },
    premiumRate := some { nationalNumber := some (str% "900[2-9]\\d{6}"), possibleLength := [10], example? := some (str% "9002123456") },
    personalNumber := some { nationalNumber := some (str% "\n          52(?:\n            3(?:\n              [2-46-9][02-9]\\d|\n              5(?:\n                [02-46-9]\\d|\n                5[0-46-9]\n              )\n            )|\n            4(?:\n              [2-478][02-9]\\d|\n              5(?:\n                [034]\\d|\n                2[024-9]|\n                5[0-46-9]\n              )|\n              6(?:\n                0[1-9]|\n                [2-9]\\d\n              )|\n              9(?:\n                [05-9]\\d|\n                2[0-5]|\n                49\n              )\n            )\n          )\\d{4}|\n          52[34][2-9]1[02-9]\\d{4}|\n          5(?:\n            00|\n            2[125-9]|\n            3[23]|\n            44|\n            66|\n            77|\n            88\n          )[2-9]\\d{6}\n        "), possibleLength := [10], example? := some (str% "5002345678") },
    id := some (str% "DM"),
    countryCode := some 1,
    internationalPrefix := some (str% "011"),
    nationalPrefix := some (str% "1"),
    nationalPrefixForParsing := some (str% "([2-7]\\d{6})$|1"),
    nationalPrefixTransformRule := some (str% "767$1"),
    leadingDigits := some (str% "767"),
    mobileNumberPortable := true }

/-- territory id=DO countryCode=1 -/
noncomputable def DO : Loader.Metadata :=
  { general := some { nationalNumber := some (str% "\n          (?:\n            [58]\\d\\d|\n            900\n          )\\d{7}\n        ") },
    fixedLine := some { nationalNumber := some (str% "\n          8(?:\n            [04]9[2-9]\\d\\d|\n            29(?:\n              2(?:\n                [0-59]\\d|\n                6[04-9]|\n                7[0-27]|\n                8[0237-9]\n              )|\n              3(?:\n                [0-35-9]\\d|\n                4[7-9]\n              )|\n              [45]\\d\\d|\n              6(?:\n                [0-27-9]\\d|\n                [3-5][1-9]|\n                6[0135-8]\n              )|\n              7(?:\n                0[013-9]|\n                [1-37]\\d|\n                4[1-35689]|\n                5[1-4689]|\n                6[1-57-9]|\n                8[1-79]|\n                9[1-8]\n              )|\n              8(?:\n                0[146-9]|\n                1[0-48]|\n                [248]\\d|\n                3[1-79]|\n                5[01589]|\n                6[013-68]|\n                7[124-8]|\n                9[0-8]\n              )|\n              9(?:\n                [0-24]\\d|\n                3[02-46-9]|\n                5[0-79]|\n                60|\n                7[0169]|\n                8[57-9]|\n                9[02-9]\n              )\n            )\n          )\\d{4}\n        "), possibleLength := [10], possibleLocalLength := [7], example? := some (str% "8092345678") },
    mobile := some { nationalNumber := some (str% "8[024]9[2-9]\\d{6}"), possibleLength := [10], possibleLocalLength := [7], example? := some (str% "8092345678") },
    tollFree := some { nationalNumber := some (str% "\n          800(?:\n            14|\n            [2-9]\\d\n          )\\d{5}|\n          8[024]9[01]\\d{6}|\n          8(?:\n            33|\n            44|\n            55|\n            66|\n            77|\n            88\n          )[2-9]\\d{6}\n        "), possibleLength := [10], example? := some (str% "8002123456") },
    premiumRate := some { nationalNumber := some (str% "900[2-9]\\d{6}"), possibleLength := [10], example? := some (str% "9002123456") },
    personalNumber := some { nationalNumber := some (str% "\n          52(?:\n            3(?:\n              [2-46-9][02-9]\\d|\n              5(?:\n                [02-46-9]\\d|\n                5[0-46-9]\n              )\n            )|\n            4(?:\n              [2-478][02-9]\\d|\n              5(?:\n                [034]\\d|\n                2[024-9]|\n                5[0-46-9]\n              )|\n              6(?:\n                0[1-9]|\n                [2-9]\\d\n              )|\n              9(?:\n                [05-9]\\d|\n                2[0-5]|\n                49\n              )\n            )\n          )\\d{4}|\n          52[34][2-9]1[02-9]\\d{4}|\n          5(?:\n            00|\n            2[125-9]|\n            3[23]|\n            44|\n            66|\n            77|\n            88\n          )[2-9]\\d{6}\n        "), possibleLength := [10], example? := some (str% "5002345678") },
    id := some (str% "DO"),
    countryCode := some 1,
    internationalPrefix := some (str% "011"),
    nationalPrefix := some (str% "1"),
    leadingDigits := some (str% "8001|8[024]9"),
    mobileNumberPortable := true }

/-- territory id=DZ countryCode=213 -/
noncomputable def DZ : Loader.Metadata :=
  { general := some { nationalNumber := some (str% "\n          (?:\n            [1-4]|\n            [5-79]\\d|\n            80\n          )\\d{7}\n        ") },
    fixedLine := some { nationalNumber := some (str% "\n          9619\\d{5}|\n          (?:\n            [1-3]\\d|\n            4[013-689]\n          )\\d{6}\n        "), possibleLength := [8, 9], example? := some (str% "12345678") },
    mobile := some { nationalNumber := some (str% "\n          5(?:\n            4[0-29]|\n            6[0-4]\n          )\\d{6}|\n          (?:\n            55|\n            6\\d|\n            7[7-9]\n          )\\d{7}\n        "), possibleLength := [9], example? := some (str% "551234567") },
    tollFree := some { nationalNumber := some (str% "800\\d{6}"), possibleLength := [9], example? := some (str% "800123456") },
    premiumRate := some { nationalNumber := some (str% "80[3-689]1\\d{5}"), possibleLength := [9], example? := some (str% "808123456") },
    sharedCost := some { nationalNumber := some (str% "80[12]1\\d{5}"), possibleLength := [9], example? := some (str% "801123456") },
    voip := some { nationalNumber := some (str% "98[23]\\d{6}"), possibleLength := [9], example? := some (str% "983123456") },
    id := some (str% "DZ"),
    countryCode := some 213,
    internationalPrefix := some (str% "00"),
    nationalPrefix := some (str% "0"),
    formats := [
      { pattern := some (str% "(\\d{2})(\\d{2})(\\d{2})(\\d{2})"), format := some (str% "$1 $2 $3 $4"), leadingDigits := [str% "[1-4]"], nationalPrefixFormattingRule := some (str% "$NP$FG") },
      { pattern := some (str% "(\\d{2})(\\d{3})(\\d{2})(\\d{2})"), format := some (str% "$1 $2 $3 $4"), leadingDigits := [str% "9"], nationalPrefixFormattingRule := some (str% "$NP$FG") },
      { pattern := some (str% "(\\d{3})(\\d{2})(\\d{2})(\\d{2})"), format := some (str% "$1 $2 $3 $4"), leadingDigits := [str% "[5-8]"], nationalPrefixFormattingRule := some (str% "$NP$FG") }],
    internationalFormats := [
      { pattern := some (str% "(\\d{2})(\\d{2})(\\d{2})(\\d{2})"), format := some (str% "$1 $2 $3 $4"), leadingDigits := [str% "[1-4]"], nationalPrefixFormattingRule := some (str% "$NP$FG") },
      { pattern := some (str% "(\\d{2})(\\d{3})(\\d{2})(\\d{2})"), format := some (str% "$1 $2 $3 $4"), leadingDigits := [str% "9"], nationalPrefixFormattingRule := some (str% "$NP$FG") },
      { pattern := some (str% "(\\d{3})(\\d{2})(\\d{2})(\\d{2})"), format := some (str% "$1 $2 $3 $4"), leadingDigits := [str% "[5-8]"], nationalPrefixFormattingRule := some (str% "$NP$FG") }] }

/-- territory id=EC countryCode=593 -/
noncomputable def EC : Loader.Metadata :=
  { general := some { nationalNumber := some (str% "\n          1\\d{9,10}|\n          (?:\n            [2-7]|\n            9\\d\n          )\\d{7}\n        ") },
    fixedLine := some { nationalNumber := some (str% "[2-7][2-7]\\d{6}"), possibleLength := [8], possibleLocalLength := [7], example? := some (str% "22123456") },
    mobile := some { nationalNumber := some (str% "\n          964[0-2]\\d{5}|\n          9(?:\n            39|\n            [57][89]|\n            6[0-36-9]|\n            [89]\\d\n          )\\d{6}\n        "), possibleLength := [9], example? := some (str% "991234567") },
    tollFree := some { nationalNumber := some (str% "\n          1800\\d{7}|\n          1[78]00\\d{6}\n        "), possibleLength := [10, 11], example? := some (str% "18001234567") },
    voip := some { nationalNumber := some (str% "[2-7]890\\d{4}"), possibleLength := [8], example? := some (str% "28901234") },
    id := some (str% "EC"),
    countryCode := some 593,
    internationalPrefix := some (str% "00"),
    nationalPrefix := some (str% "0"),
    formats := [
      { pattern := some (str% "(\\d{3})(\\d{4})"), format := some (str% "$1-$2"), leadingDigits := [str% "[2-7]"] },
      { pattern := some (str% "(\\d)(\\d{3})(\\d{4})"), format := some (str% "$1 $2-$3"), leadingDigits := [str% "[2-7]"], nationalPrefixFormattingRule := some (str% "($NP$FG)") },
      { pattern := some (str% "(\\d{2})(\\d{3})(\\d{4})"), format := some (str% "$1 $2 $3"), leadingDigits := [str% "9"], nationalPrefixFormattingRule := some (str% "$NP$FG") },
      { pattern := some (str% "(\\d{4})(\\d{3})(\\d{3,4})"), format := some (str% "$1 $2 $3"), leadingDigits := [str% "1"] }],
    internationalFormats := [
      { pattern := some (str% "(\\d)(\\d{3})(\\d{4})"), format := some (str% "$1-$2-$3"), leadingDigits := [str% "[2-7]"], nationalPrefixFormattingRule := some (str% "($NP$FG)") },
      { pattern := some (str% "(\\d{2})(\\d{3})(\\d{4})"), format := some (str% "$1 $2 $3"), leadingDigits := [str% "9"], nationalPrefixFormattingRule := some (str% "$NP$FG") },
      { pattern := some (str% "(\\d{4})(\\d{3})(\\d{3,4})"), format := some (str% "$1 $2 $3"), leadingDigits := [str% "1"] }],
    mobileNumberPortable := true }

/-- territory id=EE countryCode=372 -/
noncomputable def EE : Loader.Metadata :=
  { general := some { nationalNumber := some (str% "\n          8\\d{9}|\n          [4578]\\d{7}|\n          (?:\n            [3-8]\\d|\n            90\n          )\\d{5}\n        ") },
    fixedLine := some { nationalNumber := some (str% "\n          (?:\n            3[23589]|\n            4[3-8]|\n            6\\d|\n            7[1-9]|\n            88\n          )\\d{5}\n        "), possibleLength := [7], example? := some (str% "3212345") },
    mobile := some { nationalNumber := some (str% "\n          (?:\n            5\\d{5}|\n            8(?:\n              1(?:\n                0(?:\n                  0(?:\n                    00|\n                    [178]\\d\n                  )|\n                  [3-9]\\d\\d\n                )|\n                (?:\n                  1(?:\n                    0[2-6]|\n                    1\\d\n                  )|\n                  [2-79]\\d\\d\n                )\\d\n              )|\n              2(?:\n                0(?:\n                  0(?:\n                    00|\n                    4\\d\n                  )|\n                  (?:\n                    19|\n                    [2-7]\\d\n                  )\\d\n                )|\n                (?:\n                  (?:\n                    [124-69]\\d|\n                    3[5-9]\n                  )\\d|\n                  7(?:\n                    [0-79]\\d|\n                    8[013-9]\n                  )|\n                  8(?:\n                    [2-6]\\d|\n                    7[01]\n                  )\n                )\\d\n              )|\n              [349]\\d{4}\n            )\n          )\\d\\d|\n          5(?:\n            (?:\n              [02]\\d|\n              5[0-478]\n            )\\d|\n            1(?:\n              [0-8]\\d|\n              95\n            )|\n            6(?:\n              4[0-4]|\n              5[1-589]\n            )\n          )\\d{3}\n        "), possibleLength := [7, 8], example? := some (str% "51234567") },
    tollFree := some { nationalNumber := some (str% "\n          800(?:\n            (?:\n              0\\d\\d|\n              1\n            )\\d|\n            [2-9]\n          )\\d{3}\n        "), possibleLength := [7, 8, 10], example? := some (str% "80012345") },
    premiumRate := some { nationalNumber := some (str% "\n          (?:\n            40\\d\\d|\n            900\n          )\\d{4}\n        "), possibleLength := [7, 8], example? := some (str% "9001234") },
    personalNumber := some { nationalNumber := some (str% "70[0-2]\\d{5}"), possibleLength := [8], example? := some (str% "70012345") },
    noInternational := some { nationalNumber := some (str% "800[2-9]\\d{3}"), possibleLength := [7] },
    id := some (str% "EE"),
    countryCode := some 372,
    internationalPrefix := some (str% "00"),
    formats := [
      { pattern := some (str% "(\\d{3})(\\d{4})"), format := some (str% "$1 $2"), leadingDigits := [str% "\n            [369]|\n            4[3-8]|\n            5(?:\n              [0-2]|\n              5[0-478]|\n              6[45]\n            )|\n            7[1-9]|\n            88\n          ", str% "\n            [369]|\n            4[3-8]|\n            5(?:\n              [02]|\n              1(?:\n                [0-8]|\n                95\n              )|\n              5[0-478]|\n              6(?:\n                4[0-4]|\n                5[1-589]\n              )\n            )|\n            7[1-9]|\n            88\n          "] },
      { pattern := some (str% "(\\d{4})(\\d{3,4})"), format := some (str% "$1 $2"), leadingDigits := [str% "\n            [45]|\n            8(?:\n              00|\n              [1-49]\n            )\n          ", str% "\n            [45]|\n            8(?:\n              00[1-9]|\n              [1-49]\n            )\n          "] },
      { pattern := some (str% "(\\d{2})(\\d{2})(\\d{4})"), format := some (str% "$1 $2 $3"), leadingDigits := [str% "7"] },
      { pattern := some (str% "(\\d{4})(\\d{3})(\\d{3})"), format := some (str% "$1 $2 $3"), leadingDigits := [str% "8"] }],
    internationalFormats := [
      { pattern := some (str% "(\\d{3})(\\d{4})"), format := some (str% "$1 $2"), leadingDigits := [str% "\n            [369]|\n            4[3-8]|\n            5(?:\n              [0-2]|\n              5[0-478]|\n              6[45]\n            )|\n            7[1-9]|\n            88\n          ", str% "\n            [369]|\n            4[3-8]|\n            5(?:\n              [02]|\n              1(?:\n                [0-8]|\n                95\n              )|\n              5[0-478]|\n              6(?:\n                4[0-4]|\n                5[1-589]\n              )\n            )|\n            7[1-9]|\n            88\n          "] },
      { pattern := some (str% "(\\d{4})(\\d{3,4})"), format := some (str% "$1 $2"), leadingDigits := [str% "\n            [45]|\n            8(?:\n              00|\n              [1-49]\n            )\n          ", str% "\n            [45]|\n            8(?:\n              00[1-9]|\n              [1-49]\n            )\n          "] },
      { pattern := some (str% "(\\d{2})(\\d{2})(\\d{4})"), format := some (str% "$1 $2 $3"), leadingDigits := [str% "7"] },
      { pattern := some (str% "(\\d{4})(\\d{3})(\\d{3})"), format := some (str% "$1 $2 $3"), leadingDigits := [str% "8"] }],
    mobileNumberPortable := true }

/-- territory id=EG countryCode=20 -/
noncomputable def EG : Loader.Metadata :=
  { general := some { nationalNumber := some (str% "\n          [189]\\d{8,9}|\n          [24-6]\\d{8}|\n          [135]\\d{7}\n        ") },
    fixedLine := some { nationalNumber := some (str% "\n          13[23]\\d{6}|\n          (?:\n            15|\n            57\n          )\\d{6,7}|\n          (?:\n            2\\d|\n            3|\n            4[05-8]|\n            5[05]|\n            6[24-689]|\n            8[2468]|\n            9[235-7]\n          )\\d{7}\n        "), possibleLength := [8, 9], possibleLocalLength := [6, 7], example? := some (str% "234567890") },
    mobile := some { nationalNumber := some (str% "1[0-25]\\d{8}"), possibleLength := [10], example? := some (str% "1001234567") },
    tollFree := some { nationalNumber := some (str% "800\\d{7}"), possibleLength := [10], example? := some (str% "8001234567") },
    premiumRate := some { nationalNumber := some (str% "900\\d{7}"), possibleLength := [10], example? := some (str% "9001234567") },
    id := some (str% "EG"),
    countryCode := some 20,
    internationalPrefix := some (str% "00"),
    nationalPrefix := some (str% "0"),
    formats := [
      { pattern := some (str% "(\\d)(\\d{7,8})"), format := some (str% "$1 $2"), leadingDigits := [str% "[23]"], nationalPrefixFormattingRule := some (str% "$NP$FG") },
      { pattern := some (str% "(\\d{2})(\\d{6,7})"), format := some (str% "$1 $2"), leadingDigits := [str% "\n            1[35]|\n            [4-6]|\n            8[2468]|\n            9[235-7]\n          "], nationalPrefixFormattingRule := some (str% "$NP$FG") },
      { pattern := some (str% "(\\d{3})(\\d{3})(\\d{4})"), format := some (str% "$1 $2 $3"), leadingDigits := [str% "[89]"], nationalPrefixFormattingRule := some (str% "$NP$FG") },
      { pattern := some (str% "(\\d{2})(\\d{8})"), format := some (str% "$1 $2"), leadingDigits := [str% "1"], nationalPrefixFormattingRule := some (str% "$NP$FG") }],
    internationalFormats := [
      { pattern := some (str% "(\\d)(\\d{7,8})"), format := some (str% "$1 $2"), leadingDigits := [str% "[23]"], nationalPrefixFormattingRule := some (str% "$NP$FG") },
      { pattern := some (str% "(\\d{2})(\\d{6,7})"), format := some (str% "$1 $2"), leadingDigits := [str% "\n            1[35]|\n            [4-6]|\n            8[2468]|\n            9[235-7]\n          "], nationalPrefixFormattingRule := some (str% "$NP$FG") },
      { pattern := some (str% "(\\d{3})(\\d{3})(\\d{4})"), format := some (str% "$1 $2 $3"), leadingDigits := [str% "[89]"], nationalPrefixFormattingRule := some (str% "$NP$FG") },
      { pattern := some (str% "(\\d{2})(\\d{8})"), format := some (str% "$1 $2"), leadingDigits := [str% "1"], nationalPrefixFormattingRule := some (str% "$NP$FG") }],
    mobileNumberPortable := true }

/-- territory id=EH countryCode=212 -/
noncomputable def EH : Loader.Metadata :=
  { general := some { nationalNumber := some (str% "[5-8]\\d{8}") },
    fixedLine := some { nationalNumber := some (str% "528[89]\\d{5}"), possibleLength := [9], example? := some (str% "528812345") },
    mobile := some { nationalNumber := some (str% "\n          (?:\n            6(?:\n              [0-79]\\d|\n              8[0-247-9]\n            )|\n            7(?:\n              [016-8]\\d|\n              2[0-8]|\n              5[0-5]\n            )\n          )\\d{6}\n        "), possibleLength := [9], example? := some (str% "650123456") },
    tollFree := some { nationalNumber := some (str% "80[0-7]\\d{6}"), possibleLength := [9], example? := some (str% "801234567") },
    premiumRate := some { nationalNumber := some (str% "89\\d{7}"), possibleLength := [9], example? := some (str% "891234567") },
    voip := some { nationalNumber := some (str% "\n          (?:\n            592(?:\n              4[0-2]|\n              93\n            )|\n            80[89]\\d\\d\n          )\\d{4}\n        "), possibleLength := [9], example? := some (str% "592401234") },
    id := some (str% "EH"),
    countryCode := some 212,
    internationalPrefix := some (str% "00"),
    nationalPrefix := some (str% "0") }

/-- territory id=ER countryCode=291 -/
noncomputable def ER : Loader.Metadata :=
  { general := some { nationalNumber := some (str% "[178]\\d{6}") },
    fixedLine := some { nationalNumber := some (str% "\n          (?:\n            1(?:\n              1[12568]|\n              [24]0|\n              55|\n              6[146]\n            )|\n            8\\d\\d\n          )\\d{4}\n        "), possibleLength := [7], possibleLocalLength := [6], example? := some (str% "8370362") },
    mobile := some { nationalNumber := some (str% "\n          (?:\n            17[1-3]|\n            7\\d\\d\n          )\\d{4}\n        "), possibleLength := [7], example? := some (str% "7123456") },
    id := some (str% "ER"),
    countryCode := some 291,
    internationalPrefix := some (str% "00"),
    nationalPrefix := some (str% "0"),
    formats := [
      { pattern := some (str% "(\\d)(\\d{3})(\\d{3})"), format := some (str% "$1 $2 $3"), leadingDigits := [str% "[178]"], nationalPrefixFormattingRule := some (str% "$NP$FG") }],
    internationalFormats := [
      { pattern := some (str% "(\\d)(\\d{3})(\\d{3})"), format := some (str% "$1 $2 $3"), leadingDigits := [str% "[178]"], nationalPrefixFormattingRule := some (str% "$NP$FG") }] }

/-- territory id=ES countryCode=34 -/
noncomputable def ES : Loader.Metadata :=
  { general := some { nationalNumber := some (str% "[5-9]\\d{8}") },
    fixedLine := some { nationalNumber := some (str% "\n          96906(?:\n            0[0-8]|\n            1[1-9]|\n            [2-9]\\d\n          )\\d\\d|\n          9(?:\n            69(?:\n              0[0-57-9]|\n              [1-9]\\d\n            )|\n            73(?:\n              [0-8]\\d|\n              9[1-9]\n            )\n          )\\d{4}|\n          (?:\n            8(?:\n              [1356]\\d|\n              [28][0-8]|\n              [47][1-9]\n            )|\n            9(?:\n              [135]\\d|\n              [268][0-8]|\n              4[1-9]|\n              7[124-9]\n            )\n          )\\d{6}\n        "), possibleLength := [9], example? := some (str% "810123456") },
    mobile := some { nationalNumber := some (str% "\n          96906(?:\n            09|\n            10\n          )\\d\\d|\n          (?:\n            590(?:\n              10[0-2]|\n              600\n            )|\n            97390\\d\n          )\\d{3}|\n          (?:\n            6\\d|\n            7[1-48]\n          )\\d{7}\n        "), possibleLength := [9], example? := some (str% "612345678") },
    tollFree := some { nationalNumber := some (str% "[89]00\\d{6}"), possibleLength := [9], example? := some (str% "800123456") },
    premiumRate := some { nationalNumber := some (str% "80[367]\\d{6}"), possibleLength := [9], example? := some (str% "803123456") },
    sharedCost := some { nationalNumber := some (str% "90[12]\\d{6}"), possibleLength := [9], example? := some (str% "901123456") },
    personalNumber := some { nationalNumber := some (str% "70\\d{7}"), possibleLength := [9], example? := some (str% "701234567") },
    uan := some { nationalNumber := some (str% "51\\d{7}"), possibleLength := [9], example? := some (str% "511234567") },
    id := some (str% "ES"),
    countryCode := some 34,
    internationalPrefix := some (str% "00"),
    formats := [
      { pattern := some (str% "(\\d{4})"), format := some (str% "$1"), leadingDigits := [str% "905"] },
      { pattern := some (str% "(\\d{6})"), format := some (str% "$1"), leadingDigits := [str% "[79]9"] },
      { pattern := some (str% "(\\d{3})(\\d{3})(\\d{3})"), format := some (str% "$1 $2 $3"), leadingDigits := [str% "[89]00"] },
      { pattern := some (str% "(\\d{3})(\\d{2})(\\d{2})(\\d{2})"), format := some (str% "$1 $2 $3 $4"), leadingDigits := [str% "[5-9]"] }],
    internationalFormats := [
      { pattern := some (str% "(\\d{3})(\\d{3})(\\d{3})"), format := some (str% "$1 $2 $3"), leadingDigits := [str% "[89]00"] },
      { pattern := some (str% "(\\d{3})(\\d{2})(\\d{2})(\\d{2})"), format := some (str% "$1 $2 $3 $4"), leadingDigits := [str% "[5-9]"] }],
    mobileNumberPortable := true }

/-- the territories of this module, in document order -/
noncomputable def chunk04 : List Loader.Metadata :=
  [CU, CV, CW, CX, CY, CZ, DE, DJ, DK, DM, DO, DZ, EC, EE, EG, EH, ER, ES]

end Phone.Data
