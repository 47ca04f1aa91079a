import Verif.Model.Database
/-! Territories of `/repo/assets/PhoneNumberMetadata.xml` as `/repo/src/metadata/loader.rs` reads them.
Generated by `tools/gen_data.py`; do not edit. -/

set_option maxRecDepth 100000
namespace Phone.Data

/-- territory id=AS countryCode=1 -/
noncomputable def AS : Loader.Metadata :=
  { general := some { nationalNumber := some (str% "\n          (?:\n            [58]\\d\\d|\n            684|\n            900\n          )\\d{7}\n        ") },
    fixedLine := some { nationalNumber := some (str% "\n          684(?:\n            274|\n            6(?:\n              22|\n              33|\n              44|\n              55|\n              77|\n              88|\n              9[19]\n            )\n          )\\d{4}\n        "), possibleLength := [10], possibleLocalLength := [7], example? := some (str% "6846221234") },
    mobile := some { nationalNumber := some (str% "\n          684(?:\n            2(?:\n              48|\n              5[2468]|\n              7[246]\n            )|\n            7(?:\n              3[13]|\n              70|\n              82\n            )\n          )\\d{4}\n        "), possibleLength := [10], possibleLocalLength := [7], example? := some (str% "6847331234") },
    tollFree := some { nationalNumber := some (str% "\n          8(?:\n            00|\n            33|\n            44|\n            55|\n            66|\n            77|\n            88\n          )[2-9]\\d{6}\n        "), possibleLength := [10], example? := some (str% "8002123456") },
    premiumRate := some { nationalNumber := some (str% "900[2-9]\\d{6}"), possibleLength := [10], example? := some (str% "9002123456") },
    personalNumber := some { nationalNumber := some (str% "\n          52(?:\n            3(?:\n              [2-46-9][02-9]\\d|\n              5(?:\n                [02-46-9]\\d|\n                5[0-46-9]\n              )\n            )|\n            4(?:\n              [2-478][02-9]\\d|\n              5(?:\n                [034]\\d|\n                2[024-9]|\n                5[0-46-9]\n              )|\n              6(?:\n                0[1-9]|\n                [2-9]\\d\n              )|\n              9(?:\n                [05-9]\\d|\n                2[0-5]|\n                49\n              )\n            )\n          )\\d{4}|\n          52[34][2-9]1[02-9]\\d{4}|\n          5(?:\n            00|\n            2[125-9]|\n            3[23]|\n            44|\n            66|\n            77|\n            88\n          )[2-9]\\d{6}\n        "), possibleLength := [10], example? := some (str% "5002345678") },
    id := some (str% "AS"),
    countryCode := some 1,
    internationalPrefix := some (str% "011"),
    nationalPrefix := some (str% "1"),
    nationalPrefixForParsing := some (str% "([267]\\d{6})$|1"),
    nationalPrefixTransformRule := some (str% "684$1"),
    leadingDigits := some (str% "684") }

/-- territory id=AT countryCode=43 -/
noncomputable def AT : Loader.Metadata :=
  { general := some { nationalNumber := some (str% "\n          1\\d{3,12}|\n          2\\d{6,12}|\n          43(?:\n            (?:\n              0\\d|\n              5[02-9]\n            )\\d{3,9}|\n            2\\d{4,5}|\n            [3467]\\d{4}|\n            8\\d{4,6}|\n            9\\d{4,7}\n          )|\n          5\\d{4,12}|\n          8\\d{7,12}|\n          9\\d{8,12}|\n          (?:\n            [367]\\d|\n            4[0-24-9]\n          )\\d{4,11}\n        ") },
    fixedLine := some { nationalNumber := some (str% "\n          1(?:\n            11\\d|\n            [2-9]\\d{3,11}\n          )|\n          (?:\n            316|\n            463\n          )\\d{3,10}|\n          648[34]\\d{3,9}|\n          (?:\n            51|\n            66|\n            73\n          )2\\d{3,10}|\n          (?:\n            2(?:\n              1[467]|\n              2[13-8]|\n              5[2357]|\n              6[1-46-8]|\n              7[1-8]|\n              8[124-7]|\n              9[1458]\n            )|\n            3(?:\n              1[1-578]|\n              3[23568]|\n              4[5-7]|\n              5[1378]|\n              6[1-38]|\n              8[3-68]\n            )|\n            4(?:\n              2[1-8]|\n              35|\n              7[1368]|\n              8[2457]\n            )|\n            5(?:\n              2[1-8]|\n              3[357]|\n              4[147]|\n              5[12578]|\n              6[37]\n            )|\n            6(?:\n              13|\n              2[1-47]|\n              4[135-7]|\n              5[468]\n            )|\n            7(?:\n              2[1-8]|\n              35|\n              4[13478]|\n              5[68]|\n              6[16-8]|\n              7[1-6]|\n              9[45]\n            )\n          )\\d{4,10}\n        "), possibleLength := [4, 5, 6, 7, 8, 9, 10, 11, 12, 13], possibleLocalLength := [3], example? := some (str% "1234567890") },
    mobile := some { nationalNumber := some (str% "\n          6(?:\n            485|\n            (?:\n              5[0-3579]|\n              6[013-9]|\n              [7-9]\\d\n            )\\d\n          )\\d{3,9}\n        "), possibleLength := [7, 8, 9, 10, 11, 12, 13], example? := some (str% "664123456") },
    tollFree := some { nationalNumber := some (str% "800\\d{6,10}"), possibleLength := [9, 10, 11, 12, 13], example? := some (str% "800123456") },
    premiumRate := some { nationalNumber := some (str% "\n          (?:\n            8[69][2-68]|\n            9(?:\n              0[01]|\n              3[019]\n            )\n          )\\d{6,10}\n        "), possibleLength := [9, 10, 11, 12, 13], example? := some (str% "900123456") },
    sharedCost := some { nationalNumber := some (str% "\n          8(?:\n            10|\n            2[018]\n          )\\d{6,10}|\n          828\\d{5}\n        "), possibleLength := [8, 9, 10, 11, 12, 13], example? := some (str% "810123456") },
    voip := some { nationalNumber := some (str% "\n          5(?:\n            0[1-9]|\n            17|\n            [79]\\d\n          )\\d{2,10}|\n          7[28]0\\d{6,10}\n        "), possibleLength := [5, 6, 7, 8, 9, 10, 11, 12, 13], example? := some (str% "780123456") },
    id := some (str% "AT"),
    countryCode := some 43,
    internationalPrefix := some (str% "00"),
    nationalPrefix := some (str% "0"),
    formats := [
      { pattern := some (str% "(\\d{4})"), format := some (str% "$1"), leadingDigits := [str% "14"] },
      { pattern := some (str% "(\\d)(\\d{3,12})"), format := some (str% "$1 $2"), leadingDigits := [str% "\n            1(?:\n              11|\n              [2-9]\n            )\n          "], nationalPrefixFormattingRule := some (str% "$NP$FG") },
      { pattern := some (str% "(\\d{3})(\\d{2})"), format := some (str% "$1 $2"), leadingDigits := [str% "517"], nationalPrefixFormattingRule := some (str% "$NP$FG") },
      { pattern := some (str% "(\\d{2})(\\d{3,5})"), format := some (str% "$1 $2"), leadingDigits := [str% "5[079]"], nationalPrefixFormattingRule := some (str% "$NP$FG") },
      { pattern := some (str% "(\\d{6})"), format := some (str% "$1"), leadingDigits := [str% "[18]"] },
      { pattern := some (str% "(\\d{3})(\\d{3,10})"), format := some (str% "$1 $2"), leadingDigits := [str% "\n            (?:\n              31|\n              4\n            )6|\n            51|\n            6(?:\n              48|\n              5[0-3579]|\n              [6-9]\n            )|\n            7(?:\n              20|\n              32|\n              8\n            )|\n            [89]\n          ", str% "\n            (?:\n              31|\n              4\n            )6|\n            51|\n            6(?:\n              485|\n              5[0-3579]|\n              [6-9]\n            )|\n            7(?:\n              20|\n              32|\n              8\n            )|\n            [89]\n          "], nationalPrefixFormattingRule := some (str% "$NP$FG") },
      { pattern := some (str% "(\\d{4})(\\d{3,9})"), format := some (str% "$1 $2"), leadingDigits := [str% "\n            [2-467]|\n            5[2-6]\n          "], nationalPrefixFormattingRule := some (str% "$NP$FG") },
      { pattern := some (str% "(\\d{2})(\\d{3})(\\d{3,4})"), format := some (str% "$1 $2 $3"), leadingDigits := [str% "5"], nationalPrefixFormattingRule := some (str% "$NP$FG") },
      { pattern := some (str% "(\\d{2})(\\d{4})(\\d{4,7})"), format := some (str% "$1 $2 $3"), leadingDigits := [str% "5"], nationalPrefixFormattingRule := some (str% "$NP$FG") }],
    internationalFormats := [
      { pattern := some (str% "(\\d)(\\d{3,12})"), format := some (str% "$1 $2"), leadingDigits := [str% "\n            1(?:\n              11|\n              [2-9]\n            )\n          "], nationalPrefixFormattingRule := some (str% "$NP$FG") },
      { pattern := some (str% "(\\d{3})(\\d{2})"), format := some (str% "$1 $2"), leadingDigits := [str% "517"], nationalPrefixFormattingRule := some (str% "$NP$FG") },
      { pattern := some (str% "(\\d{2})(\\d{3,5})"), format := some (str% "$1 $2"), leadingDigits := [str% "5[079]"], nationalPrefixFormattingRule := some (str% "$NP$FG") },
      { pattern := some (str% "(\\d{3})(\\d{3,10})"), format := some (str% "$1 $2"), leadingDigits := [str% "\n            (?:\n              31|\n              4\n            )6|\n            51|\n            6(?:\n              48|\n              5[0-3579]|\n              [6-9]\n            )|\n            7(?:\n              20|\n              32|\n              8\n            )|\n            [89]\n          ", str% "\n            (?:\n              31|\n              4\n            )6|\n            51|\n            6(?:\n              485|\n              5[0-3579]|\n              [6-9]\n            )|\n            7(?:\n              20|\n              32|\n              8\n            )|\n            [89]\n          "], nationalPrefixFormattingRule := some (str% "$NP$FG") },
      { pattern := some (str% "(\\d{4})(\\d{3,9})"), format := some (str% "$1 $2"), leadingDigits := [str% "\n            [2-467]|\n            5[2-6]\n          "], nationalPrefixFormattingRule := some (str% "$NP$FG") },
      { pattern := some (str% "(\\d{2})(\\d{3})(\\d{3,4})"), format := some (str% "$1 $2 $3"), leadingDigits := [str% "5"], nationalPrefixFormattingRule := some (str% "$NP$FG") },
      { pattern := some (str% "(\\d{2})(\\d{4})(\\d{4,7})"), format := some (str% "$1 $2 $3"), leadingDigits := [str% "5"], nationalPrefixFormattingRule := some (str% "$NP$FG") }],
    mobileNumberPortable := true }

/-- territory id=AU countryCode=61 -/
noncomputable def AU : Loader.Metadata :=
  { general := some { nationalNumber := some (str% "\n          1(?:\n            [0-79]\\d{7}(?:\n              \\d(?:\n                \\d{2}\n              )?\n            )?|\n            8[0-24-9]\\d{7}\n          )|\n          [2-478]\\d{8}|\n          1\\d{4,7}\n        ") },
    fixedLine := some { nationalNumber := some (str% "\n          (?:\n            (?:\n              241|\n              349\n            )0\\d\\d|\n            8(?:\n              51(?:\n                0(?:\n                  0[03-9]|\n                  [12479]\\d|\n                  3[2-9]|\n                  5[0-8]|\n                  6[1-9]|\n                  8[0-7]\n                )|\n                1(?:\n                  [0235689]\\d|\n                  1[0-69]|\n                  4[0-589]|\n                  7[0-47-9]\n                )|\n                2(?:\n                  0[0-79]|\n                  [18][13579]|\n                  2[14-9]|\n                  3[0-46-9]|\n                  [4-6]\\d|\n                  7[89]|\n                  9[0-4]\n                )|\n                [34]\\d\\d\n              )|\n              91(?:\n                (?:\n                  [0-58]\\d|\n                  6[0135-9]\n                )\\d|\n                7(?:\n                  0[0-24-9]|\n                  [1-9]\\d\n                )|\n                9(?:\n                  [0-46-9]\\d|\n                  5[0-79]\n                )\n              )\n            )\n          )\\d{3}|\n          (?:\n            2(?:\n              [0-26-9]\\d|\n              3[0-8]|\n              4[02-9]|\n              5[0135-9]\n            )|\n            3(?:\n              [0-3589]\\d|\n              4[0-578]|\n              6[1-9]|\n              7[0-35-9]\n            )|\n            7(?:\n              [013-57-9]\\d|\n              2[0-8]\n            )|\n            8(?:\n              55|\n              6[0-8]|\n              [78]\\d|\n              9[02-9]\n            )\n          )\\d{6}\n        "), possibleLength := [9], possibleLocalLength := [8], example? := some (str% "212345678") },
    mobile := some { nationalNumber := some (str% "\n          4(?:\n            79[01]|\n            83[0-36-9]|\n            95[0-3]\n          )\\d{5}|\n          4(?:\n            [0-36]\\d|\n            4[047-9]|\n            [58][0-24-9]|\n            7[02-8]|\n            9[0-47-9]\n          )\\d{6}\n        "), possibleLength := [9], example? := some (str% "412345678") },
    tollFree := some { nationalNumber := some (str% "\n          180(?:\n            0\\d{3}|\n            2\n          )\\d{3}\n        "), possibleLength := [7, 10], example? := some (str% "1800123456") },
    premiumRate := some { nationalNumber := some (str% "190[0-26]\\d{6}"), possibleLength := [10], example? := some (str% "1900123456") },
    sharedCost := some { nationalNumber := some (str% "\n          13(?:\n            00\\d{6}(?:\n              \\d{2}\n            )?|\n            45[0-4]\\d{3}\n          )|\n          13\\d{4}\n        "), possibleLength := [6, 8, 10, 12], example? := some (str% "1300123456") },
    voip := some { nationalNumber := some (str% "\n          14(?:\n            5(?:\n              1[0458]|\n              [23][458]\n            )|\n            71\\d\n          )\\d{4}\n        "), possibleLength := [9], example? := some (str% "147101234") },
    pager := some { nationalNumber := some (str% "163\\d{2,6}"), possibleLength := [5, 6, 7, 8, 9], example? := some (str% "1631234") },
    noInternational := some { nationalNumber := some (str% "\n          1(?:\n            3(?:\n              00\\d{5}|\n              45[0-4]\n            )|\n            802\n          )\\d{3}|\n          1[38]00\\d{6}|\n          13\\d{4}\n        "), possibleLength := [6, 7, 8, 10, 12] },
    id := some (str% "AU"),
    countryCode := some 61,
    internationalPrefix := some (str% "001[14-689]|14(?:1[14]|34|4[17]|[56]6|7[47]|88)0011"),
    preferredInternationalPrefix := some (str% "0011"),
    nationalPrefix := some (str% "0"),
    nationalPrefixForParsing := some (str% "(183[12])|0"),
    formats := [
      { pattern := some (str% "(\\d{2})(\\d{3,4})"), format := some (str% "$1 $2"), leadingDigits := [str% "16"], nationalPrefixFormattingRule := some (str% "$NP$FG") },
      { pattern := some (str% "(\\d{2})(\\d{2})(\\d{2})"), format := some (str% "$1 $2 $3"), leadingDigits := [str% "13"] },
      { pattern := some (str% "(\\d{3})(\\d{3})"), format := some (str% "$1 $2"), leadingDigits := [str% "19"] },
      { pattern := some (str% "(\\d{3})(\\d{4})"), format := some (str% "$1 $2"), leadingDigits := [str% "180", str% "1802"] },
      { pattern := some (str% "(\\d{4})(\\d{3,4})"), format := some (str% "$1 $2"), leadingDigits := [str% "19"] },
      { pattern := some (str% "(\\d{2})(\\d{3})(\\d{2,4})"), format := some (str% "$1 $2 $3"), leadingDigits := [str% "16"], nationalPrefixFormattingRule := some (str% "$NP$FG") },
      { pattern := some (str% "(\\d{3})(\\d{3})(\\d{3})"), format := some (str% "$1 $2 $3"), leadingDigits := [str% "\n            14|\n            4\n          "], nationalPrefixFormattingRule := some (str% "$NP$FG") },
      { pattern := some (str% "(\\d)(\\d{4})(\\d{4})"), format := some (str% "$1 $2 $3"), leadingDigits := [str% "[2378]"], nationalPrefixFormattingRule := some (str% "($NP$FG)"), domesticCarrier := some (str% "$CC ($FG)") },
      { pattern := some (str% "(\\d{4})(\\d{3})(\\d{3})"), format := some (str% "$1 $2 $3"), leadingDigits := [str% "\n            1(?:\n              30|\n              [89]\n            )\n          "] },
      { pattern := some (str% "(\\d{4})(\\d{4})(\\d{4})"), format := some (str% "$1 $2 $3"), leadingDigits := [str% "130"] }],
    internationalFormats := [
      { pattern := some (str% "(\\d{2})(\\d{3,4})"), format := some (str% "$1 $2"), leadingDigits := [str% "16"], nationalPrefixFormattingRule := some (str% "$NP$FG") },
      { pattern := some (str% "(\\d{2})(\\d{3})(\\d{2,4})"), format := some (str% "$1 $2 $3"), leadingDigits := [str% "16"], nationalPrefixFormattingRule := some (str% "$NP$FG") },
      { pattern := some (str% "(\\d{3})(\\d{3})(\\d{3})"), format := some (str% "$1 $2 $3"), leadingDigits := [str% "\n            14|\n            4\n          "], nationalPrefixFormattingRule := some (str% "$NP$FG") },
      { pattern := some (str% "(\\d)(\\d{4})(\\d{4})"), format := some (str% "$1 $2 $3"), leadingDigits := [str% "[2378]"], nationalPrefixFormattingRule := some (str% "($NP$FG)"), domesticCarrier := some (str% "$CC ($FG)") },
      { pattern := some (str% "(\\d{4})(\\d{3})(\\d{3})"), format := some (str% "$1 $2 $3"), leadingDigits := [str% "\n            1(?:\n              30|\n              [89]\n            )\n          "] }],
    mainCountryForCode := true,
    mobileNumberPortable := true }

/-- territory id=AW countryCode=297 -/
noncomputable def AW : Loader.Metadata :=
  { general := some { nationalNumber := some (str% "\n          (?:\n            [25-79]\\d\\d|\n            800\n          )\\d{4}\n        ") },
    fixedLine := some { nationalNumber := some (str% "\n          5(?:\n            2\\d|\n            8[1-9]\n          )\\d{4}\n        "), possibleLength := [7], example? := some (str% "5212345") },
    mobile := some { nationalNumber := some (str% "\n          (?:\n            290|\n            5[69]\\d|\n            6(?:\n              [03]0|\n              22|\n              4[0-2]|\n              [69]\\d\n            )|\n            7(?:\n              [34]\\d|\n              7[07]\n            )|\n            9(?:\n              6[45]|\n              9[4-8]\n            )\n          )\\d{4}\n        "), possibleLength := [7], example? := some (str% "5601234") },
    tollFree := some { nationalNumber := some (str% "800\\d{4}"), possibleLength := [7], example? := some (str% "8001234") },
    premiumRate := some { nationalNumber := some (str% "900\\d{4}"), possibleLength := [7], example? := some (str% "9001234") },
    voip := some { nationalNumber := some (str% "\n          (?:\n            28\\d|\n            501\n          )\\d{4}\n        "), possibleLength := [7], example? := some (str% "5011234") },
    id := some (str% "AW"),
    countryCode := some 297,
    internationalPrefix := some (str% "00"),
    formats := [
      { pattern := some (str% "(\\d{3})(\\d{4})"), format := some (str% "$1 $2"), leadingDigits := [str% "[25-9]"] }],
    internationalFormats := [
      { pattern := some (str% "(\\d{3})(\\d{4})"), format := some (str% "$1 $2"), leadingDigits := [str% "[25-9]"] }] }

/-- territory id=AX countryCode=358 -/
noncomputable def AX : Loader.Metadata :=
  { general := some { nationalNumber := some (str% "\n          2\\d{4,9}|\n          35\\d{4,5}|\n          (?:\n            60\\d\\d|\n            800\n          )\\d{4,6}|\n          7\\d{5,11}|\n          (?:\n            [14]\\d|\n            3[0-46-9]|\n            50\n          )\\d{4,8}\n        ") },
    fixedLine := some { nationalNumber := some (str% "18[1-8]\\d{3,6}"), possibleLength := [6, 7, 8, 9], example? := some (str% "181234567") },
    mobile := some { nationalNumber := some (str% "\n          4946\\d{2,6}|\n          (?:\n            4[0-8]|\n            50\n          )\\d{4,8}\n        "), possibleLength := [6, 7, 8, 9, 10], example? := some (str% "412345678") },
    tollFree := some { nationalNumber := some (str% "800\\d{4,6}"), possibleLength := [7, 8, 9], example? := some (str% "800123456") },
    premiumRate := some { nationalNumber := some (str% "[67]00\\d{5,6}"), possibleLength := [8, 9], example? := some (str% "600123456") },
    uan := some { nationalNumber := some (str% "\n          20\\d{4,8}|\n          60[12]\\d{5,6}|\n          7(?:\n            099\\d{4,5}|\n            5[03-9]\\d{3,7}\n          )|\n          20[2-59]\\d\\d|\n          (?:\n            606|\n            7(?:\n              0[78]|\n              1|\n              3\\d\n            )\n          )\\d{7}|\n          (?:\n            10|\n            29|\n            3[09]|\n            70[1-5]\\d\n          )\\d{4,8}\n        "), possibleLength := [5, 6, 7, 8, 9, 10, 11, 12], example? := some (str% "10112345") },
    id := some (str% "AX"),
    countryCode := some 358,
    internationalPrefix := some (str% "00|99(?:[01469]|5(?:[14]1|3[23]|5[59]|77|88|9[09]))"),
    preferredInternationalPrefix := some (str% "00"),
    nationalPrefix := some (str% "0"),
    leadingDigits := some (str% "18") }

/-- territory id=AZ countryCode=994 -/
noncomputable def AZ : Loader.Metadata :=
  { general := some { nationalNumber := some (str% "\n          365\\d{6}|\n          (?:\n            [124579]\\d|\n            60|\n            88\n          )\\d{7}\n        ") },
    fixedLine := some { nationalNumber := some (str% "\n          (?:\n            2[12]428|\n            3655[02]\n          )\\d{4}|\n          (?:\n            2(?:\n              22[0-79]|\n              63[0-28]\n            )|\n            3654\n          )\\d{5}|\n          (?:\n            (?:\n              1[28]|\n              46\n            )\\d|\n            2(?:\n              [014-6]2|\n              [23]3\n            )\n          )\\d{6}\n        "), possibleLength := [9], possibleLocalLength := [7], example? := some (str% "123123456") },
    mobile := some { nationalNumber := some (str% "\n          36554\\d{4}|\n          (?:\n            [16]0|\n            4[04]|\n            5[015]|\n            7[07]|\n            99\n          )\\d{7}\n        "), possibleLength := [9], example? := some (str% "401234567") },
    tollFree := some { nationalNumber := some (str% "88\\d{7}"), possibleLength := [9], example? := some (str% "881234567") },
    premiumRate := some { nationalNumber := some (str% "900200\\d{3}"), possibleLength := [9], example? := some (str% "900200123") },
    id := some (str% "AZ"),
    countryCode := some 994,
    internationalPrefix := some (str% "00"),
    nationalPrefix := some (str% "0"),
    formats := [
      { pattern := some (str% "(\\d{3})(\\d{2})(\\d{2})"), format := some (str% "$1 $2 $3"), leadingDigits := [str% "[1-9]"] },
      { pattern := some (str% "(\\d{3})(\\d{2})(\\d{2})(\\d{2})"), format := some (str% "$1 $2 $3 $4"), leadingDigits := [str% "90"], nationalPrefixFormattingRule := some (str% "$NP$FG") },
      { pattern := some (str% "(\\d{2})(\\d{3})(\\d{2})(\\d{2})"), format := some (str% "$1 $2 $3 $4"), leadingDigits := [str% "\n            1[28]|\n            2|\n            365|\n            46\n          ", str% "\n            1[28]|\n            2|\n            365[45]|\n            46\n          ", str% "\n            1[28]|\n            2|\n            365(?:\n              4|\n              5[02]\n            )|\n            46\n          "], nationalPrefixFormattingRule := some (str% "($NP$FG)") },
      { pattern := some (str% "(\\d{2})(\\d{3})(\\d{2})(\\d{2})"), format := some (str% "$1 $2 $3 $4"), leadingDigits := [str% "[13-9]"], nationalPrefixFormattingRule := some (str% "$NP$FG") }],
    internationalFormats := [
      { pattern := some (str% "(\\d{3})(\\d{2})(\\d{2})(\\d{2})"), format := some (str% "$1 $2 $3 $4"), leadingDigits := [str% "90"], nationalPrefixFormattingRule := some (str% "$NP$FG") },
      { pattern := some (str% "(\\d{2})(\\d{3})(\\d{2})(\\d{2})"), format := some (str% "$1 $2 $3 $4"), leadingDigits := [str% "\n            1[28]|\n            2|\n            365|\n            46\n          ", str% "\n            1[28]|\n            2|\n            365[45]|\n            46\n          ", str% "\n            1[28]|\n            2|\n            365(?:\n              4|\n              5[02]\n            )|\n            46\n          "], nationalPrefixFormattingRule := some (str% "($NP$FG)") },
      { pattern := some (str% "(\\d{2})(\\d{3})(\\d{2})(\\d{2})"), format := some (str% "$1 $2 $3 $4"), leadingDigits := [str% "[13-9]"], nationalPrefixFormattingRule := some (str% "$NP$FG") }],
    mobileNumberPortable := true }

/-- territory id=BA countryCode=387 -/
noncomputable def BA : Loader.Metadata :=
  { general := some { nationalNumber := some (str% "\n          6\\d{8}|\n          (?:\n            [35689]\\d|\n            49|\n            70\n          )\\d{6}\n        ") },
    fixedLine := some { nationalNumber := some (str% "\n          (?:\n            3(?:\n              [05-79][2-9]|\n              1[4579]|\n              [23][24-9]|\n              4[2-4689]|\n              8[2457-9]\n            )|\n            49[2-579]|\n            5(?:\n              0[2-49]|\n              [13][2-9]|\n              [268][2-4679]|\n              4[4689]|\n              5[2-79]|\n              7[2-69]|\n              9[2-4689]\n            )\n          )\\d{5}\n        "), possibleLength := [8], possibleLocalLength := [6], example? := some (str% "30212345") },
    mobile := some { nationalNumber := some (str% "\n          6040\\d{5}|\n          6(?:\n            03|\n            [1-356]|\n            44|\n            7\\d\n          )\\d{6}\n        "), possibleLength := [8, 9], example? := some (str% "61123456") },
    tollFree := some { nationalNumber := some (str% "8[08]\\d{6}"), possibleLength := [8], example? := some (str% "80123456") },
    premiumRate := some { nationalNumber := some (str% "9[0246]\\d{6}"), possibleLength := [8], example? := some (str% "90123456") },
    sharedCost := some { nationalNumber := some (str% "8[12]\\d{6}"), possibleLength := [8], example? := some (str% "82123456") },
    uan := some { nationalNumber := some (str% "\n          703[235]0\\d{3}|\n          70(?:\n            2[0-5]|\n            3[0146]|\n            [56]0\n          )\\d{4}\n        "), possibleLength := [8], example? := some (str% "70341234") },
    id := some (str% "BA"),
    countryCode := some 387,
    internationalPrefix := some (str% "00"),
    nationalPrefix := some (str% "0"),
    formats := [
      { pattern := some (str% "(\\d{3})(\\d{3})"), format := some (str% "$1-$2"), leadingDigits := [str% "[2-9]"] },
      { pattern := some (str% "(\\d{2})(\\d{3})(\\d{3})"), format := some (str% "$1 $2 $3"), leadingDigits := [str% "\n            6[1-3]|\n            [7-9]\n          "], nationalPrefixFormattingRule := some (str% "$NP$FG") },
      { pattern := some (str% "(\\d{2})(\\d{3})(\\d{3})"), format := some (str% "$1 $2-$3"), leadingDigits := [str% "\n            [3-5]|\n            6[56]\n          "], nationalPrefixFormattingRule := some (str% "$NP$FG") },
      { pattern := some (str% "(\\d{2})(\\d{2})(\\d{2})(\\d{3})"), format := some (str% "$1 $2 $3 $4"), leadingDigits := [str% "6"], nationalPrefixFormattingRule := some (str% "$NP$FG") }],
    internationalFormats := [
      { pattern := some (str% "(\\d{2})(\\d{3})(\\d{3})"), format := some (str% "$1 $2 $3"), leadingDigits := [str% "\n            6[1-3]|\n            [7-9]\n          "], nationalPrefixFormattingRule := some (str% "$NP$FG") },
      { pattern := some (str% "(\\d{2})(\\d{3})(\\d{3})"), format := some (str% "$1 $2-$3"), leadingDigits := [str% "\n            [3-5]|\n            6[56]\n          "], nationalPrefixFormattingRule := some (str% "$NP$FG") },
      { pattern := some (str% "(\\d{2})(\\d{2})(\\d{2})(\\d{3})"), format := some (str% "$1 $2 $3 $4"), leadingDigits := [str% "6"], nationalPrefixFormattingRule := some (str% "$NP$FG") }],
    mobileNumberPortable := true }

/-- territory id=BB countryCode=1 -/
noncomputable def BB : Loader.Metadata :=
  { general := some { nationalNumber := some (str% "\n          (?:\n            246|\n            [58]\\d\\d|\n            900\n          )\\d{7}\n        ") },
    fixedLine := some { nationalNumber := some (str% "\n          246521[0369]\\d{3}|\n          246(?:\n            2(?:\n              2[78]|\n              7[0-4]\n            )|\n            4(?:\n              1[024-6]|\n              2\\d|\n              3[2-9]\n            )|\n            5(?:\n              20|\n              [34]\\d|\n              54|\n              7[1-3]\n            )|\n            6(?:\n              2\\d|\n              38\n            )|\n            7[35]7|\n            9(?:\n              1[89]|\n              63\n            )\n          )\\d{4}\n        "), possibleLength := [10], possibleLocalLength := [7], example? := some (str% "2464123456") },
    mobile := some { nationalNumber := some (str% "\n          246(?:\n            (?:\n              2(?:\n                [3568]\\d|\n                4[0-57-9]\n              )|\n              3(?:\n                5[2-9]|\n                6[0-6]\n              )|\n              4(?:\n                46|\n                5\\d\n              )|\n              69[5-7]|\n              8(?:\n                [2-5]\\d|\n                83\n              )\n            )\\d|\n            52(?:\n              1[147]|\n              20\n            )\n          )\\d{3}\n        "), possibleLength := [10], possibleLocalLength := [7], example? := some (str% "2462501234") },
    tollFree := some { nationalNumber := some (str% "\n          8(?:\n            00|\n            33|\n            44|\n            55|\n            66|\n            77|\n            88\n          )[2-9]\\d{6}\n        "), possibleLength := [10], example? := some (str% "8002123456") },
    premiumRate := some { nationalNumber := some (str% "\n          (?:\n            246976|\n            900[2-9]\\d\\d\n          )\\d{4}\n        "), possibleLength := [10], possibleLocalLength := [7], example? := some (str% "9002123456") },
    personalNumber := some { nationalNumber := some (str% "\n          52(?:\n            3(?:\n              [2-46-9][02-9]\\d|\n              5(?:\n                [02-46-9]\\d|\n                5[0-46-9]\n              )\n            )|\n            4(?:\n              [2-478][02-9]\\d|\n              5(?:\n                [034]\\d|\n                2[024-9]|\n                5[0-46-9]\n              )|\n              6(?:\n                0[1-9]|\n                [2-9]\\d\n              )|\n              9(?:\n                [05-9]\\d|\n                2[0-5]|\n                49\n              )\n            )\n          )\\d{4}|\n          52[34][2-9]1[02-9]\\d{4}|\n          5(?:\n            00|\n            2[125-9]|\n            3[23]|\n            44|\n            66|\n            77|\n            88\n          )[2-9]\\d{6}\n        "), possibleLength := [10], example? := some (str% "5002345678") },
    voip := some { nationalNumber := some (str% "24631\\d{5}"), possibleLength := [10], possibleLocalLength := [7], example? := some (str% "2463101234") },
    uan := some { nationalNumber := some (str% "\n          246(?:\n            292|\n            367|\n            4(?:\n              1[7-9]|\n              3[01]|\n              4[47-9]|\n              67\n            )|\n            7(?:\n              1[2-9]|\n              2\\d|\n              3[016]|\n              53\n            )\n          )\\d{4}\n        "), possibleLength := [10], possibleLocalLength := [7], example? := some (str% "2464301234") },
    id := some (str% "BB"),
    countryCode := some 1,
    internationalPrefix := some (str% "011"),
    nationalPrefix := some (str% "1"),
    nationalPrefixForParsing := some (str% "([2-9]\\d{6})$|1"),
    nationalPrefixTransformRule := some (str% "246$1"),
    leadingDigits := some (str% "246"),
    mobileNumberPortable := true }

/-- territory id=BD countryCode=880 -/
noncomputable def BD : Loader.Metadata :=
  { general := some { nationalNumber := some (str% "\n          [1-469]\\d{9}|\n          8[0-79]\\d{7,8}|\n          [2-79]\\d{8}|\n          [2-9]\\d{7}|\n          [3-9]\\d{6}|\n          [57-9]\\d{5}\n        ") },
    fixedLine := some { nationalNumber := some (str% "\n          (?:\n            4(?:\n              31\\d\\d|\n              423\n            )|\n            5222\n          )\\d{3}(?:\n            \\d{2}\n          )?|\n          8332[6-9]\\d\\d|\n          (?:\n            3(?:\n              03[56]|\n              224\n            )|\n            4(?:\n              22[25]|\n              653\n            )\n          )\\d{3,4}|\n          (?:\n            3(?:\n              42[47]|\n              529|\n              823\n            )|\n            4(?:\n              027|\n              525|\n              65(?:\n                28|\n                8\n              )\n            )|\n            562|\n            6257|\n            7(?:\n              1(?:\n                5[3-5]|\n                6[12]|\n                7[156]|\n                89\n              )|\n              22[589]56|\n              32|\n              42675|\n              52(?:\n                [25689](?:\n                  56|\n                  8\n                )|\n                [347]8\n              )|\n              71(?:\n                6[1267]|\n                75|\n                89\n              )|\n              92374\n            )|\n            82(?:\n              2[59]|\n              32\n            )56|\n            9(?:\n              03[23]56|\n              23(?:\n                256|\n                373\n              )|\n              31|\n              5(?:\n                1|\n                2[4589]56\n              )\n            )\n          )\\d{3}|\n          (?:\n            3(?:\n              02[348]|\n              22[35]|\n              324|\n              422\n            )|\n            4(?:\n              22[67]|\n              32[236-9]|\n              6(?:\n                2[46]|\n                5[57]\n              )|\n              953\n            )|\n            5526|\n            6(?:\n              024|\n              6655\n            )|\n            81\n          )\\d{4,5}|\n          (?:\n            2(?:\n              7(?:\n                1[0-267]|\n                2[0-289]|\n                3[0-29]|\n                4[01]|\n                5[1-3]|\n                6[013]|\n                7[0178]|\n                91\n              )|\n              8(?:\n                0[125]|\n                1[1-6]|\n                2[0157-9]|\n                3[1-69]|\n                41|\n                6[1-35]|\n                7[1-5]|\n                8[1-8]|\n                9[0-6]\n              )|\n              9(?:\n                0[0-2]|\n                1[0-4]|\n                2[568]|\n                3[3-6]|\n                5[5-7]|\n                6[0136-9]|\n                7[0-7]|\n                8[014-9]\n              )\n            )|\n            3(?:\n              0(?:\n                2[025-79]|\n                3[2-4]\n              )|\n              181|\n              22[12]|\n              32[2356]|\n              824\n            )|\n            4(?:\n              02[09]|\n              22[348]|\n              32[045]|\n              523|\n              6(?:\n                27|\n                54\n              )\n            )|\n            666(?:\n              22|\n              53\n            )|\n            7(?:\n              22[57-9]|\n              42[56]|\n              82[35]\n            )8|\n            8(?:\n              0[124-9]|\n              2(?:\n                181|\n                2[02-4679]8\n              )|\n              4[12]|\n              [5-7]2\n            )|\n            9(?:\n              [04]2|\n              2(?:\n                2|\n                328\n              )|\n              81\n            )\n          )\\d{4}|\n          (?:\n            2(?:\n              [23]\\d|\n              [45]\n            )\\d\\d|\n            3(?:\n              1(?:\n                2[5-7]|\n                [5-7]\n              )|\n              425|\n              822\n            )|\n            4(?:\n              033|\n              1\\d|\n              [257]1|\n              332|\n              4(?:\n                2[246]|\n                5[25]\n              )|\n              6(?:\n                2[35]|\n                56|\n                62\n              )|\n              8(?:\n                23|\n                54\n              )|\n              92[2-5]\n            )|\n            5(?:\n              02[03489]|\n              22[457]|\n              32[35-79]|\n              42[46]|\n              6(?:\n                [18]|\n                53\n              )|\n              724|\n              826\n            )|\n            6(?:\n              023|\n              2(?:\n                2[2-5]|\n                5[3-5]|\n                8\n              )|\n              32[3478]|\n              42[34]|\n              52[47]|\n              6(?:\n                [18]|\n                6(?:\n                  2[34]|\n                  5[24]\n                )\n              )|\n              [78]2[2-5]|\n              92[2-6]\n            )|\n            7(?:\n              02|\n              21\\d|\n              [3-589]1|\n              6[12]|\n              72[24]\n            )|\n            8(?:\n              217|\n              3[12]|\n              [5-7]1\n            )|\n            9[24]1\n          )\\d{5}|\n          (?:\n            (?:\n              3[2-8]|\n              5[2-57-9]|\n              6[03-589]\n            )1|\n            4[4689][18]\n          )\\d{5}|\n          [59]1\\d{5}\n        "), possibleLength := [6, 7, 8, 9, 10], example? := some (str% "27111234") },
    mobile := some { nationalNumber := some (str% "\n          (?:\n            1[13-9]\\d|\n            644\n          )\\d{7}|\n          (?:\n            3[78]|\n            44|\n            66\n          )[02-9]\\d{7}\n        "), possibleLength := [10], example? := some (str% "1812345678") },
    tollFree := some { nationalNumber := some (str% "80[03]\\d{7}"), possibleLength := [10], example? := some (str% "8001234567") },
    voip := some { nationalNumber := some (str% "\n          96(?:\n            0[469]|\n            1[0-47]|\n            3[389]|\n            43|\n            6[69]|\n            7[78]\n          )\\d{6}\n        "), possibleLength := [10], example? := some (str% "9604123456") },
    id := some (str% "BD"),
    countryCode := some 880,
    internationalPrefix := some (str% "00"),
    nationalPrefix := some (str% "0"),
    formats := [
      { pattern := some (str% "(\\d{2})(\\d{4,6})"), format := some (str% "$1-$2"), leadingDigits := [str% "\n            31[5-8]|\n            [459]1\n          "], nationalPrefixFormattingRule := some (str% "$NP$FG") },
      { pattern := some (str% "(\\d{3})(\\d{3,7})"), format := some (str% "$1-$2"), leadingDigits := [str% "\n            3(?:\n              [67]|\n              8[013-9]\n            )|\n            4(?:\n              6[168]|\n              7|\n              [89][18]\n            )|\n            5(?:\n              6[128]|\n              9\n            )|\n            6(?:\n              [15]|\n              28|\n              4[14]\n            )|\n            7[2-589]|\n            8(?:\n              0[014-9]|\n              [12]\n            )|\n            9[358]|\n            (?:\n              3[2-5]|\n              4[235]|\n              5[2-578]|\n              6[0389]|\n              76|\n              8[3-7]|\n              9[24]\n            )1|\n            (?:\n              44|\n              66\n            )[01346-9]\n          "], nationalPrefixFormattingRule := some (str% "$NP$FG") },
      { pattern := some (str% "(\\d{4})(\\d{3,6})"), format := some (str% "$1-$2"), leadingDigits := [str% "\n            [13-9]|\n            2[23]\n          "], nationalPrefixFormattingRule := some (str% "$NP$FG") },
      { pattern := some (str% "(\\d)(\\d{7,8})"), format := some (str% "$1-$2"), leadingDigits := [str% "2"], nationalPrefixFormattingRule := some (str% "$NP$FG") }],
    internationalFormats := [
      { pattern := some (str% "(\\d{2})(\\d{4,6})"), format := some (str% "$1-$2"), leadingDigits := [str% "\n            31[5-8]|\n            [459]1\n          "], nationalPrefixFormattingRule := some (str% "$NP$FG") },
      { pattern := some (str% "(\\d{3})(\\d{3,7})"), format := some (str% "$1-$2"), leadingDigits := [str% "\n            3(?:\n              [67]|\n              8[013-9]\n            )|\n            4(?:\n              6[168]|\n              7|\n              [89][18]\n            )|\n            5(?:\n              6[128]|\n              9\n            )|\n            6(?:\n              [15]|\n              28|\n              4[14]\n            )|\n            7[2-589]|\n            8(?:\n              0[014-9]|\n              [12]\n            )|\n            9[358]|\n            (?:\n              3[2-5]|\n              4[235]|\n              5[2-578]|\n              6[0389]|\n              76|\n              8[3-7]|\n              9[24]\n            )1|\n            (?:\n              44|\n              66\n            )[01346-9]\n          "], nationalPrefixFormattingRule := some (str% "$NP$FG") },
      { pattern := some (str% "(\\d{4})(\\d{3,6})"), format := some (str% "$1-$2"), leadingDigits := [str% "\n            [13-9]|\n            2[23]\n          "], nationalPrefixFormattingRule := some (str% "$NP$FG") },
      { pattern := some (str% "(\\d)(\\d{7,8})"), format := some (str% "$1-$2"), leadingDigits := [str% "2"], nationalPrefixFormattingRule := some (str% "$NP$FG") }] }

/-- territory id=BE countryCode=32 -/
noncomputable def BE : Loader.Metadata :=
  { general := some { nationalNumber := some (str% "\n          4\\d{8}|\n          [1-9]\\d{7}\n        ") },
    fixedLine := some { nationalNumber := some (str% "\n          80[2-8]\\d{5}|\n          (?:\n            1[0-69]|\n            [23][2-8]|\n            4[23]|\n            5\\d|\n            6[013-57-9]|\n            71|\n            8[1-79]|\n            9[2-4]\n          )\\d{6}\n        "), possibleLength := [8], example? := some (str% "12345678") },
    mobile := some { nationalNumber := some (str% "4[5-9]\\d{7}"), possibleLength := [9], example? := some (str% "450001234") },
    tollFree := some { nationalNumber := some (str% "800[1-9]\\d{4}"), possibleLength := [8], example? := some (str% "80012345") },
    premiumRate := some { nationalNumber := some (str% "\n          (?:\n            70(?:\n              2[0-57]|\n              3[04-7]|\n              44|\n              6[04-69]|\n              7[0579]\n            )|\n            90\\d\\d\n          )\\d{4}\n        "), possibleLength := [8], example? := some (str% "90012345") },
    sharedCost := some { nationalNumber := some (str% "7879\\d{4}"), possibleLength := [8], example? := some (str% "78791234") },
    uan := some { nationalNumber := some (str% "\n          78(?:\n            0[578]|\n            1[014-8]|\n            2[25]|\n            3[15-8]|\n            48|\n            5[05]|\n            60|\n            7[06-8]|\n            9\\d\n          )\\d{4}\n        "), possibleLength := [8], example? := some (str% "78102345") },
    id := some (str% "BE"),
    countryCode := some 32,
    internationalPrefix := some (str% "00"),
    nationalPrefix := some (str% "0"),
    formats := [
      { pattern := some (str% "(\\d{3})(\\d{2})(\\d{3})"), format := some (str% "$1 $2 $3"), leadingDigits := [str% "\n            (?:\n              80|\n              9\n            )0\n          "], nationalPrefixFormattingRule := some (str% "$NP$FG") },
      { pattern := some (str% "(\\d)(\\d{3})(\\d{2})(\\d{2})"), format := some (str% "$1 $2 $3 $4"), leadingDigits := [str% "\n            [239]|\n            4[23]\n          "], nationalPrefixFormattingRule := some (str% "$NP$FG") },
      { pattern := some (str% "(\\d{2})(\\d{2})(\\d{2})(\\d{2})"), format := some (str% "$1 $2 $3 $4"), leadingDigits := [str% "[15-8]"], nationalPrefixFormattingRule := some (str% "$NP$FG") },
      { pattern := some (str% "(\\d{3})(\\d{2})(\\d{2})(\\d{2})"), format := some (str% "$1 $2 $3 $4"), leadingDigits := [str% "4"], nationalPrefixFormattingRule := some (str% "$NP$FG") }],
    internationalFormats := [
      { pattern := some (str% "(\\d{3})(\\d{2})(\\d{3})"), format := some (str% "$1 $2 $3"), leadingDigits := [str% "\n            (?:\n              80|\n              9\n            )0\n          "], nationalPrefixFormattingRule := some (str% "$NP$FG") },
      { pattern := some (str% "(\\d)(\\d{3})(\\d{2})(\\d{2})"), format := some (str% "$1 $2 $3 $4"), leadingDigits := [str% "\n            [239]|\n            4[23]\n          "], nationalPrefixFormattingRule := some (str% "$NP$FG") },
      { pattern := some (str% "(\\d{2})(\\d{2})(\\d{2})(\\d{2})"), format := some (str% "$1 $2 $3 $4"), leadingDigits := [str% "[15-8]"], nationalPrefixFormattingRule := some (str% "$NP$FG") },
      { pattern := some (str% "(\\d{3})(\\d{2})(\\d{2})(\\d{2})"), format := some (str% "$1 $2 $3 $4"), leadingDigits := [str% "4"], nationalPrefixFormattingRule := some (str% "$NP$FG") }],
    mobileNumberPortable := true }

/-- territory id=BF countryCode=226 -/
noncomputable def BF : Loader.Metadata :=
  { general := some { nationalNumber := some (str% "[024-7]\\d{7}") },
    fixedLine := some { nationalNumber := some (str% "\n          2(?:\n            0(?:\n              49|\n              5[23]|\n              6[5-7]|\n              9[016-9]\n            )|\n            4(?:\n              4[569]|\n              5[4-6]|\n              6[5-7]|\n              7[0179]\n            )|\n            5(?:\n              [34]\\d|\n              50|\n              6[5-8]\n            )\n          )\\d{4}\n        "), possibleLength := [8], example? := some (str% "20491234") },
    mobile := some { nationalNumber := some (str% "\n          (?:\n            0[1-7]|\n            4[4-6]|\n            5[0-8]|\n            [67]\\d\n          )\\d{6}\n        "), possibleLength := [8], example? := some (str% "70123456") },
    id := some (str% "BF"),
    countryCode := some 226,
    internationalPrefix := some (str% "00"),
    formats := [
      { pattern := some (str% "(\\d{2})(\\d{2})(\\d{2})(\\d{2})"), format := some (str% "$1 $2 $3 $4"), leadingDigits := [str% "[024-7]"] }],
    internationalFormats := [
      { pattern := some (str% "(\\d{2})(\\d{2})(\\d{2})(\\d{2})"), format := some (str% "$1 $2 $3 $4"), leadingDigits := [str% "[024-7]"] }] }

/-- territory id=BG countryCode=359 -/
noncomputable def BG : Loader.Metadata :=
  { general := some { nationalNumber := some (str% "\n          00800\\d{7}|\n          [2-7]\\d{6,7}|\n          [89]\\d{6,8}|\n          2\\d{5}\n        ") },
    fixedLine := some { nationalNumber := some (str% "\n          2\\d{5,7}|\n          (?:\n            43[1-6]|\n            70[1-9]\n          )\\d{4,5}|\n          (?:\n            [36]\\d|\n            4[124-7]|\n            [57][1-9]|\n            8[1-6]|\n            9[1-7]\n          )\\d{5,6}\n        "), possibleLength := [6, 7, 8], possibleLocalLength := [4, 5], example? := some (str% "2123456") },
    mobile := some { nationalNumber := some (str% "\n          (?:\n            43[07-9]|\n            99[69]\\d\n          )\\d{5}|\n          (?:\n            8[7-9]|\n            98\n          )\\d{7}\n        "), possibleLength := [8, 9], example? := some (str% "43012345") },
    tollFree := some { nationalNumber := some (str% "\n          (?:\n            00800\\d\\d|\n            800\n          )\\d{5}\n        "), possibleLength := [8, 12], example? := some (str% "80012345") },
    premiumRate := some { nationalNumber := some (str% "90\\d{6}"), possibleLength := [8], example? := some (str% "90123456") },
    sharedCost := some { nationalNumber := some (str% "700\\d{5}"), possibleLength := [8], example? := some (str% "70012345") },
    id := some (str% "BG"),
    countryCode := some 359,
    internationalPrefix := some (str% "00"),
    nationalPrefix := some (str% "0"),
    formats := [
      { pattern := some (str% "(\\d{6})"), format := some (str% "$1"), leadingDigits := [str% "1"] },
      { pattern := some (str% "(\\d)(\\d)(\\d{2})(\\d{2})"), format := some (str% "$1 $2 $3 $4"), leadingDigits := [str% "2"], nationalPrefixFormattingRule := some (str% "$NP$FG") },
      { pattern := some (str% "(\\d{3})(\\d{4})"), format := some (str% "$1 $2"), leadingDigits := [str% "\n            43[1-6]|\n            70[1-9]\n          "], nationalPrefixFormattingRule := some (str% "$NP$FG") },
      { pattern := some (str% "(\\d)(\\d{3})(\\d{3,4})"), format := some (str% "$1 $2 $3"), leadingDigits := [str% "2"], nationalPrefixFormattingRule := some (str% "$NP$FG") },
      { pattern := some (str% "(\\d{2})(\\d{3})(\\d{2,3})"), format := some (str% "$1 $2 $3"), leadingDigits := [str% "\n            [356]|\n            4[124-7]|\n            7[1-9]|\n            8[1-6]|\n            9[1-7]\n          "], nationalPrefixFormattingRule := some (str% "$NP$FG") },
      { pattern := some (str% "(\\d{3})(\\d{2})(\\d{3})"), format := some (str% "$1 $2 $3"), leadingDigits := [str% "\n            (?:\n              70|\n              8\n            )0\n          "], nationalPrefixFormattingRule := some (str% "$NP$FG") },
      { pattern := some (str% "(\\d{3})(\\d{3})(\\d{2})"), format := some (str% "$1 $2 $3"), leadingDigits := [str% "\n            43[1-7]|\n            7\n          "], nationalPrefixFormattingRule := some (str% "$NP$FG") },
      { pattern := some (str% "(\\d{2})(\\d{3})(\\d{3,4})"), format := some (str% "$1 $2 $3"), leadingDigits := [str% "\n            [48]|\n            9[08]\n          "], nationalPrefixFormattingRule := some (str% "$NP$FG") },
      { pattern := some (str% "(\\d{3})(\\d{3})(\\d{3})"), format := some (str% "$1 $2 $3"), leadingDigits := [str% "9"], nationalPrefixFormattingRule := some (str% "$NP$FG") }],
    internationalFormats := [
      { pattern := some (str% "(\\d)(\\d)(\\d{2})(\\d{2})"), format := some (str% "$1 $2 $3 $4"), leadingDigits := [str% "2"], nationalPrefixFormattingRule := some (str% "$NP$FG") },
      { pattern := some (str% "(\\d{3})(\\d{4})"), format := some (str% "$1 $2"), leadingDigits := [str% "\n            43[1-6]|\n            70[1-9]\n          "], nationalPrefixFormattingRule := some (str% "$NP$FG") },
      { pattern := some (str% "(\\d)(\\d{3})(\\d{3,4})"), format := some (str% "$1 $2 $3"), leadingDigits := [str% "2"], nationalPrefixFormattingRule := some (str% "$NP$FG") },
      { pattern := some (str% "(\\d{2})(\\d{3})(\\d{2,3})"), format := some (str% "$1 $2 $3"), leadingDigits := [str% "\n            [356]|\n            4[124-7]|\n            7[1-9]|\n            8[1-6]|\n            9[1-7]\n          "], nationalPrefixFormattingRule := some (str% "$NP$FG") },
      { pattern := some (str% "(\\d{3})(\\d{2})(\\d{3})"), format := some (str% "$1 $2 $3"), leadingDigits := [str% "\n            (?:\n              70|\n              8\n            )0\n          "], nationalPrefixFormattingRule := some (str% "$NP$FG") },
      { pattern := some (str% "(\\d{3})(\\d{3})(\\d{2})"), format := some (str% "$1 $2 $3"), leadingDigits := [str% "\n            43[1-7]|\n            7\n          "], nationalPrefixFormattingRule := some (str% "$NP$FG") },
      { pattern := some (str% "(\\d{2})(\\d{3})(\\d{3,4})"), format := some (str% "$1 $2 $3"), leadingDigits := [str% "\n            [48]|\n            9[08]\n          "], nationalPrefixFormattingRule := some (str% "$NP$FG") },
      { pattern := some (str% "(\\d{3})(\\d{3})(\\d{3})"), format := some (str% "$1 $2 $3"), leadingDigits := [str% "9"], nationalPrefixFormattingRule := some (str% "$NP$FG") }],
    mobileNumberPortable := true }

/-- territory id=BH countryCode=973 -/
noncomputable def BH : Loader.Metadata :=
  { general := some { nationalNumber := some (str% "[136-9]\\d{7}") },
    fixedLine := some { nationalNumber := some (str% "\n          (?:\n            1(?:\n              3[1356]|\n              6[0156]|\n              7\\d\n            )\\d|\n            6(?:\n              1[16]\\d|\n              500|\n              6(?:\n                0\\d|\n                3[12]|\n                44|\n                55|\n                7[7-9]|\n                88\n              )|\n              9[69][69]\n            )|\n            7(?:\n              [07]\\d\\d|\n              1(?:\n                11|\n                78\n              )\n            )\n          )\\d{4}\n        "), possibleLength := [8], example? := some (str% "17001234") },
    mobile := some { nationalNumber := some (str% "\n          (?:\n            3(?:\n              [0-79]\\d|\n              8[0-57-9]\n            )\\d|\n            6(?:\n              3(?:\n                00|\n                33|\n                6[16]\n              )|\n              441|\n              6(?:\n                3[03-9]|\n                [69]\\d|\n                7[0-689]\n              )\n            )\n          )\\d{4}\n        "), possibleLength := [8], example? := some (str% "36001234") },
    tollFree := some { nationalNumber := some (str% "8[02369]\\d{6}"), possibleLength := [8], example? := some (str% "80123456") },
    premiumRate := some { nationalNumber := some (str% "\n          (?:\n            87|\n            9[0-8]\n          )\\d{6}\n        "), possibleLength := [8], example? := some (str% "90123456") },
    sharedCost := some { nationalNumber := some (str% "84\\d{6}"), possibleLength := [8], example? := some (str% "84123456") },
    id := some (str% "BH"),
    countryCode := some 973,
    internationalPrefix := some (str% "00"),
    formats := [
      { pattern := some (str% "(\\d{4})(\\d{4})"), format := some (str% "$1 $2"), leadingDigits := [str% "\n            [13679]|\n            8[02-4679]\n          "] }],
    internationalFormats := [
      { pattern := some (str% "(\\d{4})(\\d{4})"), format := some (str% "$1 $2"), leadingDigits := [str% "\n            [13679]|\n            8[02-4679]\n          "] }],
    mobileNumberPortable := true }

/-- territory id=BI countryCode=257 -/
noncomputable def BI : Loader.Metadata :=
  { general := some { nationalNumber := some (str% "\n          (?:\n            [267]\\d|\n            31\n          )\\d{6}\n        ") },
    fixedLine := some { nationalNumber := some (str% "\n          (?:\n            22|\n            31\n          )\\d{6}\n        "), possibleLength := [8], example? := some (str% "22201234") },
    mobile := some { nationalNumber := some (str% "\n          (?:\n            29|\n            6[1-9]|\n            7[125-9]\n          )\\d{6}\n        "), possibleLength := [8], example? := some (str% "79561234") },
    id := some (str% "BI"),
    countryCode := some 257,
    internationalPrefix := some (str% "00"),
    formats := [
      { pattern := some (str% "(\\d{2})(\\d{2})(\\d{2})(\\d{2})"), format := some (str% "$1 $2 $3 $4"), leadingDigits := [str% "[2367]"] }],
    internationalFormats := [
      { pattern := some (str% "(\\d{2})(\\d{2})(\\d{2})(\\d{2})"), format := some (str% "$1 $2 $3 $4"), leadingDigits := [str% "[2367]"] }] }

/-- territory id=BJ countryCode=229 -/
noncomputable def BJ : Loader.Metadata :=
  { general := some { nationalNumber := some (str% "\n          (?:\n            01\\d|\n            8\n          )\\d{7}\n        ") },
    fixedLine := some { nationalNumber := some (str% "012\\d{7}"), possibleLength := [10], example? := some (str% "0120211234") },
    mobile := some { nationalNumber := some (str% "\n          01(?:\n            2[5-9]|\n            [4-69]\\d\n          )\\d{6}\n        "), possibleLength := [10], example? := some (str% "0195123456") },
    voip := some { nationalNumber := some (str% "857[58]\\d{4}"), possibleLength := [8], example? := some (str% "85751234") },
    uan := some { nationalNumber := some (str% "81\\d{6}"), possibleLength := [8], example? := some (str% "81123456") },
    id := some (str% "BJ"),
    countryCode := some 229,
    internationalPrefix := some (str% "00"),
    formats := [
      { pattern := some (str% "(\\d{2})(\\d{2})(\\d{2})(\\d{2})"), format := some (str% "$1 $2 $3 $4"), leadingDigits := [str% "8"] },
      { pattern := some (str% "(\\d{2})(\\d{2})(\\d{2})(\\d{2})(\\d{2})"), format := some (str% "$1 $2 $3 $4 $5"), leadingDigits := [str% "0"] }],
    internationalFormats := [
      { pattern := some (str% "(\\d{2})(\\d{2})(\\d{2})(\\d{2})"), format := some (str% "$1 $2 $3 $4"), leadingDigits := [str% "8"] },
      { pattern := some (str% "(\\d{2})(\\d{2})(\\d{2})(\\d{2})(\\d{2})"), format := some (str% "$1 $2 $3 $4 $5"), leadingDigits := [str% "0"] }],
    mobileNumberPortable := true }

/-- territory id=BL countryCode=590 -/
noncomputable def BL : Loader.Metadata :=
  { general := some { nationalNumber := some (str% "\n          7090\\d{5}|\n          (?:\n            [56]9|\n            [89]\\d\n          )\\d{7}\n        ") },
    fixedLine := some { nationalNumber := some (str% "\n          (?:\n            59(?:\n              0(?:\n                2[7-9]|\n                3[3-7]|\n                5[12]|\n                87\n              )|\n              87\\d\n            )|\n            80[6-9]\\d\\d\n          )\\d{4}\n        "), possibleLength := [9], example? := some (str% "590271234") },
    mobile := some { nationalNumber := some (str% "\n          (?:\n            69(?:\n              0\\d\\d|\n              1(?:\n                2[2-9]|\n                3[0-5]\n              )\n            )|\n            7090[0-4]\n          )\\d{4}\n        "), possibleLength := [9], example? := some (str% "690001234") },
    tollFree := some { nationalNumber := some (str% "80[0-5]\\d{6}"), possibleLength := [9], example? := some (str% "800012345") },
    premiumRate := some { nationalNumber := some (str% "8[129]\\d{7}"), possibleLength := [9], example? := some (str% "810123456") },
    voip := some { nationalNumber := some (str% "\n          9(?:\n            (?:\n              39[5-7]|\n              76[018]\n            )\\d|\n            475[0-6]\n          )\\d{4}\n        "), possibleLength := [9], example? := some (str% "976012345") },
    id := some (str% "BL"),
    countryCode := some 590,
    internationalPrefix := some (str% "00"),
    nationalPrefix := some (str% "0"),
    mobileNumberPortable := true }

/-- the territories of this module, in document order -/
noncomputable def chunk01 : List Loader.Metadata :=
  [AS, AT, AU, AW, AX, AZ, BA, BB, BD, BE, BF, BG, BH, BI, BJ, BL]

end Phone.Data
