import Verif.Model.Database
/-! Territories of `/repo/assets/PhoneNumberMetadata.xml` as `/repo/src/metadata/loader.rs` reads them.
Generated by `tools/gen_data.py`; do not edit. -/

set_option maxRecDepth 100000
namespace Phone.Data

/-- territory id=AC countryCode=247 -/
noncomputable def AC : Loader.Metadata :=
  { general := some { nationalNumber := some (str% "\n          (?:\n            [01589]\\d|\n            [46]\n          )\\d{4}\n        ") },
    fixedLine := some { nationalNumber := some (str% "6[2-467]\\d{3}"), possibleLength := [5], example? := some (str% "62889") },
    mobile := some { nationalNumber := some (str% "4\\d{4}"), possibleLength := [5], example? := some (str% "40123") },
    uan := some { nationalNumber := some (str% "\n          (?:\n            0[1-9]|\n            [1589]\\d\n          )\\d{4}\n        "), possibleLength := [6], example? := some (str% "542011") },
    id := some (str% "AC"),
    countryCode := some 247,
    internationalPrefix := some (str% "00") }

/-- territory id=AD countryCode=376 -/
noncomputable def AD : Loader.Metadata :=
  { general := some { nationalNumber := some (str% "\n          (?:\n            1|\n            6\\d\n          )\\d{7}|\n          [135-9]\\d{5}\n        ") },
    fixedLine := some { nationalNumber := some (str% "[78]\\d{5}"), possibleLength := [6], example? := some (str% "712345") },
    mobile := some { nationalNumber := some (str% "\n          690\\d{6}|\n          [356]\\d{5}\n        "), possibleLength := [6, 9], example? := some (str% "312345") },
    tollFree := some { nationalNumber := some (str% "180[02]\\d{4}"), possibleLength := [8], example? := some (str% "18001234") },
    premiumRate := some { nationalNumber := some (str% "[19]\\d{5}"), possibleLength := [6], example? := some (str% "912345") },
    noInternational := some { nationalNumber := some (str% "1800\\d{4}"), possibleLength := [8] },
    id := some (str% "AD"),
    countryCode := some 376,
    internationalPrefix := some (str% "00"),
    formats := [
      { pattern := some (str% "(\\d{3})(\\d{3})"), format := some (str% "$1 $2"), leadingDigits := [str% "[135-9]"] },
      { pattern := some (str% "(\\d{4})(\\d{4})"), format := some (str% "$1 $2"), leadingDigits := [str% "1"] },
      { pattern := some (str% "(\\d{3})(\\d{3})(\\d{3})"), format := some (str% "$1 $2 $3"), leadingDigits := [str% "6"] }],
    internationalFormats := [
      { pattern := some (str% "(\\d{3})(\\d{3})"), format := some (str% "$1 $2"), leadingDigits := [str% "[135-9]"] },
      { pattern := some (str% "(\\d{4})(\\d{4})"), format := some (str% "$1 $2"), leadingDigits := [str% "1"] },
      { pattern := some (str% "(\\d{3})(\\d{3})(\\d{3})"), format := some (str% "$1 $2 $3"), leadingDigits := [str% "6"] }] }

/-- territory id=AE countryCode=971 -/
noncomputable def AE : Loader.Metadata :=
  { general := some { nationalNumber := some (str% "\n          (?:\n            [4-7]\\d|\n            9[0-689]\n          )\\d{7}|\n          800\\d{2,9}|\n          [2-4679]\\d{7}\n        ") },
    fixedLine := some { nationalNumber := some (str% "[2-4679][2-8]\\d{6}"), possibleLength := [8], possibleLocalLength := [7], example? := some (str% "22345678") },
    mobile := some { nationalNumber := some (str% "5[02-68]\\d{7}"), possibleLength := [9], example? := some (str% "501234567") },
    tollFree := some { nationalNumber := some (str% "\n          400\\d{6}|\n          800\\d{2,9}\n        "), possibleLength := [5, 6, 7, 8, 9, 10, 11, 12], example? := some (str% "800123456") },
    premiumRate := some { nationalNumber := some (str% "900[02]\\d{5}"), possibleLength := [9], example? := some (str% "900234567") },
    sharedCost := some { nationalNumber := some (str% "700[05]\\d{5}"), possibleLength := [9], example? := some (str% "700012345") },
    uan := some { nationalNumber := some (str% "600[25]\\d{5}"), possibleLength := [9], example? := some (str% "600212345") },
    id := some (str% "AE"),
    countryCode := some 971,
    internationalPrefix := some (str% "00"),
    nationalPrefix := some (str% "0"),
    formats := [
      { pattern := some (str% "(\\d{3})(\\d{2,9})"), format := some (str% "$1 $2"), leadingDigits := [str% "\n            60|\n            8\n          "] },
      { pattern := some (str% "(\\d)(\\d{3})(\\d{4})"), format := some (str% "$1 $2 $3"), leadingDigits := [str% "\n            [236]|\n            [479][2-8]\n          "], nationalPrefixFormattingRule := some (str% "$NP$FG") },
      { pattern := some (str% "(\\d{3})(\\d)(\\d{5})"), format := some (str% "$1 $2 $3"), leadingDigits := [str% "[479]"] },
      { pattern := some (str% "(\\d{2})(\\d{3})(\\d{4})"), format := some (str% "$1 $2 $3"), leadingDigits := [str% "5"], nationalPrefixFormattingRule := some (str% "$NP$FG") }],
    internationalFormats := [
      { pattern := some (str% "(\\d{3})(\\d{2,9})"), format := some (str% "$1 $2"), leadingDigits := [str% "\n            60|\n            8\n          "] },
      { pattern := some (str% "(\\d)(\\d{3})(\\d{4})"), format := some (str% "$1 $2 $3"), leadingDigits := [str% "\n            [236]|\n            [479][2-8]\n          "], nationalPrefixFormattingRule := some (str% "$NP$FG") },
      { pattern := some (str% "(\\d{3})(\\d)(\\d{5})"), format := some (str% "$1 $2 $3"), leadingDigits := [str% "[479]"] },
      { pattern := some (str% "(\\d{2})(\\d{3})(\\d{4})"), format := some (str% "$1 $2 $3"), leadingDigits := [str% "5"], nationalPrefixFormattingRule := some (str% "$NP$FG") }] }

/-- territory id=AF countryCode=93 -/
noncomputable def AF : Loader.Metadata :=
  { general := some { nationalNumber := some (str% "[2-7]\\d{8}") },
    fixedLine := some { nationalNumber := some (str% "\n          (?:\n            [25][0-8]|\n            [34][0-4]|\n            6[0-5]\n          )[2-9]\\d{6}\n        "), possibleLength := [9], possibleLocalLength := [7], example? := some (str% "234567890") },
    mobile := some { nationalNumber := some (str% "7\\d{8}"), possibleLength := [9], possibleLocalLength := [7], example? := some (str% "701234567") },
    id := some (str% "AF"),
    countryCode := some 93,
    internationalPrefix := some (str% "00"),
    nationalPrefix := some (str% "0"),
    formats := [
      { pattern := some (str% "(\\d{3})(\\d{4})"), format := some (str% "$1 $2"), leadingDigits := [str% "[1-9]"] },
      { pattern := some (str% "(\\d{2})(\\d{3})(\\d{4})"), format := some (str% "$1 $2 $3"), leadingDigits := [str% "[2-7]"], nationalPrefixFormattingRule := some (str% "$NP$FG") }],
    internationalFormats := [
      { pattern := some (str% "(\\d{2})(\\d{3})(\\d{4})"), format := some (str% "$1 $2 $3"), leadingDigits := [str% "[2-7]"], nationalPrefixFormattingRule := some (str% "$NP$FG") }] }

/-- territory id=AG countryCode=1 -/
noncomputable def AG : Loader.Metadata :=
  { general := some { nationalNumber := some (str% "\n          (?:\n            268|\n            [58]\\d\\d|\n            900\n          )\\d{7}\n        ") },
    fixedLine := some { nationalNumber := some (str% "\n          268(?:\n            4(?:\n              6[0-38]|\n              84\n            )|\n            56[0-2]\n          )\\d{4}\n        "), possibleLength := [10], possibleLocalLength := [7], example? := some (str% "2684601234") },
    mobile := some { nationalNumber := some (str% "\n          268(?:\n            464|\n            7(?:\n              1[3-9]|\n              [28]\\d|\n              3[0246]|\n              64|\n              7[0-689]\n            )\n          )\\d{4}\n        "), possibleLength := [10], possibleLocalLength := [7], example? := some (str% "2684641234") },
    tollFree := some { nationalNumber := some (str% "\n          8(?:\n            00|\n            33|\n            44|\n            55|\n            66|\n            77|\n            88\n          )[2-9]\\d{6}\n        "), possibleLength := [10], example? := some (str% "8002123456") },
    premiumRate := some { nationalNumber := some (str% "900[2-9]\\d{6}"), possibleLength := [10], example? := some (str% "9002123456") },
    personalNumber := some { nationalNumber := some (str% "\n          52(?:\n            3(?:\n              [2-46-9][02-9]\\d|\n              5(?:\n                [02-46-9]\\d|\n                5[0-46-9]\n              )\n            )|\n            4(?:\n              [2-478][02-9]\\d|\n              5(?:\n                [034]\\d|\n                2[024-9]|\n                5[0-46-9]\n              )|\n              6(?:\n                0[1-9]|\n                [2-9]\\d\n              )|\n              9(?:\n                [05-9]\\d|\n                2[0-5]|\n                49\n              )\n            )\n          )\\d{4}|\n          52[34][2-9]1[02-9]\\d{4}|\n          5(?:\n            00|\n            2[125-9]|\n            3[23]|\n            44|\n            66|\n            77|\n            88\n          )[2-9]\\d{6}\n        "), possibleLength := [10], example? := some (str% "5002345678") },
    voip := some { nationalNumber := some (str% "26848[01]\\d{4}"), possibleLength := [10], possibleLocalLength := [7], example? := some (str% "2684801234") },
    pager := some { nationalNumber := some (str% "26840[69]\\d{4}"), possibleLength := [10], possibleLocalLength := [7], example? := some (str% "2684061234") },
    id := some (str% "AG"),
    countryCode := some 1,
    internationalPrefix := some (str% "011"),
    nationalPrefix := some (str% "1"),
    nationalPrefixForParsing := some (str% "([457]\\d{6})$|1"),
    nationalPrefixTransformRule := some (str% "268$1"),
    leadingDigits := some (str% "268"),
    mobileNumberPortable := true }

/-- territory id=AI countryCode=1 -/
noncomputable def AI : Loader.Metadata :=
  { general := some { nationalNumber := some (str% "\n          (?:\n            264|\n            [58]\\d\\d|\n            900\n          )\\d{7}\n        ") },
    fixedLine := some { nationalNumber := some (str% "\n          264(?:\n            292|\n            4(?:\n              6[12]|\n              9[78]\n            )\n          )\\d{4}\n        "), possibleLength := [10], possibleLocalLength := [7], example? := some (str% "2644612345") },
    mobile := some { nationalNumber := some (str% "\n          264(?:\n            235|\n            4(?:\n              69|\n              7[67]\n            )|\n            5(?:\n              3[6-9]|\n              8[1-4]\n            )|\n            7(?:\n              29|\n              72\n            )\n          )\\d{4}\n        "), possibleLength := [10], possibleLocalLength := [7], example? := some (str% "2642351234") },
    tollFree := some { nationalNumber := some (str% "\n          8(?:\n            00|\n            33|\n            44|\n            55|\n            66|\n            77|\n            88\n          )[2-9]\\d{6}\n        "), possibleLength := [10], example? := some (str% "8002123456") },
    premiumRate := some { nationalNumber := some (str% "900[2-9]\\d{6}"), possibleLength := [10], example? := some (str% "9002123456") },
    personalNumber := some { nationalNumber := some (str% "\n          52(?:\n            3(?:\n              [2-46-9][02-9]\\d|\n              5(?:\n                [02-46-9]\\d|\n                5[0-46-9]\n              )\n            )|\n            4(?:\n              [2-478][02-9]\\d|\n              5(?:\n                [034]\\d|\n                2[024-9]|\n                5[0-46-9]\n              )|\n              6(?:\n                0[1-9]|\n                [2-9]\\d\n              )|\n              9(?:\n                [05-9]\\d|\n                2[0-5]|\n                49\n              )\n            )\n          )\\d{4}|\n          52[34][2-9]1[02-9]\\d{4}|\n          5(?:\n            00|\n            2[125-9]|\n            3[23]|\n            44|\n            66|\n            77|\n            88\n          )[2-9]\\d{6}\n        "), possibleLength := [10], example? := some (str% "5002345678") },
    pager := some { nationalNumber := some (str% "264724\\d{4}"), possibleLength := [10], possibleLocalLength := [7], example? := some (str% "2647241234") },
    id := some (str% "AI"),
    countryCode := some 1,
    internationalPrefix := some (str% "011"),
    nationalPrefix := some (str% "1"),
    nationalPrefixForParsing := some (str% "([2457]\\d{6})$|1"),
    nationalPrefixTransformRule := some (str% "264$1"),
    leadingDigits := some (str% "264"),
    mobileNumberPortable := true }

/-- territory id=AL countryCode=355 -/
noncomputable def AL : Loader.Metadata :=
  { general := some { nationalNumber := some (str% "\n          (?:\n            700\\d\\d|\n            900\n          )\\d{3}|\n          8\\d{5,7}|\n          (?:\n            [2-5]|\n            6\\d\n          )\\d{7}\n        ") },
    fixedLine := some { nationalNumber := some (str% "\n          4505[0-2]\\d{3}|\n          (?:\n            [2358][16-9]\\d[2-9]|\n            4410\n          )\\d{4}|\n          (?:\n            [2358][2-5][2-9]|\n            4(?:\n              [2-57-9][2-9]|\n              6\\d\n            )\n          )\\d{5}\n        "), possibleLength := [8], possibleLocalLength := [5, 6, 7], example? := some (str% "22345678") },
    mobile := some { nationalNumber := some (str% "\n          6(?:\n            [78][2-9]|\n            9\\d\n          )\\d{6}\n        "), possibleLength := [9], example? := some (str% "672123456") },
    tollFree := some { nationalNumber := some (str% "800\\d{4}"), possibleLength := [7], example? := some (str% "8001234") },
    premiumRate := some { nationalNumber := some (str% "900[1-9]\\d\\d"), possibleLength := [6], example? := some (str% "900123") },
    sharedCost := some { nationalNumber := some (str% "808[1-9]\\d\\d"), possibleLength := [6], example? := some (str% "808123") },
    personalNumber := some { nationalNumber := some (str% "700[2-9]\\d{4}"), possibleLength := [8], example? := some (str% "70021234") },
    id := some (str% "AL"),
    countryCode := some 355,
    internationalPrefix := some (str% "00"),
    nationalPrefix := some (str% "0"),
    formats := [
      { pattern := some (str% "(\\d{3})(\\d{3,4})"), format := some (str% "$1 $2"), leadingDigits := [str% "\n            80|\n            9\n          "], nationalPrefixFormattingRule := some (str% "$NP$FG") },
      { pattern := some (str% "(\\d)(\\d{3})(\\d{4})"), format := some (str% "$1 $2 $3"), leadingDigits := [str% "4[2-6]"], nationalPrefixFormattingRule := some (str% "$NP$FG") },
      { pattern := some (str% "(\\d{2})(\\d{3})(\\d{3})"), format := some (str% "$1 $2 $3"), leadingDigits := [str% "\n            [2358][2-5]|\n            4\n          "], nationalPrefixFormattingRule := some (str% "$NP$FG") },
      { pattern := some (str% "(\\d{3})(\\d{5})"), format := some (str% "$1 $2"), leadingDigits := [str% "[23578]"], nationalPrefixFormattingRule := some (str% "$NP$FG") },
      { pattern := some (str% "(\\d{2})(\\d{3})(\\d{4})"), format := some (str% "$1 $2 $3"), leadingDigits := [str% "6"], nationalPrefixFormattingRule := some (str% "$NP$FG") }],
    internationalFormats := [
      { pattern := some (str% "(\\d{3})(\\d{3,4})"), format := some (str% "$1 $2"), leadingDigits := [str% "\n            80|\n            9\n          "], nationalPrefixFormattingRule := some (str% "$NP$FG") },
      { pattern := some (str% "(\\d)(\\d{3})(\\d{4})"), format := some (str% "$1 $2 $3"), leadingDigits := [str% "4[2-6]"], nationalPrefixFormattingRule := some (str% "$NP$FG") },
      { pattern := some (str% "(\\d{2})(\\d{3})(\\d{3})"), format := some (str% "$1 $2 $3"), leadingDigits := [str% "\n            [2358][2-5]|\n            4\n          "], nationalPrefixFormattingRule := some (str% "$NP$FG") },
      { pattern := some (str% "(\\d{3})(\\d{5})"), format := some (str% "$1 $2"), leadingDigits := [str% "[23578]"], nationalPrefixFormattingRule := some (str% "$NP$FG") },
      { pattern := some (str% "(\\d{2})(\\d{3})(\\d{4})"), format := some (str% "$1 $2 $3"), leadingDigits := [str% "6"], nationalPrefixFormattingRule := some (str% "$NP$FG") }],
    mobileNumberPortable := true }

/-- territory id=AM countryCode=374 -/
noncomputable def AM : Loader.Metadata :=
  { general := some { nationalNumber := some (str% "\n          (?:\n            [1-489]\\d|\n            55|\n            60|\n            77\n          )\\d{6}\n        ") },
    fixedLine := some { nationalNumber := some (str% "\n          (?:\n            (?:\n              1[0-25]|\n              47\n            )\\d|\n            2(?:\n              2[2-46]|\n              3[1-8]|\n              4[2-69]|\n              5[2-7]|\n              6[1-9]|\n              8[1-7]\n            )|\n            3[12]2\n          )\\d{5}\n        "), possibleLength := [8], possibleLocalLength := [5, 6], example? := some (str% "10123456") },
    mobile := some { nationalNumber := some (str% "\n          (?:\n            33|\n            4[1349]|\n            55|\n            77|\n            88|\n            9[13-9]\n          )\\d{6}\n        "), possibleLength := [8], example? := some (str% "77123456") },
    tollFree := some { nationalNumber := some (str% "800\\d{5}"), possibleLength := [8], example? := some (str% "80012345") },
    premiumRate := some { nationalNumber := some (str% "90[016]\\d{5}"), possibleLength := [8], example? := some (str% "90012345") },
    sharedCost := some { nationalNumber := some (str% "80[1-4]\\d{5}"), possibleLength := [8], example? := some (str% "80112345") },
    voip := some { nationalNumber := some (str% "\n          60(?:\n            2[78]|\n            3[5-9]|\n            4[02-9]|\n            5[0-46-9]|\n            [6-8]\\d|\n            9[0-2]\n          )\\d{4}\n        "), possibleLength := [8], example? := some (str% "60271234") },
    id := some (str% "AM"),
    countryCode := some 374,
    internationalPrefix := some (str% "00"),
    nationalPrefix := some (str% "0"),
    formats := [
      { pattern := some (str% "(\\d{3})(\\d{2})(\\d{3})"), format := some (str% "$1 $2 $3"), leadingDigits := [str% "[89]0"], nationalPrefixFormattingRule := some (str% "$NP $FG") },
      { pattern := some (str% "(\\d{3})(\\d{5})"), format := some (str% "$1 $2"), leadingDigits := [str% "\n            2|\n            3[12]\n          "], nationalPrefixFormattingRule := some (str% "($NP$FG)") },
      { pattern := some (str% "(\\d{2})(\\d{6})"), format := some (str% "$1 $2"), leadingDigits := [str% "\n            1|\n            47\n          "], nationalPrefixFormattingRule := some (str% "($NP$FG)") },
      { pattern := some (str% "(\\d{2})(\\d{6})"), format := some (str% "$1 $2"), leadingDigits := [str% "[3-9]"], nationalPrefixFormattingRule := some (str% "$NP$FG") }],
    internationalFormats := [
      { pattern := some (str% "(\\d{3})(\\d{2})(\\d{3})"), format := some (str% "$1 $2 $3"), leadingDigits := [str% "[89]0"], nationalPrefixFormattingRule := some (str% "$NP $FG") },
      { pattern := some (str% "(\\d{3})(\\d{5})"), format := some (str% "$1 $2"), leadingDigits := [str% "\n            2|\n            3[12]\n          "], nationalPrefixFormattingRule := some (str% "($NP$FG)") },
      { pattern := some (str% "(\\d{2})(\\d{6})"), format := some (str% "$1 $2"), leadingDigits := [str% "\n            1|\n            47\n          "], nationalPrefixFormattingRule := some (str% "($NP$FG)") },
      { pattern := some (str% "(\\d{2})(\\d{6})"), format := some (str% "$1 $2"), leadingDigits := [str% "[3-9]"], nationalPrefixFormattingRule := some (str% "$NP$FG") }],
    mobileNumberPortable := true }

/-- territory id=AO countryCode=244 -/
noncomputable def AO : Loader.Metadata :=
  { general := some { nationalNumber := some (str% "[29]\\d{8}") },
    fixedLine := some { nationalNumber := some (str% "\n          2\\d(?:\n            [0134][25-9]|\n            [25-9]\\d\n          )\\d{5}\n        "), possibleLength := [9], example? := some (str% "222123456") },
    mobile := some { nationalNumber := some (str% "9[1-79]\\d{7}"), possibleLength := [9], example? := some (str% "923123456") },
    id := some (str% "AO"),
    countryCode := some 244,
    internationalPrefix := some (str% "00"),
    formats := [
      { pattern := some (str% "(\\d{3})(\\d{3})(\\d{3})"), format := some (str% "$1 $2 $3"), leadingDigits := [str% "[29]"] }],
    internationalFormats := [
      { pattern := some (str% "(\\d{3})(\\d{3})(\\d{3})"), format := some (str% "$1 $2 $3"), leadingDigits := [str% "[29]"] }] }

/-- territory id=AR countryCode=54 -/
noncomputable def AR : Loader.Metadata :=
  { general := some { nationalNumber := some (str% "\n          (?:\n            11|\n            [89]\\d\\d\n          )\\d{8}|\n          [2368]\\d{9}\n        ") },
    fixedLine := some { nationalNumber := some (str% "\n          3(?:\n            7(?:\n              1[15]|\n              81\n            )|\n            8(?:\n              21|\n              4[16]|\n              69|\n              9[12]\n            )\n          )[46]\\d{5}|\n          (?:\n            2(?:\n              2(?:\n                2[59]|\n                44|\n                52\n              )|\n              3(?:\n                26|\n                44\n              )|\n              47[35]|\n              9(?:\n                [07]2|\n                2[26]|\n                34|\n                46\n              )\n            )|\n            3327\n          )[45]\\d{5}|\n          (?:\n            2(?:\n              657|\n              9(?:\n                54|\n                66\n              )\n            )|\n            3(?:\n              48[27]|\n              7(?:\n                55|\n                77\n              )|\n              8(?:\n                65|\n                78\n              )\n            )\n          )[2-8]\\d{5}|\n          (?:\n            2(?:\n              284|\n              3(?:\n                02|\n                23\n              )|\n              477|\n              622|\n              920\n            )|\n            3(?:\n              4(?:\n                46|\n                89|\n                92\n              )|\n              541\n            )\n          )[2-7]\\d{5}|\n          (?:\n            (?:\n              11[1-8]|\n              670\n            )\\d|\n            2(?:\n              2(?:\n                0[45]|\n                1[2-6]|\n                3[3-6]\n              )|\n              3(?:\n                [06]4|\n                7[45]\n              )|\n              494|\n              6(?:\n                04|\n                1[2-8]|\n                [36][45]|\n                4[3-6]\n              )|\n              80[45]|\n              9(?:\n                [17][4-6]|\n                [48][45]|\n                9[3-6]\n              )\n            )|\n            3(?:\n              364|\n              4(?:\n                1[2-8]|\n                [25][4-6]|\n                3[3-6]|\n                84\n              )|\n              5(?:\n                1[2-9]|\n                [38][4-6]\n              )|\n              6(?:\n                2[45]|\n                44\n              )|\n              7[069][45]|\n              8(?:\n                0[45]|\n                1[2-7]|\n                3[4-6]|\n                5[3-6]|\n                7[2-6]|\n                8[3-68]\n              )\n            )\n          )\\d{6}|\n          (?:\n            2(?:\n              2(?:\n                62|\n                81\n              )|\n              320|\n              9(?:\n                42|\n                83\n              )\n            )|\n            3(?:\n              329|\n              4(?:\n                62|\n                7[16]\n              )|\n              5(?:\n                43|\n                64\n              )|\n              7(?:\n                18|\n                5[17]\n              )\n            )\n          )[2-6]\\d{5}|\n          2(?:\n            2(?:\n              21|\n              4[23]|\n              6[145]|\n              7[1-4]|\n              8[356]|\n              9[267]\n            )|\n            3(?:\n              16|\n              3[13-8]|\n              43|\n              5[346-8]|\n              9[3-5]\n            )|\n            6(?:\n              2[46]|\n              4[78]|\n              5[1568]\n            )|\n            9(?:\n              03|\n              2[1457-9]|\n              3[1356]|\n              4[08]|\n              [56][23]|\n              82\n            )\n          )4\\d{5}|\n          (?:\n            2(?:\n              257|\n              3(?:\n                24|\n                46|\n                92\n              )|\n              9(?:\n                01|\n                23|\n                64\n              )\n            )|\n            3(?:\n              4(?:\n                42|\n                64\n              )|\n              5(?:\n                25|\n                37|\n                4[47]|\n                71\n              )|\n              7(?:\n                35|\n                72\n              )|\n              825\n            )\n          )[3-6]\\d{5}|\n          (?:\n            2(?:\n              2(?:\n                02|\n                2[3467]|\n                4[156]|\n                5[45]|\n                6[6-8]|\n                91\n              )|\n              3(?:\n                1[47]|\n                25|\n                [45][25]|\n                96\n              )|\n              47[48]|\n              625|\n              932\n            )|\n            3(?:\n              38[2578]|\n              4(?:\n                0[0-24-9]|\n                3[78]|\n                4[457]|\n                58|\n                6[035-9]|\n                72|\n                83|\n                9[136-8]\n              )|\n              5(?:\n                2[124]|\n                [368][23]|\n                4[2689]|\n                7[2-6]\n              )|\n              7(?:\n                16|\n                2[15]|\n                3[14]|\n                4[13]|\n                5[468]|\n                7[3-5]|\n                8[26]\n              )|\n              8(?:\n                2[67]|\n                3[278]|\n                4[3-5]|\n                5[78]|\n                6[1-378]|\n                [78]7|\n                94\n              )\n            )\n          )[4-6]\\d{5}\n        "), possibleLength := [10], possibleLocalLength := [6, 7, 8], example? := some (str% "1123456789") },
    mobile := some { nationalNumber := some (str% "\n          93(?:\n            7(?:\n              1[15]|\n              81\n            )|\n            8(?:\n              21|\n              4[16]|\n              69|\n              9[12]\n            )\n          )[46]\\d{5}|\n          9(?:\n            2(?:\n              2(?:\n                2[59]|\n                44|\n                52\n              )|\n              3(?:\n                26|\n                44\n              )|\n              47[35]|\n              9(?:\n                [07]2|\n                2[26]|\n                34|\n                46\n              )\n            )|\n            3327\n          )[45]\\d{5}|\n          9(?:\n            2(?:\n              657|\n              9(?:\n                54|\n                66\n              )\n            )|\n            3(?:\n              48[27]|\n              7(?:\n                55|\n                77\n              )|\n              8(?:\n                65|\n                78\n              )\n            )\n          )[2-8]\\d{5}|\n          9(?:\n            2(?:\n              284|\n              3(?:\n                02|\n                23\n              )|\n              477|\n              622|\n              920\n            )|\n            3(?:\n              4(?:\n                46|\n                89|\n                92\n              )|\n              541\n            )\n          )[2-7]\\d{5}|\n          (?:\n            675\\d|\n            9(?:\n              11[1-8]\\d|\n              2(?:\n                2(?:\n                  0[45]|\n                  1[2-6]|\n                  3[3-6]\n                )|\n                3(?:\n                  [06]4|\n                  7[45]\n                )|\n                494|\n                6(?:\n                  04|\n                  1[2-8]|\n                  [36][45]|\n                  4[3-6]\n                )|\n                80[45]|\n                9(?:\n                  [17][4-6]|\n                  [48][45]|\n                  9[3-6]\n                )\n              )|\n              3(?:\n                364|\n                4(?:\n                  1[2-8]|\n                  [25][4-6]|\n                  3[3-6]|\n                  84\n                )|\n                5(?:\n                  1[2-9]|\n                  [38][4-6]\n                )|\n                6(?:\n                  2[45]|\n                  44\n                )|\n                7[069][45]|\n                8(?:\n                  0[45]|\n                  1[2-7]|\n                  3[4-6]|\n                  5[3-6]|\n                  7[2-6]|\n                  8[3-68]\n                )\n              )\n            )\n          )\\d{6}|\n          9(?:\n            2(?:\n              2(?:\n                62|\n                81\n              )|\n              320|\n              9(?:\n                42|\n                83\n              )\n            )|\n            3(?:\n              329|\n              4(?:\n                62|\n                7[16]\n              )|\n              5(?:\n                43|\n                64\n              )|\n              7(?:\n                18|\n                5[17]\n              )\n            )\n          )[2-6]\\d{5}|\n          92(?:\n            2(?:\n              21|\n              4[23]|\n              6[145]|\n              7[1-4]|\n              8[356]|\n              9[267]\n            )|\n            3(?:\n              16|\n              3[13-8]|\n              43|\n              5[346-8]|\n              9[3-5]\n            )|\n            6(?:\n              2[46]|\n              4[78]|\n              5[1568]\n            )|\n            9(?:\n              03|\n              2[1457-9]|\n              3[1356]|\n              4[08]|\n              [56][23]|\n              82\n            )\n          )4\\d{5}|\n          9(?:\n            2(?:\n              257|\n              3(?:\n                24|\n                46|\n                92\n              )|\n              9(?:\n                01|\n                23|\n                64\n              )\n            )|\n            3(?:\n              4(?:\n                42|\n                64\n              )|\n              5(?:\n                25|\n                37|\n                4[47]|\n                71\n              )|\n              7(?:\n                35|\n                72\n              )|\n              825\n            )\n          )[3-6]\\d{5}|\n          9(?:\n            2(?:\n              2(?:\n                02|\n                2[3467]|\n                4[156]|\n                5[45]|\n                6[6-8]|\n                91\n              )|\n              3(?:\n                1[47]|\n                25|\n                [45][25]|\n                96\n              )|\n              47[48]|\n              625|\n              932\n            )|\n            3(?:\n              38[2578]|\n              4(?:\n                0[0-24-9]|\n                3[78]|\n                4[457]|\n                58|\n                6[035-9]|\n                72|\n                83|\n                9[136-8]\n              )|\n              5(?:\n                2[124]|\n                [368][23]|\n                4[2689]|\n                7[2-6]\n              )|\n              7(?:\n                16|\n                2[15]|\n                3[14]|\n                4[13]|\n                5[468]|\n                7[3-5]|\n                8[26]\n              )|\n              8(?:\n                2[67]|\n                3[278]|\n                4[3-5]|\n                5[78]|\n                6[1-378]|\n                [78]7|\n                94\n              )\n            )\n          )[4-6]\\d{5}\n        "), possibleLength := [10, 11], possibleLocalLength := [6, 7, 8], example? := some (str% "91123456789") },
    tollFree := some { nationalNumber := some (str% "800\\d{7,8}"), possibleLength := [10, 11], example? := some (str% "8001234567") },
    premiumRate := some { nationalNumber := some (str% "60[04579]\\d{7}"), possibleLength := [10], example? := some (str% "6001234567") },
    uan := some { nationalNumber := some (str% "810\\d{7}"), possibleLength := [10], example? := some (str% "8101234567") },
    noInternational := some { nationalNumber := some (str% "810\\d{7}"), possibleLength := [10] },
    id := some (str% "AR"),
    countryCode := some 54,
    internationalPrefix := some (str% "00"),
    nationalPrefix := some (str% "0"),
    nationalPrefixForParsing := some (str% "\n                 0?(?:\n                   (\n                     11|\n                     2(?:\n                       2(?:\n                         02?|\n                         [13]|\n                         2[13-79]|\n                         4[1-6]|\n                         5[2457]|\n                         6[124-8]|\n                         7[1-4]|\n                         8[13-6]|\n                         9[1267]\n                       )|\n                       3(?:\n                         02?|\n                         1[467]|\n                         2[03-6]|\n                         3[13-8]|\n                         [49][2-6]|\n                         5[2-8]|\n                         [67]\n                       )|\n                       4(?:\n                         7[3-578]|\n                         9\n                       )|\n                       6(?:\n                         [0136]|\n                         2[24-6]|\n                         4[6-8]?|\n                         5[15-8]\n                       )|\n                       80|\n                       9(?:\n                         0[1-3]|\n                         [19]|\n                         2\\d|\n                         3[1-6]|\n                         4[02568]?|\n                         5[2-4]|\n                         6[2-46]|\n                         72?|\n                         8[23]?\n                       )\n                     )|\n                     3(?:\n                       3(?:\n                         2[79]|\n                         6|\n                         8[2578]\n                       )|\n                       4(?:\n                         0[0-24-9]|\n                         [12]|\n                         3[5-8]?|\n                         4[24-7]|\n                         5[4-68]?|\n                         6[02-9]|\n                         7[126]|\n                         8[2379]?|\n                         9[1-36-8]\n                       )|\n                       5(?:\n                         1|\n                         2[1245]|\n                         3[237]?|\n                         4[1-46-9]|\n                         6[2-4]|\n                         7[1-6]|\n                         8[2-5]?\n                       )|\n                       6[24]|\n                       7(?:\n                         [069]|\n                         1[1568]|\n                         2[15]|\n                         3[145]|\n                         4[13]|\n                         5[14-8]|\n                         7[2-57]|\n                         8[126]\n                       )|\n                       8(?:\n                         [01]|\n                         2[15-7]|\n                         3[2578]?|\n                         4[13-6]|\n                         5[4-8]?|\n                         6[1-357-9]|\n                         7[36-8]?|\n                         8[5-8]?|\n                         9[124]\n                       )\n                     )\n                   )15\n                 )?"),
    nationalPrefixTransformRule := some (str% "9$1"),
    formats := [
      { pattern := some (str% "(\\d{3})"), format := some (str% "$1"), leadingDigits := [str% "\n            0|\n            1(?:\n              0[0-35-7]|\n              1[02-5]|\n              2[015]|\n              3[47]|\n              4[478]\n            )|\n            911\n          "] },
      { pattern := some (str% "(\\d{2})(\\d{4})"), format := some (str% "$1-$2"), leadingDigits := [str% "[1-9]"] },
      { pattern := some (str% "(\\d{3})(\\d{4})"), format := some (str% "$1-$2"), leadingDigits := [str% "[2-9]"] },
      { pattern := some (str% "(\\d{4})(\\d{4})"), format := some (str% "$1-$2"), leadingDigits := [str% "[1-8]"] },
      { pattern := some (str% "(\\d{4})(\\d{2})(\\d{4})"), format := some (str% "$1 $2-$3"), leadingDigits := [str% "\n            2(?:\n              2[024-9]|\n              3[0-59]|\n              47|\n              6[245]|\n              9[02-8]\n            )|\n            3(?:\n              3[28]|\n              4[03-9]|\n              5[2-46-8]|\n              7[1-578]|\n              8[2-9]\n            )\n          ", str% "\n            2(?:\n              [23]02|\n              6(?:\n                [25]|\n                4[6-8]\n              )|\n              9(?:\n                [02356]|\n                4[02568]|\n                72|\n                8[23]\n              )\n            )|\n            3(?:\n              3[28]|\n              4(?:\n                [04679]|\n                3[5-8]|\n                5[4-68]|\n                8[2379]\n              )|\n              5(?:\n                [2467]|\n                3[237]|\n                8[2-5]\n              )|\n              7[1-578]|\n              8(?:\n                [2469]|\n                3[2578]|\n                5[4-8]|\n                7[36-8]|\n                8[5-8]\n              )\n            )|\n            2(?:\n              2[24-9]|\n              3[1-59]|\n              47\n            )\n          ", str% "\n            2(?:\n              [23]02|\n              6(?:\n                [25]|\n                4(?:\n                  64|\n                  [78]\n                )\n              )|\n              9(?:\n                [02356]|\n                4(?:\n                  [0268]|\n                  5[2-6]\n                )|\n                72|\n                8[23]\n              )\n            )|\n            3(?:\n              3[28]|\n              4(?:\n                [04679]|\n                3[78]|\n                5(?:\n                  4[46]|\n                  8\n                )|\n                8[2379]\n              )|\n              5(?:\n                [2467]|\n                3[237]|\n                8[23]\n              )|\n              7[1-578]|\n              8(?:\n                [2469]|\n                3[278]|\n                5[56][46]|\n                86[3-6]\n              )\n            )|\n            2(?:\n              2[24-9]|\n              3[1-59]|\n              47\n            )|\n            38(?:\n              [58][78]|\n              7[378]\n            )|\n            3(?:\n              4[35][56]|\n              58[45]|\n              8(?:\n                [38]5|\n                54|\n                76\n              )\n            )[4-6]\n          ", str% "\n            2(?:\n              [23]02|\n              6(?:\n                [25]|\n                4(?:\n                  64|\n                  [78]\n                )\n              )|\n              9(?:\n                [02356]|\n                4(?:\n                  [0268]|\n                  5[2-6]\n                )|\n                72|\n                8[23]\n              )\n            )|\n            3(?:\n              3[28]|\n              4(?:\n                [04679]|\n                3(?:\n                  5(?:\n                    4[0-25689]|\n                    [56]\n                  )|\n                  [78]\n                )|\n                58|\n                8[2379]\n              )|\n              5(?:\n                [2467]|\n                3[237]|\n                8(?:\n                  [23]|\n                  4(?:\n                    [45]|\n                    60\n                  )|\n                  5(?:\n                    4[0-39]|\n                    5|\n                    64\n                  )\n                )\n              )|\n              7[1-578]|\n              8(?:\n                [2469]|\n                3[278]|\n                54(?:\n                  4|\n                  5[13-7]|\n                  6[89]\n                )|\n                86[3-6]\n              )\n            )|\n            2(?:\n              2[24-9]|\n              3[1-59]|\n              47\n            )|\n            38(?:\n              [58][78]|\n              7[378]\n            )|\n            3(?:\n              454|\n              85[56]\n            )[46]|\n            3(?:\n              4(?:\n                36|\n                5[56]\n              )|\n              8(?:\n                [38]5|\n                76\n              )\n            )[4-6]\n          "], nationalPrefixFormattingRule := some (str% "$NP$FG"), nationalPrefixOptionalWhenFormatting := true },
      { pattern := some (str% "(\\d{2})(\\d{4})(\\d{4})"), format := some (str% "$1 $2-$3"), leadingDigits := [str% "1"], nationalPrefixFormattingRule := some (str% "$NP$FG"), nationalPrefixOptionalWhenFormatting := true },
      { pattern := some (str% "(\\d{3})(\\d{3})(\\d{4})"), format := some (str% "$1-$2-$3"), leadingDigits := [str% "[68]"], nationalPrefixFormattingRule := some (str% "$NP$FG") },
      { pattern := some (str% "(\\d{3})(\\d{3})(\\d{4})"), format := some (str% "$1 $2-$3"), leadingDigits := [str% "[23]"], nationalPrefixFormattingRule := some (str% "$NP$FG"), nationalPrefixOptionalWhenFormatting := true },
      { pattern := some (str% "(\\d)(\\d{4})(\\d{2})(\\d{4})"), format := some (str% "$2 15-$3-$4"), leadingDigits := [str% "\n            9(?:\n              2[2-469]|\n              3[3-578]\n            )\n          ", str% "\n            9(?:\n              2(?:\n                2[024-9]|\n                3[0-59]|\n                47|\n                6[245]|\n                9[02-8]\n              )|\n              3(?:\n                3[28]|\n                4[03-9]|\n                5[2-46-8]|\n                7[1-578]|\n                8[2-9]\n              )\n            )\n          ", str% "\n            9(?:\n              2(?:\n                [23]02|\n                6(?:\n                  [25]|\n                  4[6-8]\n                )|\n                9(?:\n                  [02356]|\n                  4[02568]|\n                  72|\n                  8[23]\n                )\n              )|\n              3(?:\n                3[28]|\n                4(?:\n                  [04679]|\n                  3[5-8]|\n                  5[4-68]|\n                  8[2379]\n                )|\n                5(?:\n                  [2467]|\n                  3[237]|\n                  8[2-5]\n                )|\n                7[1-578]|\n                8(?:\n                  [2469]|\n                  3[2578]|\n                  5[4-8]|\n                  7[36-8]|\n                  8[5-8]\n                )\n              )\n            )|\n            92(?:\n              2[24-9]|\n              3[1-59]|\n              47\n            )\n          ", str% "\n            9(?:\n              2(?:\n                [23]02|\n                6(?:\n                  [25]|\n                  4(?:\n                    64|\n                    [78]\n                  )\n                )|\n                9(?:\n                  [02356]|\n                  4(?:\n                    [0268]|\n                    5[2-6]\n                  )|\n                  72|\n                  8[23]\n                )\n              )|\n              3(?:\n                3[28]|\n                4(?:\n                  [04679]|\n                  3[78]|\n                  5(?:\n                    4[46]|\n                    8\n                  )|\n                  8[2379]\n                )|\n                5(?:\n                  [2467]|\n                  3[237]|\n                  8[23]\n                )|\n                7[1-578]|\n                8(?:\n                  [2469]|\n                  3[278]|\n                  5(?:\n                    [56][46]|\n                    [78]\n                  )|\n                  7[378]|\n                  8(?:\n                    6[3-6]|\n                    [78]\n                  )\n                )\n              )\n            )|\n            92(?:\n              2[24-9]|\n              3[1-59]|\n              47\n            )|\n            93(?:\n              4[35][56]|\n              58[45]|\n              8(?:\n                [38]5|\n                54|\n                76\n              )\n            )[4-6]\n          ", str% "\n            9(?:\n              2(?:\n                [23]02|\n                6(?:\n                  [25]|\n                  4(?:\n                    64|\n                    [78]\n                  )\n                )|\n                9(?:\n                  [02356]|\n                  4(?:\n                    [0268]|\n                    5[2-6]\n                  )|\n                  72|\n                  8[23]\n                )\n              )|\n              3(?:\n                3[28]|\n                4(?:\n                  [04679]|\n                  3(?:\n                    5(?:\n                      4[0-25689]|\n                      [56]\n                    )|\n                    [78]\n                  )|\n                  5(?:\n                    4[46]|\n                    8\n                  )|\n                  8[2379]\n                )|\n                5(?:\n                  [2467]|\n                  3[237]|\n                  8(?:\n                    [23]|\n                    4(?:\n                      [45]|\n                      60\n                    )|\n                    5(?:\n                      4[0-39]|\n                      5|\n                      64\n                    )\n                  )\n                )|\n                7[1-578]|\n                8(?:\n                  [2469]|\n                  3[278]|\n                  5(?:\n                    4(?:\n                      4|\n                      5[13-7]|\n                      6[89]\n                    )|\n                    [56][46]|\n                    [78]\n                  )|\n                  7[378]|\n                  8(?:\n                    6[3-6]|\n                    [78]\n                  )\n                )\n              )\n            )|\n            92(?:\n              2[24-9]|\n              3[1-59]|\n              47\n            )|\n            93(?:\n              4(?:\n                36|\n                5[56]\n              )|\n              8(?:\n                [38]5|\n                76\n              )\n            )[4-6]\n          "], nationalPrefixFormattingRule := some (str% "$NP$FG") },
      { pattern := some (str% "(\\d)(\\d{2})(\\d{4})(\\d{4})"), format := some (str% "$2 15-$3-$4"), leadingDigits := [str% "91"], nationalPrefixFormattingRule := some (str% "$NP$FG") },
      { pattern := some (str% "(\\d{3})(\\d{3})(\\d{5})"), format := some (str% "$1-$2-$3"), leadingDigits := [str% "8"], nationalPrefixFormattingRule := some (str% "$NP$FG") },
      { pattern := some (str% "(\\d)(\\d{3})(\\d{3})(\\d{4})"), format := some (str% "$2 15-$3-$4"), leadingDigits := [str% "9"], nationalPrefixFormattingRule := some (str% "$NP$FG") }],
    internationalFormats := [
      { pattern := some (str% "(\\d{4})(\\d{2})(\\d{4})"), format := some (str% "$1 $2-$3"), leadingDigits := [str% "\n            2(?:\n              2[024-9]|\n              3[0-59]|\n              47|\n              6[245]|\n              9[02-8]\n            )|\n            3(?:\n              3[28]|\n              4[03-9]|\n              5[2-46-8]|\n              7[1-578]|\n              8[2-9]\n            )\n          ", str% "\n            2(?:\n              [23]02|\n              6(?:\n                [25]|\n                4[6-8]\n              )|\n              9(?:\n                [02356]|\n                4[02568]|\n                72|\n                8[23]\n              )\n            )|\n            3(?:\n              3[28]|\n              4(?:\n                [04679]|\n                3[5-8]|\n                5[4-68]|\n                8[2379]\n              )|\n              5(?:\n                [2467]|\n                3[237]|\n                8[2-5]\n              )|\n              7[1-578]|\n              8(?:\n                [2469]|\n                3[2578]|\n                5[4-8]|\n                7[36-8]|\n                8[5-8]\n              )\n            )|\n            2(?:\n              2[24-9]|\n              3[1-59]|\n              47\n            )\n          ", str% "\n            2(?:\n              [23]02|\n              6(?:\n                [25]|\n                4(?:\n                  64|\n                  [78]\n                )\n              )|\n              9(?:\n                [02356]|\n                4(?:\n                  [0268]|\n                  5[2-6]\n                )|\n                72|\n                8[23]\n              )\n            )|\n            3(?:\n              3[28]|\n              4(?:\n                [04679]|\n                3[78]|\n                5(?:\n                  4[46]|\n                  8\n                )|\n                8[2379]\n              )|\n              5(?:\n                [2467]|\n                3[237]|\n                8[23]\n              )|\n              7[1-578]|\n              8(?:\n                [2469]|\n                3[278]|\n                5[56][46]|\n                86[3-6]\n              )\n            )|\n            2(?:\n              2[24-9]|\n              3[1-59]|\n              47\n            )|\n            38(?:\n              [58][78]|\n              7[378]\n            )|\n            3(?:\n              4[35][56]|\n              58[45]|\n              8(?:\n                [38]5|\n                54|\n                76\n              )\n            )[4-6]\n          ", str% "\n            2(?:\n              [23]02|\n              6(?:\n                [25]|\n                4(?:\n                  64|\n                  [78]\n                )\n              )|\n              9(?:\n                [02356]|\n                4(?:\n                  [0268]|\n                  5[2-6]\n                )|\n                72|\n                8[23]\n              )\n            )|\n            3(?:\n              3[28]|\n              4(?:\n                [04679]|\n                3(?:\n                  5(?:\n                    4[0-25689]|\n                    [56]\n                  )|\n                  [78]\n                )|\n                58|\n                8[2379]\n              )|\n              5(?:\n                [2467]|\n                3[237]|\n                8(?:\n                  [23]|\n                  4(?:\n                    [45]|\n                    60\n                  )|\n                  5(?:\n                    4[0-39]|\n                    5|\n                    64\n                  )\n                )\n              )|\n              7[1-578]|\n              8(?:\n                [2469]|\n                3[278]|\n                54(?:\n                  4|\n                  5[13-7]|\n                  6[89]\n                )|\n                86[3-6]\n              )\n            )|\n            2(?:\n              2[24-9]|\n              3[1-59]|\n              47\n            )|\n            38(?:\n              [58][78]|\n              7[378]\n            )|\n            3(?:\n              454|\n              85[56]\n            )[46]|\n            3(?:\n              4(?:\n                36|\n                5[56]\n              )|\n              8(?:\n                [38]5|\n                76\n              )\n            )[4-6]\n          "], nationalPrefixFormattingRule := some (str% "$NP$FG"), nationalPrefixOptionalWhenFormatting := true },
      { pattern := some (str% "(\\d{2})(\\d{4})(\\d{4})"), format := some (str% "$1 $2-$3"), leadingDigits := [str% "1"], nationalPrefixFormattingRule := some (str% "$NP$FG"), nationalPrefixOptionalWhenFormatting := true },
      { pattern := some (str% "(\\d{3})(\\d{3})(\\d{4})"), format := some (str% "$1-$2-$3"), leadingDigits := [str% "[68]"], nationalPrefixFormattingRule := some (str% "$NP$FG") },
      { pattern := some (str% "(\\d{3})(\\d{3})(\\d{4})"), format := some (str% "$1 $2-$3"), leadingDigits := [str% "[23]"], nationalPrefixFormattingRule := some (str% "$NP$FG"), nationalPrefixOptionalWhenFormatting := true },
      { pattern := some (str% "(\\d)(\\d{4})(\\d{2})(\\d{4})"), format := some (str% "$1 $2 $3-$4"), leadingDigits := [str% "\n            9(?:\n              2[2-469]|\n              3[3-578]\n            )\n          ", str% "\n            9(?:\n              2(?:\n                2[024-9]|\n                3[0-59]|\n                47|\n                6[245]|\n                9[02-8]\n              )|\n              3(?:\n                3[28]|\n                4[03-9]|\n                5[2-46-8]|\n                7[1-578]|\n                8[2-9]\n              )\n            )\n          ", str% "\n            9(?:\n              2(?:\n                [23]02|\n                6(?:\n                  [25]|\n                  4[6-8]\n                )|\n                9(?:\n                  [02356]|\n                  4[02568]|\n                  72|\n                  8[23]\n                )\n              )|\n              3(?:\n                3[28]|\n                4(?:\n                  [04679]|\n                  3[5-8]|\n                  5[4-68]|\n                  8[2379]\n                )|\n                5(?:\n                  [2467]|\n                  3[237]|\n                  8[2-5]\n                )|\n                7[1-578]|\n                8(?:\n                  [2469]|\n                  3[2578]|\n                  5[4-8]|\n                  7[36-8]|\n                  8[5-8]\n                )\n              )\n            )|\n            92(?:\n              2[24-9]|\n              3[1-59]|\n              47\n            )\n          ", str% "\n            9(?:\n              2(?:\n                [23]02|\n                6(?:\n                  [25]|\n                  4(?:\n                    64|\n                    [78]\n                  )\n                )|\n                9(?:\n                  [02356]|\n                  4(?:\n                    [0268]|\n                    5[2-6]\n                  )|\n                  72|\n                  8[23]\n                )\n              )|\n              3(?:\n                3[28]|\n                4(?:\n                  [04679]|\n                  3[78]|\n                  5(?:\n                    4[46]|\n                    8\n                  )|\n                  8[2379]\n                )|\n                5(?:\n                  [2467]|\n                  3[237]|\n                  8[23]\n                )|\n                7[1-578]|\n                8(?:\n                  [2469]|\n                  3[278]|\n                  5(?:\n                    [56][46]|\n                    [78]\n                  )|\n                  7[378]|\n                  8(?:\n                    6[3-6]|\n                    [78]\n                  )\n                )\n              )\n            )|\n            92(?:\n              2[24-9]|\n              3[1-59]|\n              47\n            )|\n            93(?:\n              4[35][56]|\n              58[45]|\n              8(?:\n                [38]5|\n                54|\n                76\n              )\n            )[4-6]\n          ", str% "\n            9(?:\n              2(?:\n                [23]02|\n                6(?:\n                  [25]|\n                  4(?:\n                    64|\n                    [78]\n                  )\n                )|\n                9(?:\n                  [02356]|\n                  4(?:\n                    [0268]|\n                    5[2-6]\n                  )|\n                  72|\n                  8[23]\n                )\n              )|\n              3(?:\n                3[28]|\n                4(?:\n                  [04679]|\n                  3(?:\n                    5(?:\n                      4[0-25689]|\n                      [56]\n                    )|\n                    [78]\n                  )|\n                  5(?:\n                    4[46]|\n                    8\n                  )|\n                  8[2379]\n                )|\n                5(?:\n                  [2467]|\n                  3[237]|\n                  8(?:\n                    [23]|\n                    4(?:\n                      [45]|\n                      60\n                    )|\n                    5(?:\n                      4[0-39]|\n                      5|\n                      64\n                    )\n                  )\n                )|\n                7[1-578]|\n                8(?:\n                  [2469]|\n                  3[278]|\n                  5(?:\n                    4(?:\n                      4|\n                      5[13-7]|\n                      6[89]\n                    )|\n                    [56][46]|\n                    [78]\n                  )|\n                  7[378]|\n                  8(?:\n                    6[3-6]|\n                    [78]\n                  )\n                )\n              )\n            )|\n            92(?:\n              2[24-9]|\n              3[1-59]|\n              47\n            )|\n            93(?:\n              4(?:\n                36|\n                5[56]\n              )|\n              8(?:\n                [38]5|\n                76\n              )\n            )[4-6]\n          "], nationalPrefixFormattingRule := some (str% "$NP$FG") },
      { pattern := some (str% "(\\d)(\\d{2})(\\d{4})(\\d{4})"), format := some (str% "$1 $2 $3-$4"), leadingDigits := [str% "91"], nationalPrefixFormattingRule := some (str% "$NP$FG") },
      { pattern := some (str% "(\\d{3})(\\d{3})(\\d{5})"), format := some (str% "$1-$2-$3"), leadingDigits := [str% "8"], nationalPrefixFormattingRule := some (str% "$NP$FG") },
      { pattern := some (str% "(\\d)(\\d{3})(\\d{3})(\\d{4})"), format := some (str% "$1 $2 $3-$4"), leadingDigits := [str% "9"], nationalPrefixFormattingRule := some (str% "$NP$FG") }],
    mobileNumberPortable := true }

/-- the territories of this module, in document order -/
noncomputable def chunk00 : List Loader.Metadata :=
  [AC, AD, AE, AF, AG, AI, AL, AM, AO, AR]

end Phone.Data
