import Verif.Model.Database
/-! Territories of `/repo/assets/PhoneNumberMetadata.xml` as `/repo/src/metadata/loader.rs` reads them.
Generated by `tools/gen_data.py`; do not edit. -/

set_option maxRecDepth 100000
namespace Phone.Data

/-- territory id=ET countryCode=251 -/
noncomputable def ET : Loader.Metadata :=
  { general := some { nationalNumber := some (str% "\n          (?:\n            11|\n            [2-57-9]\\d\n          )\\d{7}\n        ") },
    fixedLine := some { nationalNumber := some (str% "\n          (?:\n            11(?:\n              [124]\\d\\d|\n              3(?:\n                [0-79]\\d|\n                8[0-7]\n              )|\n              5(?:\n                [02-9]\\d|\n                1[0-57-9]\n              )|\n              6(?:\n                [02-79]\\d|\n                1[0-57-9]|\n                8[0-8]\n              )\n            )|\n            2(?:\n              2(?:\n                11[1-9]|\n                22[0-7]|\n                33\\d|\n                44[1467]|\n                66[1-68]\n              )|\n              5(?:\n                11[124-6]|\n                33[2-8]|\n                44[1467]|\n                55[14]|\n                66[1-3679]|\n                77[124-79]|\n                880\n              )\n            )|\n            3(?:\n              3(?:\n                11[0-46-8]|\n                (?:\n                  22|\n                  55\n                )[0-6]|\n                33[0134689]|\n                44[04]|\n                66[01467]\n              )|\n              4(?:\n                44[0-8]|\n                55[0-69]|\n                66[0-3]|\n                77[1-5]\n              )\n            )|\n            4(?:\n              6(?:\n                119|\n                22[0-24-7]|\n                33[1-5]|\n                44[13-69]|\n                55[14-689]|\n                660|\n                88[1-4]\n              )|\n              7(?:\n                (?:\n                  11|\n                  22\n                )[1-9]|\n                33[13-7]|\n                44[13-6]|\n                55[1-689]\n              )\n            )|\n            5(?:\n              7(?:\n                227|\n                55[05]|\n                (?:\n                  66|\n                  77\n                )[14-8]\n              )|\n              8(?:\n                11[149]|\n                22[013-79]|\n                33[0-68]|\n                44[013-8]|\n                550|\n                66[1-5]|\n                77\\d\n              )\n            )\n          )\\d{4}\n        "), possibleLength := [9], possibleLocalLength := [7], example? := some (str% "111112345") },
    mobile := some { nationalNumber := some (str% "\n          700[1-9]\\d{5}|\n          (?:\n            7(?:\n              0[1-9]|\n              1[0-8]|\n              2[1-35-79]|\n              3\\d|\n              77|\n              86|\n              99\n            )|\n            (?:\n              8[01]|\n              9\\d\n            )\\d\n          )\\d{6}\n        "), possibleLength := [9], example? := some (str% "911234567") },
    id := some (str% "ET"),
    countryCode := some 251,
    internationalPrefix := some (str% "00"),
    nationalPrefix := some (str% "0"),
    formats := [
      { pattern := some (str% "(\\d{2})(\\d{3})(\\d{4})"), format := some (str% "$1 $2 $3"), leadingDigits := [str% "[1-57-9]"], nationalPrefixFormattingRule := some (str% "$NP$FG") }],
    internationalFormats := [
      { pattern := some (str% "(\\d{2})(\\d{3})(\\d{4})"), format := some (str% "$1 $2 $3"), leadingDigits := [str% "[1-57-9]"], nationalPrefixFormattingRule := some (str% "$NP$FG") }] }

/-- territory id=FI countryCode=358 -/
noncomputable def FI : Loader.Metadata :=
  { general := some { nationalNumber := some (str% "\n          [1-35689]\\d{4}|\n          7\\d{10,11}|\n          (?:\n            [124-7]\\d|\n            3[0-46-9]\n          )\\d{8}|\n          [1-9]\\d{5,8}\n        ") },
    fixedLine := some { nationalNumber := some (str% "\n          1[3-7][1-8]\\d{3,6}|\n          (?:\n            19[1-8]|\n            [23568][1-8]\\d|\n            9(?:\n              00|\n              [1-8]\\d\n            )\n          )\\d{2,6}\n        "), possibleLength := [5, 6, 7, 8, 9], example? := some (str% "131234567") },
    mobile := some { nationalNumber := some (str% "\n          4946\\d{2,6}|\n          (?:\n            4[0-8]|\n            50\n          )\\d{4,8}\n        "), possibleLength := [6, 7, 8, 9, 10], example? := some (str% "412345678") },
    tollFree := some { nationalNumber := some (str% "800\\d{4,6}"), possibleLength := [7, 8, 9], example? := some (str% "800123456") },
    premiumRate := some { nationalNumber := some (str% "[67]00\\d{5,6}"), possibleLength := [8, 9], example? := some (str% "600123456") },
    uan := some { nationalNumber := some (str% "\n          20\\d{4,8}|\n          60[12]\\d{5,6}|\n          7(?:\n            099\\d{4,5}|\n            5[03-9]\\d{3,7}\n          )|\n          20[2-59]\\d\\d|\n          (?:\n            606|\n            7(?:\n              0[78]|\n              1|\n              3\\d\n            )\n          )\\d{7}|\n          (?:\n            10|\n            29|\n            3[09]|\n            70[1-5]\\d\n          )\\d{4,8}\n        "), possibleLength := [5, 6, 7, 8, 9, 10, 11, 12], example? := some (str% "10112345") },
    noInternational := some { nationalNumber := some (str% "\n          20(?:\n            2[023]|\n            9[89]\n          )\\d{1,6}|\n          (?:\n            60[12]\\d|\n            7099\n          )\\d{4,5}|\n          (?:\n            606|\n            7(?:\n              0[78]|\n              1|\n              3\\d\n            )\n          )\\d{7}|\n          (?:\n            [1-3]00|\n            7(?:\n              0[1-5]\\d\\d|\n              5[03-9]\n            )\n          )\\d{3,7}\n        "), possibleLength := [5, 6, 7, 8, 9, 10, 11, 12] },
    id := some (str% "FI"),
    countryCode := some 358,
    internationalPrefix := some (str% "00|99(?:[01469]|5(?:[14]1|3[23]|5[59]|77|88|9[09]))"),
    preferredInternationalPrefix := some (str% "00"),
    nationalPrefix := some (str% "0"),
    formats := [
      { pattern := some (str% "(\\d{5})"), format := some (str% "$1"), leadingDigits := [str% "75[12]"], nationalPrefixFormattingRule := some (str% "$NP$FG") },
      { pattern := some (str% "(\\d{5})"), format := some (str% "$1"), leadingDigits := [str% "20[2-59]"], nationalPrefixFormattingRule := some (str% "$NP$FG") },
      { pattern := some (str% "(\\d{6})"), format := some (str% "$1"), leadingDigits := [str% "11"] },
      { pattern := some (str% "(\\d{3})(\\d{3,7})"), format := some (str% "$1 $2"), leadingDigits := [str% "\n            (?:\n              [1-3]0|\n              [68]\n            )0|\n            70[07-9]\n          "], nationalPrefixFormattingRule := some (str% "$NP$FG") },
      { pattern := some (str% "(\\d{2})(\\d{4,8})"), format := some (str% "$1 $2"), leadingDigits := [str% "\n            [14]|\n            2[09]|\n            50|\n            7[135]\n          "], nationalPrefixFormattingRule := some (str% "$NP$FG") },
      { pattern := some (str% "(\\d{2})(\\d{6,10})"), format := some (str% "$1 $2"), leadingDigits := [str% "7"], nationalPrefixFormattingRule := some (str% "$NP$FG") },
      { pattern := some (str% "(\\d)(\\d{4,9})"), format := some (str% "$1 $2"), leadingDigits := [str% "\n            (?:\n              19|\n              [2568]\n            )[1-8]|\n            3(?:\n              0[1-9]|\n              [1-9]\n            )|\n            9\n          "], nationalPrefixFormattingRule := some (str% "$NP$FG") }],
    internationalFormats := [
      { pattern := some (str% "(\\d{5})"), format := some (str% "$1"), leadingDigits := [str% "20[2-59]"], nationalPrefixFormattingRule := some (str% "$NP$FG") },
      { pattern := some (str% "(\\d{3})(\\d{3,7})"), format := some (str% "$1 $2"), leadingDigits := [str% "\n            (?:\n              [1-3]0|\n              [68]\n            )0|\n            70[07-9]\n          "], nationalPrefixFormattingRule := some (str% "$NP$FG") },
      { pattern := some (str% "(\\d{2})(\\d{4,8})"), format := some (str% "$1 $2"), leadingDigits := [str% "\n            [14]|\n            2[09]|\n            50|\n            7[135]\n          "], nationalPrefixFormattingRule := some (str% "$NP$FG") },
      { pattern := some (str% "(\\d{2})(\\d{6,10})"), format := some (str% "$1 $2"), leadingDigits := [str% "7"], nationalPrefixFormattingRule := some (str% "$NP$FG") },
      { pattern := some (str% "(\\d)(\\d{4,9})"), format := some (str% "$1 $2"), leadingDigits := [str% "\n            (?:\n              19|\n              [2568]\n            )[1-8]|\n            3(?:\n              0[1-9]|\n              [1-9]\n            )|\n            9\n          "], nationalPrefixFormattingRule := some (str% "$NP$FG") }],
    mainCountryForCode := true,
    leadingDigits := some (str% "1[03-79]|[2-9]"),
    mobileNumberPortable := true }

/-- territory id=FJ countryCode=679 -/
noncomputable def FJ : Loader.Metadata :=
  { general := some { nationalNumber := some (str% "\n          45\\d{5}|\n          (?:\n            0800\\d|\n            [235-9]\n          )\\d{6}\n        ") },
    fixedLine := some { nationalNumber := some (str% "\n          603\\d{4}|\n          (?:\n            3[0-5]|\n            6[25-7]|\n            8[58]\n          )\\d{5}\n        "), possibleLength := [7], example? := some (str% "3212345") },
    mobile := some { nationalNumber := some (str% "\n          (?:\n            [279]\\d|\n            45|\n            5[01568]|\n            8[034679]\n          )\\d{5}\n        "), possibleLength := [7], example? := some (str% "7012345") },
    tollFree := some { nationalNumber := some (str% "0800\\d{7}"), possibleLength := [11], example? := some (str% "08001234567") },
    id := some (str% "FJ"),
    countryCode := some 679,
    internationalPrefix := some (str% "0(?:0|52)"),
    preferredInternationalPrefix := some (str% "00"),
    formats := [
      { pattern := some (str% "(\\d{3})(\\d{4})"), format := some (str% "$1 $2"), leadingDigits := [str% "\n            [235-9]|\n            45\n          "] },
      { pattern := some (str% "(\\d{4})(\\d{3})(\\d{4})"), format := some (str% "$1 $2 $3"), leadingDigits := [str% "0"] }],
    internationalFormats := [
      { pattern := some (str% "(\\d{3})(\\d{4})"), format := some (str% "$1 $2"), leadingDigits := [str% "\n            [235-9]|\n            45\n          "] },
      { pattern := some (str% "(\\d{4})(\\d{3})(\\d{4})"), format := some (str% "$1 $2 $3"), leadingDigits := [str% "0"] }] }

/-- territory id=FK countryCode=500 -/
noncomputable def FK : Loader.Metadata :=
  { general := some { nationalNumber := some (str% "[2-7]\\d{4}") },
    fixedLine := some { nationalNumber := some (str% "[2-47]\\d{4}"), possibleLength := [5], example? := some (str% "31234") },
    mobile := some { nationalNumber := some (str% "[56]\\d{4}"), possibleLength := [5], example? := some (str% "51234") },
    id := some (str% "FK"),
    countryCode := some 500,
    internationalPrefix := some (str% "00") }

/-- territory id=FM countryCode=691 -/
noncomputable def FM : Loader.Metadata :=
  { general := some { nationalNumber := some (str% "\n          (?:\n            [39]\\d\\d|\n            820\n          )\\d{4}\n        ") },
    fixedLine := some { nationalNumber := some (str% "\n          31(?:\n            00[67]|\n            208|\n            309\n          )\\d\\d|\n          (?:\n            3(?:\n              [2357]0[1-9]|\n              602|\n              804|\n              905\n            )|\n            (?:\n              820|\n              9[2-6]\\d\n            )\\d\n          )\\d{3}\n        "), possibleLength := [7], example? := some (str% "3201234") },
    mobile := some { nationalNumber := some (str% "\n          31(?:\n            00[67]|\n            208|\n            309\n          )\\d\\d|\n          (?:\n            3(?:\n              [2357]0[1-9]|\n              602|\n              804|\n              905\n            )|\n            (?:\n              820|\n              9[2-7]\\d\n            )\\d\n          )\\d{3}\n        "), possibleLength := [7], example? := some (str% "3501234") },
    id := some (str% "FM"),
    countryCode := some 691,
    internationalPrefix := some (str% "00"),
    formats := [
      { pattern := some (str% "(\\d{3})(\\d{4})"), format := some (str% "$1 $2"), leadingDigits := [str% "[389]"] }],
    internationalFormats := [
      { pattern := some (str% "(\\d{3})(\\d{4})"), format := some (str% "$1 $2"), leadingDigits := [str% "[389]"] }] }

/-- territory id=FO countryCode=298 -/
noncomputable def FO : Loader.Metadata :=
  { general := some { nationalNumber := some (str% "[2-9]\\d{5}") },
    fixedLine := some { nationalNumber := some (str% "\n          (?:\n            20|\n            [34]\\d|\n            8[19]\n          )\\d{4}\n        "), possibleLength := [6], example? := some (str% "201234") },
    mobile := some { nationalNumber := some (str% "\n          (?:\n            [27][1-9]|\n            5\\d|\n            9[16]\n          )\\d{4}\n        "), possibleLength := [6], example? := some (str% "211234") },
    tollFree := some { nationalNumber := some (str% "80[257-9]\\d{3}"), possibleLength := [6], example? := some (str% "802123") },
    premiumRate := some { nationalNumber := some (str% "\n          90(?:\n            [13-5][15-7]|\n            2[125-7]|\n            9\\d\n          )\\d\\d\n        "), possibleLength := [6], example? := some (str% "901123") },
    voip := some { nationalNumber := some (str% "\n          (?:\n            6[0-36]|\n            88\n          )\\d{4}\n        "), possibleLength := [6], example? := some (str% "601234") },
    id := some (str% "FO"),
    countryCode := some 298,
    internationalPrefix := some (str% "00"),
    nationalPrefixForParsing := some (str% "(10(?:01|[12]0|88))"),
    formats := [
      { pattern := some (str% "(\\d{6})"), format := some (str% "$1"), leadingDigits := [str% "[2-9]"], domesticCarrier := some (str% "$CC $FG") }],
    internationalFormats := [
      { pattern := some (str% "(\\d{6})"), format := some (str% "$1"), leadingDigits := [str% "[2-9]"], domesticCarrier := some (str% "$CC $FG") }] }

/-- territory id=FR countryCode=33 -/
noncomputable def FR : Loader.Metadata :=
  { general := some { nationalNumber := some (str% "[1-9]\\d{8}") },
    fixedLine := some { nationalNumber := some (str% "\n          (?:\n            26[013-9]|\n            59[1-35-9]\n          )\\d{6}|\n          (?:\n            [13]\\d|\n            2[0-57-9]|\n            4[1-9]|\n            5[0-8]\n          )\\d{7}\n        "), possibleLength := [9], example? := some (str% "123456789") },
    mobile := some { nationalNumber := some (str% "\n          (?:\n            6(?:\n              [0-24-8]\\d|\n              3[0-8]|\n              9[589]\n            )|\n            7[3-9]\\d\n          )\\d{6}\n        "), possibleLength := [9], example? := some (str% "612345678") },
    tollFree := some { nationalNumber := some (str% "80[0-5]\\d{6}"), possibleLength := [9], example? := some (str% "801234567") },
    premiumRate := some { nationalNumber := some (str% "\n          836(?:\n            0[0-36-9]|\n            [1-9]\\d\n          )\\d{4}|\n          8(?:\n            1[2-9]|\n            2[2-47-9]|\n            3[0-57-9]|\n            [569]\\d|\n            8[0-35-9]\n          )\\d{6}\n        "), possibleLength := [9], example? := some (str% "891123456") },
    sharedCost := some { nationalNumber := some (str% "\n          8(?:\n            1[01]|\n            2[0156]|\n            4[024]|\n            84\n          )\\d{6}\n        "), possibleLength := [9], example? := some (str% "884012345") },
    voip := some { nationalNumber := some (str% "9\\d{8}"), possibleLength := [9], example? := some (str% "912345678") },
    uan := some { nationalNumber := some (str% "80[6-9]\\d{6}"), possibleLength := [9], example? := some (str% "806123456") },
    id := some (str% "FR"),
    countryCode := some 33,
    internationalPrefix := some (str% "00"),
    nationalPrefix := some (str% "0"),
    formats := [
      { pattern := some (str% "(\\d{4})"), format := some (str% "$1"), leadingDigits := [str% "10"] },
      { pattern := some (str% "(\\d{3})(\\d{3})"), format := some (str% "$1 $2"), leadingDigits := [str% "1"] },
      { pattern := some (str% "(\\d{3})(\\d{2})(\\d{2})(\\d{2})"), format := some (str% "$1 $2 $3 $4"), leadingDigits := [str% "8"], nationalPrefixFormattingRule := some (str% "$NP $FG") },
      { pattern := some (str% "(\\d)(\\d{2})(\\d{2})(\\d{2})(\\d{2})"), format := some (str% "$1 $2 $3 $4 $5"), leadingDigits := [str% "[1-79]"], nationalPrefixFormattingRule := some (str% "$NP$FG") }],
    internationalFormats := [
      { pattern := some (str% "(\\d{3})(\\d{2})(\\d{2})(\\d{2})"), format := some (str% "$1 $2 $3 $4"), leadingDigits := [str% "8"], nationalPrefixFormattingRule := some (str% "$NP $FG") },
      { pattern := some (str% "(\\d)(\\d{2})(\\d{2})(\\d{2})(\\d{2})"), format := some (str% "$1 $2 $3 $4 $5"), leadingDigits := [str% "[1-79]"], nationalPrefixFormattingRule := some (str% "$NP$FG") }],
    mobileNumberPortable := true }

/-- territory id=GA countryCode=241 -/
noncomputable def GA : Loader.Metadata :=
  { general := some { nationalNumber := some (str% "\n          (?:\n            [067]\\d|\n            11\n          )\\d{6}|\n          [2-7]\\d{6}\n        ") },
    fixedLine := some { nationalNumber := some (str% "[01]1\\d{6}"), possibleLength := [8], example? := some (str% "01441234") },
    mobile := some { nationalNumber := some (str% "\n          (?:\n            (?:\n              0[2-7]|\n              7[467]\n            )\\d|\n            6(?:\n              0[0-4]|\n              10|\n              [256]\\d\n            )\n          )\\d{5}|\n          [2-7]\\d{6}\n        "), possibleLength := [7, 8], example? := some (str% "06031234") },
    id := some (str% "GA"),
    countryCode := some 241,
    internationalPrefix := some (str% "00"),
    nationalPrefixForParsing := some (str% "0(11\\d{6}|60\\d{6}|61\\d{6}|6[256]\\d{6}|7[467]\\d{6})"),
    nationalPrefixTransformRule := some (str% "$1"),
    formats := [
      { pattern := some (str% "(\\d)(\\d{2})(\\d{2})(\\d{2})"), format := some (str% "$1 $2 $3 $4"), leadingDigits := [str% "[2-7]"], nationalPrefixFormattingRule := some (str% "0$FG") },
      { pattern := some (str% "(\\d{2})(\\d{2})(\\d{2})(\\d{2})"), format := some (str% "$1 $2 $3 $4"), leadingDigits := [str% "0"] },
      { pattern := some (str% "(\\d{2})(\\d{2})(\\d{2})(\\d{2})"), format := some (str% "$1 $2 $3 $4"), leadingDigits := [str% "\n            11|\n            [67]\n          "], nationalPrefixFormattingRule := some (str% "0$FG") }],
    internationalFormats := [
      { pattern := some (str% "(\\d)(\\d{2})(\\d{2})(\\d{2})"), format := some (str% "$1 $2 $3 $4"), leadingDigits := [str% "[2-7]"], nationalPrefixFormattingRule := some (str% "0$FG") },
      { pattern := some (str% "(\\d{2})(\\d{2})(\\d{2})(\\d{2})"), format := some (str% "$1 $2 $3 $4"), leadingDigits := [str% "0"] },
      { pattern := some (str% "(\\d{2})(\\d{2})(\\d{2})(\\d{2})"), format := some (str% "$1 $2 $3 $4"), leadingDigits := [str% "\n            11|\n            [67]\n          "], nationalPrefixFormattingRule := some (str% "0$FG") }] }

/-- territory id=GB countryCode=44 -/
noncomputable def GB : Loader.Metadata :=
  { general := some { nationalNumber := some (str% "\n          [1-357-9]\\d{9}|\n          [18]\\d{8}|\n          8\\d{6}\n        ") },
    fixedLine := some { nationalNumber := some (str% "\n          (?:\n            1(?:\n              1(?:\n                3(?:\n                  [0-58]\\d\\d|\n                  73[0-5]\n                )|\n                4(?:\n                  (?:\n                    [0-5]\\d|\n                    70\n                  )\\d|\n                  69[7-9]\n                )|\n                (?:\n                  (?:\n                    5[0-26-9]|\n                    [78][0-49]\n                  )\\d|\n                  6(?:\n                    [0-4]\\d|\n                    5[01]\n                  )\n                )\\d\n              )|\n              (?:\n                2(?:\n                  (?:\n                    0[024-9]|\n                    2[3-9]|\n                    3[3-79]|\n                    4[1-689]|\n                    [58][02-9]|\n                    6[0-47-9]|\n                    7[013-9]|\n                    9\\d\n                  )\\d|\n                  1(?:\n                    [0-7]\\d|\n                    8[0-3]\n                  )\n                )|\n                (?:\n                  3(?:\n                    0\\d|\n                    1[0-8]|\n                    [25][02-9]|\n                    3[02-579]|\n                    [468][0-46-9]|\n                    7[1-35-79]|\n                    9[2-578]\n                  )|\n                  4(?:\n                    0[03-9]|\n                    [137]\\d|\n                    [28][02-57-9]|\n                    4[02-69]|\n                    5[0-8]|\n                    [69][0-79]\n                  )|\n                  5(?:\n                    0[1-35-9]|\n                    [16]\\d|\n                    2[024-9]|\n                    3[015689]|\n                    4[02-9]|\n                    5[03-9]|\n                    7[0-35-9]|\n                    8[0-468]|\n                    9[0-57-9]\n                  )|\n                  6(?:\n                    0[034689]|\n                    1\\d|\n                    2[0-35689]|\n                    [38][013-9]|\n                    4[1-467]|\n                    5[0-69]|\n                    6[13-9]|\n                    7[0-8]|\n                    9[0-24578]\n                  )|\n                  7(?:\n                    0[0246-9]|\n                    2\\d|\n                    3[0236-8]|\n                    4[03-9]|\n                    5[0-46-9]|\n                    6[013-9]|\n                    7[0-35-9]|\n                    8[024-9]|\n                    9[02-9]\n                  )|\n                  8(?:\n                    0[35-9]|\n                    2[1-57-9]|\n                    3[02-578]|\n                    4[0-578]|\n                    5[124-9]|\n                    6[2-69]|\n                    7\\d|\n                    8[02-9]|\n                    9[02569]\n                  )|\n                  9(?:\n                    0[02-589]|\n                    [18]\\d|\n                    2[02-689]|\n                    3[1-57-9]|\n                    4[2-9]|\n                    5[0-579]|\n                    6[2-47-9]|\n                    7[0-24578]|\n                    9[2-57]\n                  )\n                )\\d\n              )\\d\n            )|\n            2(?:\n              0[013478]|\n              3[0189]|\n              4[017]|\n              8[0-46-9]|\n              9[0-2]\n            )\\d{3}\n          )\\d{4}|\n          1(?:\n            2(?:\n              0(?:\n                46[1-4]|\n                87[2-9]\n              )|\n              545[1-79]|\n              76(?:\n                2\\d|\n                3[1-8]|\n                6[1-6]\n              )|\n              9(?:\n                7(?:\n                  2[0-4]|\n                  3[2-5]\n                )|\n                8(?:\n                  2[2-8]|\n                  7[0-47-9]|\n                  8[3-5]\n                )\n              )\n            )|\n            3(?:\n              6(?:\n                38[2-5]|\n                47[23]\n              )|\n              8(?:\n                47[04-9]|\n                64[0157-9]\n              )\n            )|\n            4(?:\n              044[1-7]|\n              20(?:\n                2[23]|\n                8\\d\n              )|\n              6(?:\n                0(?:\n                  30|\n                  5[2-57]|\n                  6[1-8]|\n                  7[2-8]\n                )|\n                140\n              )|\n              8(?:\n                052|\n                87[1-3]\n              )\n            )|\n            5(?:\n              2(?:\n                4(?:\n                  3[2-79]|\n                  6\\d\n                )|\n                76\\d\n              )|\n              6(?:\n                26[06-9]|\n                686\n              )\n            )|\n            6(?:\n              06(?:\n                4\\d|\n                7[4-79]\n              )|\n              295[5-7]|\n              35[34]\\d|\n              47(?:\n                24|\n                61\n              )|\n              59(?:\n                5[08]|\n                6[67]|\n                74\n              )|\n              9(?:\n                55[0-4]|\n                77[23]\n              )\n            )|\n            7(?:\n              26(?:\n                6[13-9]|\n                7[0-7]\n              )|\n              (?:\n                442|\n                688\n              )\\d|\n              50(?:\n                2[0-3]|\n                [3-68]2|\n                76\n              )\n            )|\n            8(?:\n              27[56]\\d|\n              37(?:\n                5[2-5]|\n                8[239]\n              )|\n              843[2-58]\n            )|\n            9(?:\n              0(?:\n                0(?:\n                  6[1-8]|\n                  85\n                )|\n                52\\d\n              )|\n              3583|\n              4(?:\n                66[1-8]|\n                9(?:\n                  2[01]|\n                  81\n                )\n              )|\n              63(?:\n                23|\n                3[1-4]\n              )|\n              9561\n            )\n          )\\d{3}\n        "), possibleLength := [9, 10], possibleLocalLength := [4, 5, 6, 7, 8], example? := some (str% "1212345678") },
    mobile := some { nationalNumber := some (str% "\n          7(?:\n            457[0-57-9]|\n            700[01]|\n            911[028]\n          )\\d{5}|\n          7(?:\n            [1-3]\\d\\d|\n            4(?:\n              [0-46-9]\\d|\n              5[0-689]\n            )|\n            5(?:\n              0[0-8]|\n              [13-9]\\d|\n              2[0-35-9]\n            )|\n            7(?:\n              0[1-9]|\n              [1-7]\\d|\n              8[02-9]|\n              9[0-689]\n            )|\n            8(?:\n              [014-9]\\d|\n              [23][0-8]\n            )|\n            9(?:\n              [024-9]\\d|\n              1[02-9]|\n              3[0-689]\n            )\n          )\\d{6}\n        "), possibleLength := [10], example? := some (str% "7400123456") },
    tollFree := some { nationalNumber := some (str% "\n          80[08]\\d{7}|\n          800\\d{6}|\n          8001111\n        "), possibleLength := [7, 9, 10], example? := some (str% "8001234567") },
    premiumRate := some { nationalNumber := some (str% "\n          (?:\n            8(?:\n              4[2-5]|\n              7[0-3]\n            )|\n            9(?:\n              [01]\\d|\n              8[2-49]\n            )\n          )\\d{7}|\n          845464\\d\n        "), possibleLength := [7, 10], example? := some (str% "9012345678") },
    personalNumber := some { nationalNumber := some (str% "70\\d{8}"), possibleLength := [10], example? := some (str% "7012345678") },
    voip := some { nationalNumber := some (str% "56\\d{8}"), possibleLength := [10], example? := some (str% "5612345678") },
    pager := some { nationalNumber := some (str% "\n          76(?:\n            464|\n            652\n          )\\d{5}|\n          76(?:\n            0[0-28]|\n            2[356]|\n            34|\n            4[01347]|\n            5[49]|\n            6[0-369]|\n            77|\n            8[14]|\n            9[139]\n          )\\d{6}\n        "), possibleLength := [10], example? := some (str% "7640123456") },
    uan := some { nationalNumber := some (str% "\n          (?:\n            3[0347]|\n            55\n          )\\d{8}\n        "), possibleLength := [10], example? := some (str% "5512345678") },
    id := some (str% "GB"),
    countryCode := some 44,
    internationalPrefix := some (str% "00"),
    nationalPrefix := some (str% "0"),
    preferredExtensionPrefix := some (str% " x"),
    nationalPrefixForParsing := some (str% "0|180020"),
    formats := [
      { pattern := some (str% "(\\d{3})(\\d{4})"), format := some (str% "$1 $2"), leadingDigits := [str% "800", str% "8001", str% "80011", str% "800111", str% "8001111"], nationalPrefixFormattingRule := some (str% "$NP$FG") },
      { pattern := some (str% "(\\d{3})(\\d{2})(\\d{2})"), format := some (str% "$1 $2 $3"), leadingDigits := [str% "845", str% "8454", str% "84546", str% "845464"], nationalPrefixFormattingRule := some (str% "$NP$FG") },
      { pattern := some (str% "(\\d{3})(\\d{6})"), format := some (str% "$1 $2"), leadingDigits := [str% "800"], nationalPrefixFormattingRule := some (str% "$NP$FG") },
      { pattern := some (str% "(\\d{5})(\\d{4,5})"), format := some (str% "$1 $2"), leadingDigits := [str% "\n            1(?:\n              38|\n              5[23]|\n              69|\n              76|\n              94\n            )\n          ", str% "\n            1(?:\n              (?:\n                38|\n                69\n              )7|\n              5(?:\n                24|\n                39\n              )|\n              768|\n              946\n            )\n          ", str% "\n            1(?:\n              3873|\n              5(?:\n                242|\n                39[4-6]\n              )|\n              (?:\n                697|\n                768\n              )[347]|\n              9467\n            )\n          "], nationalPrefixFormattingRule := some (str% "$NP$FG") },
      { pattern := some (str% "(\\d{4})(\\d{5,6})"), format := some (str% "$1 $2"), leadingDigits := [str% "\n            1(?:\n              [2-69][02-9]|\n              [78]\n            )\n          "], nationalPrefixFormattingRule := some (str% "$NP$FG") },
      { pattern := some (str% "(\\d{2})(\\d{4})(\\d{4})"), format := some (str% "$1 $2 $3"), leadingDigits := [str% "\n            [25]|\n            7(?:\n              0|\n              6[02-9]\n            )\n          ", str% "\n            [25]|\n            7(?:\n              0|\n              6(?:\n                [03-9]|\n                2[356]\n              )\n            )\n          "], nationalPrefixFormattingRule := some (str% "$NP$FG") },
      { pattern := some (str% "(\\d{4})(\\d{6})"), format := some (str% "$1 $2"), leadingDigits := [str% "7"], nationalPrefixFormattingRule := some (str% "$NP$FG") },
      { pattern := some (str% "(\\d{3})(\\d{3})(\\d{4})"), format := some (str% "$1 $2 $3"), leadingDigits := [str% "[1389]"], nationalPrefixFormattingRule := some (str% "$NP$FG") }],
    internationalFormats := [
      { pattern := some (str% "(\\d{3})(\\d{4})"), format := some (str% "$1 $2"), leadingDigits := [str% "800", str% "8001", str% "80011", str% "800111", str% "8001111"], nationalPrefixFormattingRule := some (str% "$NP$FG") },
      { pattern := some (str% "(\\d{3})(\\d{2})(\\d{2})"), format := some (str% "$1 $2 $3"), leadingDigits := [str% "845", str% "8454", str% "84546", str% "845464"], nationalPrefixFormattingRule := some (str% "$NP$FG") },
      { pattern := some (str% "(\\d{3})(\\d{6})"), format := some (str% "$1 $2"), leadingDigits := [str% "800"], nationalPrefixFormattingRule := some (str% "$NP$FG") },
      { pattern := some (str% "(\\d{5})(\\d{4,5})"), format := some (str% "$1 $2"), leadingDigits := [str% "\n            1(?:\n              38|\n              5[23]|\n              69|\n              76|\n              94\n            )\n          ", str% "\n            1(?:\n              (?:\n                38|\n                69\n              )7|\n              5(?:\n                24|\n                39\n              )|\n              768|\n              946\n            )\n          ", str% "\n            1(?:\n              3873|\n              5(?:\n                242|\n                39[4-6]\n              )|\n              (?:\n                697|\n                768\n              )[347]|\n              9467\n            )\n          "], nationalPrefixFormattingRule := some (str% "$NP$FG") },
      { pattern := some (str% "(\\d{4})(\\d{5,6})"), format := some (str% "$1 $2"), leadingDigits := [str% "\n            1(?:\n              [2-69][02-9]|\n              [78]\n            )\n          "], nationalPrefixFormattingRule := some (str% "$NP$FG") },
      { pattern := some (str% "(\\d{2})(\\d{4})(\\d{4})"), format := some (str% "$1 $2 $3"), leadingDigits := [str% "\n            [25]|\n            7(?:\n              0|\n              6[02-9]\n            )\n          ", str% "\n            [25]|\n            7(?:\n              0|\n              6(?:\n                [03-9]|\n                2[356]\n              )\n            )\n          "], nationalPrefixFormattingRule := some (str% "$NP$FG") },
      { pattern := some (str% "(\\d{4})(\\d{6})"), format := some (str% "$1 $2"), leadingDigits := [str% "7"], nationalPrefixFormattingRule := some (str% "$NP$FG") },
      { pattern := some (str% "(\\d{3})(\\d{3})(\\d{4})"), format := some (str% "$1 $2 $3"), leadingDigits := [str% "[1389]"], nationalPrefixFormattingRule := some (str% "$NP$FG") }],
    mainCountryForCode := true,
    mobileNumberPortable := true }

/-- territory id=GD countryCode=1 -/
noncomputable def GD : Loader.Metadata :=
  { general := some { nationalNumber := some (str% "\n          (?:\n            473|\n            [58]\\d\\d|\n            900\n          )\\d{7}\n        ") },
    fixedLine := some { nationalNumber := some (str% "\n          473(?:\n            2(?:\n              3[0-2]|\n              69\n            )|\n            3(?:\n              2[89]|\n              86\n            )|\n            4(?:\n              [06]8|\n              3[5-9]|\n              4[0-4]|\n              5[59]|\n              73|\n              90\n            )|\n            63[68]|\n            7(?:\n              58|\n              84\n            )|\n            800|\n            938\n          )\\d{4}\n        "), possibleLength := [10], possibleLocalLength := [7], example? := some (str% "4732691234") },
    mobile := some { nationalNumber := some (str% "\n          473(?:\n            4(?:\n              0[2-79]|\n              1[04-9]|\n              2[0-5]|\n              49|\n              5[6-8]\n            )|\n            5(?:\n              2[01]|\n              3[3-8]\n            )|\n            901\n          )\\d{4}\n        "), possibleLength := [10], possibleLocalLength := [7], example? := some (str% "4734031234") },
    tollFree := some { nationalNumber := some (str% "\n          8(?:\n            00|\n            33|\n            44|\n            55|\n            66|\n            77|\n            88\n          )[2-9]\\d{6}\n        "), possibleLength := [10], example? := some (str% "8002123456") },
    premiumRate := some { nationalNumber := some (str% "900[2-9]\\d{6}"), possibleLength := [10], example? := some (str% "9002123456") },
    personalNumber := some { nationalNumber := some (str% "\n          52(?:\n            3(?:\n              [2-46-9][02-9]\\d|\n              5(?:\n                [02-46-9]\\d|\n                5[0-46-9]\n              )\n            )|\n            4(?:\n              [2-478][02-9]\\d|\n              5(?:\n                [034]\\d|\n                2[024-9]|\n                5[0-46-9]\n              )|\n              6(?:\n                0[1-9]|\n                [2-9]\\d\n              )|\n              9(?:\n                [05-9]\\d|\n                2[0-5]|\n                49\n              )\n            )\n          )\\d{4}|\n          52[34][2-9]1[02-9]\\d{4}|\n          5(?:\n            00|\n            2[125-9]|\n            3[23]|\n            44|\n            66|\n            77|\n            88\n          )[2-9]\\d{6}\n        "), possibleLength := [10], example? := some (str% "5002345678") },
    id := some (str% "GD"),
    countryCode := some 1,
    internationalPrefix := some (str% "011"),
    nationalPrefix := some (str% "1"),
    nationalPrefixForParsing := some (str% "([2-9]\\d{6})$|1"),
    nationalPrefixTransformRule := some (str% "473$1"),
    leadingDigits := some (str% "473"),
    mobileNumberPortable := true }

/-- territory id=GE countryCode=995 -/
noncomputable def GE : Loader.Metadata :=
  { general := some { nationalNumber := some (str% "\n          (?:\n            [3-57]\\d\\d|\n            800\n          )\\d{6}\n        ") },
    fixedLine := some { nationalNumber := some (str% "\n          (?:\n            3(?:\n              [256]\\d|\n              4[124-9]|\n              7[0-4]\n            )|\n            4(?:\n              1\\d|\n              2[2-7]|\n              3[1-79]|\n              4[2-8]|\n              7[239]|\n              9[1-7]\n            )\n          )\\d{6}\n        "), possibleLength := [9], possibleLocalLength := [6, 7], example? := some (str% "322123456") },
    mobile := some { nationalNumber := some (str% "\n          5(?:\n            (?:\n              (?:\n                0555|\n                1(?:\n                  [17]77|\n                  555\n                )\n              )[5-9]|\n              757(?:\n                7[7-9]|\n                8[01]\n              )\n            )\\d|\n            22252[0-4]\n          )\\d\\d|\n          5(?:\n            0(?:\n              0(?:\n                1[09]|\n                70\n              )|\n              505\n            )|\n            1(?:\n              0[01]0|\n              1(?:\n                07|\n                33|\n                51\n              )\n            )|\n            2(?:\n              0[02]0|\n              2[25]2\n            )|\n            3(?:\n              0[03]0|\n              3[35]3\n            )|\n            (?:\n              40[04]|\n              900\n            )0|\n            5222\n          )[0-4]\\d{3}|\n          (?:\n            5(?:\n              0(?:\n                0(?:\n                  0\\d|\n                  1[12]|\n                  22|\n                  3[0-6]|\n                  44|\n                  5[05]|\n                  77|\n                  88|\n                  9[09]\n                )|\n                (?:\n                  [14]\\d|\n                  77\n                )\\d|\n                22[02]\n              )|\n              1(?:\n                1(?:\n                  [03][01]|\n                  [124]\\d|\n                  5[2-6]|\n                  7[0-6]\n                )|\n                4\\d\\d\n              )|\n              [23]555|\n              4(?:\n                4\\d\\d|\n                555\n              )|\n              5(?:\n                [0157-9]\\d\\d|\n                200|\n                333|\n                4(?:\n                  44|\n                  55\n                )\n              )|\n              6[89]\\d\\d|\n              7(?:\n                (?:\n                  [0147-9]\\d|\n                  22\n                )\\d|\n                5(?:\n                  00|\n                  [57]5\n                )\n              )|\n              8(?:\n                0(?:\n                  [018]\\d|\n                  2[0-4]\n                )|\n                5(?:\n                  55|\n                  8[89]\n                )|\n                8(?:\n                  55|\n                  88\n                )\n              )|\n              9(?:\n                090|\n                [1-35-9]\\d\\d\n              )\n            )|\n            790\\d\\d\n          )\\d{4}\n        "), possibleLength := [9], example? := some (str% "555123456") },
    tollFree := some { nationalNumber := some (str% "800\\d{6}"), possibleLength := [9], example? := some (str% "800123456") },
    voip := some { nationalNumber := some (str% "70[67]\\d{6}"), possibleLength := [9], example? := some (str% "706123456") },
    noInternational := some { nationalNumber := some (str% "70[67]\\d{6}"), possibleLength := [9] },
    id := some (str% "GE"),
    countryCode := some 995,
    internationalPrefix := some (str% "00"),
    nationalPrefix := some (str% "0"),
    formats := [
      { pattern := some (str% "(\\d{3})(\\d{3})(\\d{3})"), format := some (str% "$1 $2 $3"), leadingDigits := [str% "70"], nationalPrefixFormattingRule := some (str% "$NP$FG") },
      { pattern := some (str% "(\\d{2})(\\d{3})(\\d{2})(\\d{2})"), format := some (str% "$1 $2 $3 $4"), leadingDigits := [str% "32"], nationalPrefixFormattingRule := some (str% "$NP$FG") },
      { pattern := some (str% "(\\d{3})(\\d{2})(\\d{2})(\\d{2})"), format := some (str% "$1 $2 $3 $4"), leadingDigits := [str% "[57]"] },
      { pattern := some (str% "(\\d{3})(\\d{2})(\\d{2})(\\d{2})"), format := some (str% "$1 $2 $3 $4"), leadingDigits := [str% "[348]"], nationalPrefixFormattingRule := some (str% "$NP$FG") }],
    internationalFormats := [
      { pattern := some (str% "(\\d{3})(\\d{3})(\\d{3})"), format := some (str% "$1 $2 $3"), leadingDigits := [str% "70"], nationalPrefixFormattingRule := some (str% "$NP$FG") },
      { pattern := some (str% "(\\d{2})(\\d{3})(\\d{2})(\\d{2})"), format := some (str% "$1 $2 $3 $4"), leadingDigits := [str% "32"], nationalPrefixFormattingRule := some (str% "$NP$FG") },
      { pattern := some (str% "(\\d{3})(\\d{2})(\\d{2})(\\d{2})"), format := some (str% "$1 $2 $3 $4"), leadingDigits := [str% "[57]"] },
      { pattern := some (str% "(\\d{3})(\\d{2})(\\d{2})(\\d{2})"), format := some (str% "$1 $2 $3 $4"), leadingDigits := [str% "[348]"], nationalPrefixFormattingRule := some (str% "$NP$FG") }],
    mobileNumberPortable := true }

/-- territory id=GF countryCode=594 -/
noncomputable def GF : Loader.Metadata :=
  { general := some { nationalNumber := some (str% "\n          (?:\n            694\\d|\n            7093\n          )\\d{5}|\n          (?:\n            59|\n            [89]\\d\n          )\\d{7}\n        ") },
    fixedLine := some { nationalNumber := some (str% "\n          (?:\n            59(?:\n              4(?:\n                [02-49]\\d|\n                1[0-5]|\n                5[6-9]|\n                6[0-3]|\n                80\n              )|\n              88\\d\n            )|\n            80[6-9]\\d\\d\n          )\\d{4}\n        "), possibleLength := [9], example? := some (str% "594101234") },
    mobile := some { nationalNumber := some (str% "\n          (?:\n            694(?:\n              [0-249]\\d|\n              3[0-8]\n            )|\n            7093[0-3]\n          )\\d{4}\n        "), possibleLength := [9], example? := some (str% "694201234") },
    tollFree := some { nationalNumber := some (str% "80[0-5]\\d{6}"), possibleLength := [9], example? := some (str% "800012345") },
    premiumRate := some { nationalNumber := some (str% "8[129]\\d{7}"), possibleLength := [9], example? := some (str% "890123456") },
    voip := some { nationalNumber := some (str% "\n          9(?:\n            (?:\n              396|\n              76\\d\n            )\\d|\n            476[0-6]\n          )\\d{4}\n        "), possibleLength := [9], example? := some (str% "976012345") },
    id := some (str% "GF"),
    countryCode := some 594,
    internationalPrefix := some (str% "00"),
    nationalPrefix := some (str% "0"),
    formats := [
      { pattern := some (str% "(\\d{3})(\\d{2})(\\d{2})(\\d{2})"), format := some (str% "$1 $2 $3 $4"), leadingDigits := [str% "\n            [5-7]|\n            80[6-9]|\n            9[47]\n          "], nationalPrefixFormattingRule := some (str% "$NP$FG") },
      { pattern := some (str% "(\\d{3})(\\d{2})(\\d{2})(\\d{2})"), format := some (str% "$1 $2 $3 $4"), leadingDigits := [str% "[89]"], nationalPrefixFormattingRule := some (str% "$NP$FG") }],
    internationalFormats := [
      { pattern := some (str% "(\\d{3})(\\d{2})(\\d{2})(\\d{2})"), format := some (str% "$1 $2 $3 $4"), leadingDigits := [str% "\n            [5-7]|\n            80[6-9]|\n            9[47]\n          "], nationalPrefixFormattingRule := some (str% "$NP$FG") },
      { pattern := some (str% "(\\d{3})(\\d{2})(\\d{2})(\\d{2})"), format := some (str% "$1 $2 $3 $4"), leadingDigits := [str% "[89]"], nationalPrefixFormattingRule := some (str% "$NP$FG") }],
    mobileNumberPortable := true }

/-- territory id=GG countryCode=44 -/
noncomputable def GG : Loader.Metadata :=
  { general := some { nationalNumber := some (str% "\n          (?:\n            1481|\n            [357-9]\\d{3}\n          )\\d{6}|\n          8\\d{6}(?:\n            \\d{2}\n          )?\n        ") },
    fixedLine := some { nationalNumber := some (str% "1481[25-9]\\d{5}"), possibleLength := [10], possibleLocalLength := [6], example? := some (str% "1481256789") },
    mobile := some { nationalNumber := some (str% "\n          7(?:\n            (?:\n              781|\n              839\n            )\\d|\n            911[17]\n          )\\d{5}\n        "), possibleLength := [10], example? := some (str% "7781123456") },
    tollFree := some { nationalNumber := some (str% "\n          80[08]\\d{7}|\n          800\\d{6}|\n          8001111\n        "), possibleLength := [7, 9, 10], example? := some (str% "8001234567") },
    premiumRate := some { nationalNumber := some (str% "\n          (?:\n            8(?:\n              4[2-5]|\n              7[0-3]\n            )|\n            9(?:\n              [01]\\d|\n              8[0-3]\n            )\n          )\\d{7}|\n          845464\\d\n        "), possibleLength := [7, 10], example? := some (str% "9012345678") },
    personalNumber := some { nationalNumber := some (str% "70\\d{8}"), possibleLength := [10], example? := some (str% "7012345678") },
    voip := some { nationalNumber := some (str% "56\\d{8}"), possibleLength := [10], example? := some (str% "5612345678") },
    pager := some { nationalNumber := some (str% "\n          76(?:\n            464|\n            652\n          )\\d{5}|\n          76(?:\n            0[0-28]|\n            2[356]|\n            34|\n            4[01347]|\n            5[49]|\n            6[0-369]|\n            77|\n            8[14]|\n            9[139]\n          )\\d{6}\n        "), possibleLength := [10], example? := some (str% "7640123456") },
    uan := some { nationalNumber := some (str% "\n          (?:\n            3[0347]|\n            55\n          )\\d{8}\n        "), possibleLength := [10], example? := some (str% "5512345678") },
    id := some (str% "GG"),
    countryCode := some 44,
    internationalPrefix := some (str% "00"),
    nationalPrefix := some (str% "0"),
    nationalPrefixForParsing := some (str% "([25-9]\\d{5})$|0|180020"),
    nationalPrefixTransformRule := some (str% "1481$1") }

/-- territory id=GH countryCode=233 -/
noncomputable def GH : Loader.Metadata :=
  { general := some { nationalNumber := some (str% "\n          [235]\\d{8}|\n          800\\d{5,6}\n        ") },
    fixedLine := some { nationalNumber := some (str% "\n          3082[0-5]\\d{4}|\n          3(?:\n            0(?:\n              [237]\\d|\n              8[01]\n            )|\n            [167](?:\n              2[0-6]|\n              7\\d|\n              80\n            )|\n            2(?:\n              2[0-5]|\n              7\\d|\n              80\n            )|\n            3(?:\n              2[0-3]|\n              7\\d|\n              80\n            )|\n            4(?:\n              2[013-9]|\n              3[01]|\n              7\\d|\n              80\n            )|\n            5(?:\n              2[0-7]|\n              7\\d|\n              80\n            )|\n            8(?:\n              2[0-2]|\n              7\\d|\n              80\n            )|\n            9(?:\n              [28]0|\n              7\\d\n            )\n          )\\d{5}\n        "), possibleLength := [9], possibleLocalLength := [7], example? := some (str% "302345678") },
    mobile := some { nationalNumber := some (str% "\n          (?:\n            2(?:\n              [0346-9]\\d|\n              5[67]\n            )|\n            5(?:\n              [03-7]\\d|\n              9[1-9]\n            )\n          )\\d{6}\n        "), possibleLength := [9], example? := some (str% "231234567") },
    tollFree := some { nationalNumber := some (str% "800\\d{5,6}"), possibleLength := [8, 9], example? := some (str% "80012345") },
    noInternational := some { nationalNumber := some (str% "800\\d{5,6}"), possibleLength := [8, 9] },
    id := some (str% "GH"),
    countryCode := some 233,
    internationalPrefix := some (str% "00"),
    nationalPrefix := some (str% "0"),
    formats := [
      { pattern := some (str% "(\\d{3})(\\d{4})"), format := some (str% "$1 $2"), leadingDigits := [str% "\n            [237]|\n            8[0-2]\n          "] },
      { pattern := some (str% "(\\d{3})(\\d{5})"), format := some (str% "$1 $2"), leadingDigits := [str% "8"], nationalPrefixFormattingRule := some (str% "$NP$FG") },
      { pattern := some (str% "(\\d{2})(\\d{3})(\\d{4})"), format := some (str% "$1 $2 $3"), leadingDigits := [str% "[2358]"], nationalPrefixFormattingRule := some (str% "$NP$FG") }],
    internationalFormats := [
      { pattern := some (str% "(\\d{3})(\\d{5})"), format := some (str% "$1 $2"), leadingDigits := [str% "8"], nationalPrefixFormattingRule := some (str% "$NP$FG") },
      { pattern := some (str% "(\\d{2})(\\d{3})(\\d{4})"), format := some (str% "$1 $2 $3"), leadingDigits := [str% "[2358]"], nationalPrefixFormattingRule := some (str% "$NP$FG") }],
    mobileNumberPortable := true }

/-- territory id=GI countryCode=350 -/
noncomputable def GI : Loader.Metadata :=
  { general := some { nationalNumber := some (str% "\n          (?:\n            [25]\\d|\n            60\n          )\\d{6}\n        ") },
    fixedLine := some { nationalNumber := some (str% "\n          2190[0-2]\\d{3}|\n          2(?:\n            0(?:\n              [02]\\d|\n              3[01]\n            )|\n            16[24-9]|\n            2[2-5]\\d\n          )\\d{4}\n        "), possibleLength := [8], example? := some (str% "20012345") },
    mobile := some { nationalNumber := some (str% "\n          5251[0-4]\\d{3}|\n          (?:\n            5(?:\n              [146-8]\\d\\d|\n              250\n            )|\n            60(?:\n              1[01]|\n              6\\d\n            )\n          )\\d{4}\n        "), possibleLength := [8], example? := some (str% "57123456") },
    id := some (str% "GI"),
    countryCode := some 350,
    internationalPrefix := some (str% "00"),
    formats := [
      { pattern := some (str% "(\\d{3})(\\d{5})"), format := some (str% "$1 $2"), leadingDigits := [str% "2"] }],
    internationalFormats := [
      { pattern := some (str% "(\\d{3})(\\d{5})"), format := some (str% "$1 $2"), leadingDigits := [str% "2"] }],
    mobileNumberPortable := true }

/-- territory id=GL countryCode=299 -/
noncomputable def GL : Loader.Metadata :=
  { general := some { nationalNumber := some (str% "\n          (?:\n            19|\n            [2-689]\\d|\n            70\n          )\\d{4}\n        ") },
    fixedLine := some { nationalNumber := some (str% "\n          (?:\n            19|\n            3[1-7]|\n            [68][1-9]|\n            70|\n            9\\d\n          )\\d{4}\n        "), possibleLength := [6], example? := some (str% "321000") },
    mobile := some { nationalNumber := some (str% "[245]\\d{5}"), possibleLength := [6], example? := some (str% "221234") },
    tollFree := some { nationalNumber := some (str% "80\\d{4}"), possibleLength := [6], example? := some (str% "801234") },
    voip := some { nationalNumber := some (str% "3[89]\\d{4}"), possibleLength := [6], example? := some (str% "381234") },
    id := some (str% "GL"),
    countryCode := some 299,
    internationalPrefix := some (str% "00"),
    formats := [
      { pattern := some (str% "(\\d{2})(\\d{2})(\\d{2})"), format := some (str% "$1 $2 $3"), leadingDigits := [str% "\n            19|\n            [2-9]\n          "] }],
    internationalFormats := [
      { pattern := some (str% "(\\d{2})(\\d{2})(\\d{2})"), format := some (str% "$1 $2 $3"), leadingDigits := [str% "\n            19|\n            [2-9]\n          "] }] }

/-- territory id=GM countryCode=220 -/
noncomputable def GM : Loader.Metadata :=
  { general := some { nationalNumber := some (str% "[2-9]\\d{6}") },
    fixedLine := some { nationalNumber := some (str% "\n          (?:\n            4(?:\n              [23]\\d\\d|\n              4(?:\n                1[024679]|\n                [6-9]\\d\n              )\n            )|\n            5(?:\n              5(?:\n                3\\d|\n                4[0-7]\n              )|\n              6[67]\\d|\n              7(?:\n                1[04]|\n                2[035]|\n                3[58]|\n                48\n              )\n            )|\n            8[0-389]\\d\\d\n          )\\d{3}\n        "), possibleLength := [7], example? := some (str% "5661234") },
    mobile := some { nationalNumber := some (str% "\n          556\\d{4}|\n          (?:\n            [23679]\\d|\n            4[015]|\n            5[0-489]|\n            8[4-7]\n          )\\d{5}\n        "), possibleLength := [7], example? := some (str% "3012345") },
    id := some (str% "GM"),
    countryCode := some 220,
    internationalPrefix := some (str% "00"),
    formats := [
      { pattern := some (str% "(\\d{3})(\\d{4})"), format := some (str% "$1 $2"), leadingDigits := [str% "[2-9]"] }],
    internationalFormats := [
      { pattern := some (str% "(\\d{3})(\\d{4})"), format := some (str% "$1 $2"), leadingDigits := [str% "[2-9]"] }] }

/-- territory id=GN countryCode=224 -/
noncomputable def GN : Loader.Metadata :=
  { general := some { nationalNumber := some (str% "\n          722\\d{6}|\n          (?:\n            3|\n            6\\d\n          )\\d{7}\n        ") },
    fixedLine := some { nationalNumber := some (str% "\n          3(?:\n            0(?:\n              24|\n              3[12]|\n              4[1-35-7]|\n              5[13]|\n              6[189]|\n              [78]1|\n              9[1478]\n            )|\n            1\\d\\d\n          )\\d{4}\n        "), possibleLength := [8], example? := some (str% "30241234") },
    mobile := some { nationalNumber := some (str% "6[0-356]\\d{7}"), possibleLength := [9], example? := some (str% "601123456") },
    voip := some { nationalNumber := some (str% "722\\d{6}"), possibleLength := [9], example? := some (str% "722123456") },
    id := some (str% "GN"),
    countryCode := some 224,
    internationalPrefix := some (str% "00"),
    formats := [
      { pattern := some (str% "(\\d{2})(\\d{2})(\\d{2})(\\d{2})"), format := some (str% "$1 $2 $3 $4"), leadingDigits := [str% "3"] },
      { pattern := some (str% "(\\d{3})(\\d{2})(\\d{2})(\\d{2})"), format := some (str% "$1 $2 $3 $4"), leadingDigits := [str% "[67]"] }],
    internationalFormats := [
      { pattern := some (str% "(\\d{2})(\\d{2})(\\d{2})(\\d{2})"), format := some (str% "$1 $2 $3 $4"), leadingDigits := [str% "3"] },
      { pattern := some (str% "(\\d{3})(\\d{2})(\\d{2})(\\d{2})"), format := some (str% "$1 $2 $3 $4"), leadingDigits := [str% "[67]"] }] }

/-- territory id=GP countryCode=590 -/
noncomputable def GP : Loader.Metadata :=
  { general := some { nationalNumber := some (str% "\n          7090\\d{5}|\n          (?:\n            [56]9|\n            [89]\\d\n          )\\d{7}\n        ") },
    fixedLine := some { nationalNumber := some (str% "\n          (?:\n            59(?:\n              0(?:\n                0[1-68]|\n                [14][0-24-9]|\n                2[0-68]|\n                3[1-9]|\n                5[3-579]|\n                [68][0-689]|\n                7[08]|\n                9\\d\n              )|\n              87\\d\n            )|\n            80[6-9]\\d\\d\n          )\\d{4}\n        "), possibleLength := [9], example? := some (str% "590201234") },
    mobile := some { nationalNumber := some (str% "\n          (?:\n            69(?:\n              0\\d\\d|\n              1(?:\n                2[2-9]|\n                3[0-5]\n              )\n            )|\n            7090[0-4]\n          )\\d{4}\n        "), possibleLength := [9], example? := some (str% "690001234") },
    tollFree := some { nationalNumber := some (str% "80[0-5]\\d{6}"), possibleLength := [9], example? := some (str% "800012345") },
    premiumRate := some { nationalNumber := some (str% "8[129]\\d{7}"), possibleLength := [9], example? := some (str% "810123456") },
    voip := some { nationalNumber := some (str% "\n          9(?:\n            (?:\n              39[5-7]|\n              76[018]\n            )\\d|\n            475[0-6]\n          )\\d{4}\n        "), possibleLength := [9], example? := some (str% "976012345") },
    id := some (str% "GP"),
    countryCode := some 590,
    internationalPrefix := some (str% "00"),
    nationalPrefix := some (str% "0"),
    formats := [
      { pattern := some (str% "(\\d{3})(\\d{2})(\\d{2})(\\d{2})"), format := some (str% "$1 $2 $3 $4"), leadingDigits := [str% "\n            [5-79]|\n            80[6-9]\n          "], nationalPrefixFormattingRule := some (str% "$NP$FG") },
      { pattern := some (str% "(\\d{3})(\\d{2})(\\d{2})(\\d{2})"), format := some (str% "$1 $2 $3 $4"), leadingDigits := [str% "8"], nationalPrefixFormattingRule := some (str% "$NP$FG") }],
    internationalFormats := [
      { pattern := some (str% "(\\d{3})(\\d{2})(\\d{2})(\\d{2})"), format := some (str% "$1 $2 $3 $4"), leadingDigits := [str% "\n            [5-79]|\n            80[6-9]\n          "], nationalPrefixFormattingRule := some (str% "$NP$FG") },
      { pattern := some (str% "(\\d{3})(\\d{2})(\\d{2})(\\d{2})"), format := some (str% "$1 $2 $3 $4"), leadingDigits := [str% "8"], nationalPrefixFormattingRule := some (str% "$NP$FG") }],
    mainCountryForCode := true,
    mobileNumberPortable := true }

/-- territory id=GQ countryCode=240 -/
noncomputable def GQ : Loader.Metadata :=
  { general := some { nationalNumber := some (str% "\n          222\\d{6}|\n          (?:\n            3\\d|\n            55|\n            [89]0\n          )\\d{7}\n        ") },
    fixedLine := some { nationalNumber := some (str% "\n          33[0-24-9]\\d[46]\\d{4}|\n          3(?:\n            33|\n            5\\d\n          )\\d[7-9]\\d{4}\n        "), possibleLength := [9], example? := some (str% "333091234") },
    mobile := some { nationalNumber := some (str% "\n          (?:\n            222|\n            55\\d\n          )\\d{6}\n        "), possibleLength := [9], example? := some (str% "222123456") },
    tollFree := some { nationalNumber := some (str% "80\\d[1-9]\\d{5}"), possibleLength := [9], example? := some (str% "800123456") },
    premiumRate := some { nationalNumber := some (str% "90\\d[1-9]\\d{5}"), possibleLength := [9], example? := some (str% "900123456") },
    id := some (str% "GQ"),
    countryCode := some 240,
    internationalPrefix := some (str% "00"),
    formats := [
      { pattern := some (str% "(\\d{3})(\\d{3})(\\d{3})"), format := some (str% "$1 $2 $3"), leadingDigits := [str% "[235]"] },
      { pattern := some (str% "(\\d{3})(\\d{6})"), format := some (str% "$1 $2"), leadingDigits := [str% "[89]"] }],
    internationalFormats := [
      { pattern := some (str% "(\\d{3})(\\d{3})(\\d{3})"), format := some (str% "$1 $2 $3"), leadingDigits := [str% "[235]"] },
      { pattern := some (str% "(\\d{3})(\\d{6})"), format := some (str% "$1 $2"), leadingDigits := [str% "[89]"] }] }

/-- the territories of this module, in document order -/
noncomputable def chunk05 : List Loader.Metadata :=
  [ET, FI, FJ, FK, FM, FO, FR, GA, GB, GD, GE, GF, GG, GH, GI, GL, GM, GN, GP, GQ]

end Phone.Data
