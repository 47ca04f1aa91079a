import Verif.Model.Database
/-! Territories of `/repo/assets/PhoneNumberMetadata.xml` as `/repo/src/metadata/loader.rs` reads them.
Generated by `tools/gen_data.py`; do not edit. -/

set_option maxRecDepth 100000
namespace Phone.Data

/-- territory id=PK countryCode=92 -/
noncomputable def PK : Loader.Metadata :=
  { general := some { nationalNumber := some (str% "\n          122\\d{6}|\n          [24-8]\\d{10,11}|\n          9(?:\n            [013-9]\\d{8,10}|\n            2(?:\n              [01]\\d\\d|\n              2(?:\n                [06-8]\\d|\n                1[01]\n              )\n            )\\d{7}\n          )|\n          (?:\n            [2-8]\\d{3}|\n            92(?:\n              [0-7]\\d|\n              8[1-9]\n            )\n          )\\d{6}|\n          [24-9]\\d{8}|\n          [89]\\d{7}\n        ") },
    fixedLine := some { nationalNumber := some (str% "\n          (?:\n            (?:\n              21|\n              42\n            )[2-9]|\n            58[126]\n          )\\d{7}|\n          (?:\n            2[25]|\n            4[0146-9]|\n            5[1-35-7]|\n            6[1-8]|\n            7[14]|\n            8[16]|\n            91\n          )[2-9]\\d{6,7}|\n          (?:\n            2(?:\n              3[2358]|\n              4[2-4]|\n              9[2-8]\n            )|\n            45[3479]|\n            54[2-467]|\n            60[468]|\n            72[236]|\n            8(?:\n              2[2-689]|\n              3[23578]|\n              4[3478]|\n              5[2356]\n            )|\n            9(?:\n              2[2-8]|\n              3[27-9]|\n              4[2-6]|\n              6[3569]|\n              9[25-8]\n            )\n          )[2-9]\\d{5,6}\n        "), possibleLength := [9, 10], possibleLocalLength := [5, 6, 7, 8], example? := some (str% "2123456789") },
    mobile := some { nationalNumber := some (str% "\n          3(?:\n            [0-247]\\d|\n            3[0-79]|\n            55|\n            64\n          )\\d{7}\n        "), possibleLength := [10], example? := some (str% "3012345678") },
    tollFree := some { nationalNumber := some (str% "\n          800\\d{5}(?:\n            \\d{3}\n          )?\n        "), possibleLength := [8, 11], example? := some (str% "80012345") },
    premiumRate := some { nationalNumber := some (str% "900\\d{5}"), possibleLength := [8], example? := some (str% "90012345") },
    personalNumber := some { nationalNumber := some (str% "122\\d{6}"), possibleLength := [9], example? := some (str% "122044444") },
    uan := some { nationalNumber := some (str% "\n          (?:\n            2(?:\n              [125]|\n              3[2358]|\n              4[2-4]|\n              9[2-8]\n            )|\n            4(?:\n              [0-246-9]|\n              5[3479]\n            )|\n            5(?:\n              [1-35-7]|\n              4[2-467]\n            )|\n            6(?:\n              0[468]|\n              [1-8]\n            )|\n            7(?:\n              [14]|\n              2[236]\n            )|\n            8(?:\n              [16]|\n              2[2-689]|\n              3[23578]|\n              4[3478]|\n              5[2356]\n            )|\n            9(?:\n              1|\n              22|\n              3[27-9]|\n              4[2-6]|\n              6[3569]|\n              9[2-7]\n            )\n          )111\\d{6}\n        "), possibleLength := [11, 12], example? := some (str% "21111825888") },
    id := some (str% "PK"),
    countryCode := some 92,
    internationalPrefix := some (str% "00"),
    nationalPrefix := some (str% "0"),
    formats := [
      { pattern := some (str% "(\\d{3})(\\d{3})(\\d{2,7})"), format := some (str% "$1 $2 $3"), leadingDigits := [str% "[89]0"], nationalPrefixFormattingRule := some (str% "$NP$FG") },
      { pattern := some (str% "(\\d{4})(\\d{5})"), format := some (str% "$1 $2"), leadingDigits := [str% "1"] },
      { pattern := some (str% "(\\d{3})(\\d{6,7})"), format := some (str% "$1 $2"), leadingDigits := [str% "\n            2(?:\n              3[2358]|\n              4[2-4]|\n              9[2-8]\n            )|\n            45[3479]|\n            54[2-467]|\n            60[468]|\n            72[236]|\n            8(?:\n              2[2-689]|\n              3[23578]|\n              4[3478]|\n              5[2356]\n            )|\n            9(?:\n              2[2-8]|\n              3[27-9]|\n              4[2-6]|\n              6[3569]|\n              9[25-8]\n            )\n          ", str% "\n            9(?:\n              2[3-8]|\n              98\n            )|\n            (?:\n              2(?:\n                3[2358]|\n                4[2-4]|\n                9[2-8]\n              )|\n              45[3479]|\n              54[2-467]|\n              60[468]|\n              72[236]|\n              8(?:\n                2[2-689]|\n                3[23578]|\n                4[3478]|\n                5[2356]\n              )|\n              9(?:\n                22|\n                3[27-9]|\n                4[2-6]|\n                6[3569]|\n                9[25-7]\n              )\n            )[2-9]\n          "], nationalPrefixFormattingRule := some (str% "($NP$FG)") },
      { pattern := some (str% "(\\d{2})(\\d{7,8})"), format := some (str% "$1 $2"), leadingDigits := [str% "\n            (?:\n              2[125]|\n              4[0-246-9]|\n              5[1-35-7]|\n              6[1-8]|\n              7[14]|\n              8[16]|\n              91\n            )[2-9]\n          "], nationalPrefixFormattingRule := some (str% "($NP$FG)") },
      { pattern := some (str% "(\\d{5})(\\d{5})"), format := some (str% "$1 $2"), leadingDigits := [str% "58"], nationalPrefixFormattingRule := some (str% "($NP$FG)") },
      { pattern := some (str% "(\\d{3})(\\d{7})"), format := some (str% "$1 $2"), leadingDigits := [str% "3"], nationalPrefixFormattingRule := some (str% "$NP$FG") },
      { pattern := some (str% "(\\d{2})(\\d{3})(\\d{3})(\\d{3})"), format := some (str% "$1 $2 $3 $4"), leadingDigits := [str% "\n            2[125]|\n            4[0-246-9]|\n            5[1-35-7]|\n            6[1-8]|\n            7[14]|\n            8[16]|\n            91\n          "], nationalPrefixFormattingRule := some (str% "($NP$FG)") },
      { pattern := some (str% "(\\d{3})(\\d{3})(\\d{3})(\\d{3})"), format := some (str% "$1 $2 $3 $4"), leadingDigits := [str% "[24-9]"], nationalPrefixFormattingRule := some (str% "($NP$FG)") }],
    internationalFormats := [
      { pattern := some (str% "(\\d{3})(\\d{3})(\\d{2,7})"), format := some (str% "$1 $2 $3"), leadingDigits := [str% "[89]0"], nationalPrefixFormattingRule := some (str% "$NP$FG") },
      { pattern := some (str% "(\\d{4})(\\d{5})"), format := some (str% "$1 $2"), leadingDigits := [str% "1"] },
      { pattern := some (str% "(\\d{3})(\\d{6,7})"), format := some (str% "$1 $2"), leadingDigits := [str% "\n            2(?:\n              3[2358]|\n              4[2-4]|\n              9[2-8]\n            )|\n            45[3479]|\n            54[2-467]|\n            60[468]|\n            72[236]|\n            8(?:\n              2[2-689]|\n              3[23578]|\n              4[3478]|\n              5[2356]\n            )|\n            9(?:\n              2[2-8]|\n              3[27-9]|\n              4[2-6]|\n              6[3569]|\n              9[25-8]\n            )\n          ", str% "\n            9(?:\n              2[3-8]|\n              98\n            )|\n            (?:\n              2(?:\n                3[2358]|\n                4[2-4]|\n                9[2-8]\n              )|\n              45[3479]|\n              54[2-467]|\n              60[468]|\n              72[236]|\n              8(?:\n                2[2-689]|\n                3[23578]|\n                4[3478]|\n                5[2356]\n              )|\n              9(?:\n                22|\n                3[27-9]|\n                4[2-6]|\n                6[3569]|\n                9[25-7]\n              )\n            )[2-9]\n          "], nationalPrefixFormattingRule := some (str% "($NP$FG)") },
      { pattern := some (str% "(\\d{2})(\\d{7,8})"), format := some (str% "$1 $2"), leadingDigits := [str% "\n            (?:\n              2[125]|\n              4[0-246-9]|\n              5[1-35-7]|\n              6[1-8]|\n              7[14]|\n              8[16]|\n              91\n            )[2-9]\n          "], nationalPrefixFormattingRule := some (str% "($NP$FG)") },
      { pattern := some (str% "(\\d{5})(\\d{5})"), format := some (str% "$1 $2"), leadingDigits := [str% "58"], nationalPrefixFormattingRule := some (str% "($NP$FG)") },
      { pattern := some (str% "(\\d{3})(\\d{7})"), format := some (str% "$1 $2"), leadingDigits := [str% "3"], nationalPrefixFormattingRule := some (str% "$NP$FG") },
      { pattern := some (str% "(\\d{2})(\\d{3})(\\d{3})(\\d{3})"), format := some (str% "$1 $2 $3 $4"), leadingDigits := [str% "\n            2[125]|\n            4[0-246-9]|\n            5[1-35-7]|\n            6[1-8]|\n            7[14]|\n            8[16]|\n            91\n          "], nationalPrefixFormattingRule := some (str% "($NP$FG)") },
      { pattern := some (str% "(\\d{3})(\\d{3})(\\d{3})(\\d{3})"), format := some (str% "$1 $2 $3 $4"), leadingDigits := [str% "[24-9]"], nationalPrefixFormattingRule := some (str% "($NP$FG)") }],
    mobileNumberPortable := true }

/-- territory id=PL countryCode=48 -/
noncomputable def PL : Loader.Metadata :=
  { general := some { nationalNumber := some (str% "\n          (?:\n            6|\n            8\\d\\d\n          )\\d{7}|\n          [1-9]\\d{6}(?:\n            \\d{2}\n          )?|\n          [26]\\d{5}\n        ") },
    fixedLine := some { nationalNumber := some (str% "\n          (?:\n            30|\n            47\\d\\d\n          )\\d{5}|\n          (?:\n            1[2-8]|\n            2[2-69]|\n            3[2-4]|\n            4[1-468]|\n            5[24-689]|\n            6[1-3578]|\n            7[14-7]|\n            8[1-79]|\n            9[145]\n          )(?:\n            [02-9]\\d{6}|\n            1(?:\n              [0-8]\\d{5}|\n              9\\d{3}(?:\n                \\d{2}\n              )?\n            )\n          )\n        "), possibleLength := [7, 9], example? := some (str% "123456789") },
    mobile := some { nationalNumber := some (str% "\n          21(?:\n            1[013-5]|\n            2\\d|\n            3[1-9]\n          )\\d{5}|\n          (?:\n            45|\n            5[0137]|\n            6[069]|\n            7[2389]|\n            88\n          )\\d{7}\n        "), possibleLength := [9], example? := some (str% "512345678") },
    tollFree := some { nationalNumber := some (str% "800\\d{6,7}"), possibleLength := [9, 10], example? := some (str% "800123456") },
    premiumRate := some { nationalNumber := some (str% "70[01346-8]\\d{6}"), possibleLength := [9], example? := some (str% "701234567") },
    sharedCost := some { nationalNumber := some (str% "801\\d{6}"), possibleLength := [9], example? := some (str% "801234567") },
    voip := some { nationalNumber := some (str% "39\\d{7}"), possibleLength := [9], example? := some (str% "391234567") },
    pager := some { nationalNumber := some (str% "64\\d{4,7}"), possibleLength := [6, 7, 8, 9], example? := some (str% "641234567") },
    uan := some { nationalNumber := some (str% "804\\d{6}"), possibleLength := [9], example? := some (str% "804123456") },
    id := some (str% "PL"),
    countryCode := some 48,
    internationalPrefix := some (str% "00"),
    formats := [
      { pattern := some (str% "(\\d{5})"), format := some (str% "$1"), leadingDigits := [str% "19"] },
      { pattern := some (str% "(\\d{3})(\\d{3})"), format := some (str% "$1 $2"), leadingDigits := [str% "\n            11|\n            20|\n            64\n          "] },
      { pattern := some (str% "(\\d{2})(\\d{2})(\\d{3})"), format := some (str% "$1 $2 $3"), leadingDigits := [str% "\n            30|\n            (?:\n              1[2-8]|\n              2[2-69]|\n              3[2-4]|\n              4[1-468]|\n              5[24-689]|\n              6[1-3578]|\n              7[14-7]|\n              8[1-79]|\n              9[145]\n            )1\n          ", str% "\n            30|\n            (?:\n              1[2-8]|\n              2[2-69]|\n              3[2-4]|\n              4[1-468]|\n              5[24-689]|\n              6[1-3578]|\n              7[14-7]|\n              8[1-79]|\n              9[145]\n            )19\n          "] },
      { pattern := some (str% "(\\d{3})(\\d{2})(\\d{2,3})"), format := some (str% "$1 $2 $3"), leadingDigits := [str% "64"] },
      { pattern := some (str% "(\\d{3})(\\d{3})(\\d{3})"), format := some (str% "$1 $2 $3"), leadingDigits := [str% "\n            21|\n            39|\n            45|\n            5[0137]|\n            6[0469]|\n            7[02389]|\n            8(?:\n              0[14]|\n              8\n            )\n          "] },
      { pattern := some (str% "(\\d{2})(\\d{3})(\\d{2})(\\d{2})"), format := some (str% "$1 $2 $3 $4"), leadingDigits := [str% "\n            1[2-8]|\n            [2-7]|\n            8[1-79]|\n            9[145]\n          "] },
      { pattern := some (str% "(\\d{3})(\\d{3})(\\d{3,4})"), format := some (str% "$1 $2 $3"), leadingDigits := [str% "8"] }],
    internationalFormats := [
      { pattern := some (str% "(\\d{5})"), format := some (str% "$1"), leadingDigits := [str% "19"] },
      { pattern := some (str% "(\\d{3})(\\d{3})"), format := some (str% "$1 $2"), leadingDigits := [str% "\n            11|\n            20|\n            64\n          "] },
      { pattern := some (str% "(\\d{2})(\\d{2})(\\d{3})"), format := some (str% "$1 $2 $3"), leadingDigits := [str% "\n            30|\n            (?:\n              1[2-8]|\n              2[2-69]|\n              3[2-4]|\n              4[1-468]|\n              5[24-689]|\n              6[1-3578]|\n              7[14-7]|\n              8[1-79]|\n              9[145]\n            )1\n          ", str% "\n            30|\n            (?:\n              1[2-8]|\n              2[2-69]|\n              3[2-4]|\n              4[1-468]|\n              5[24-689]|\n              6[1-3578]|\n              7[14-7]|\n              8[1-79]|\n              9[145]\n            )19\n          "] },
      { pattern := some (str% "(\\d{3})(\\d{2})(\\d{2,3})"), format := some (str% "$1 $2 $3"), leadingDigits := [str% "64"] },
      { pattern := some (str% "(\\d{3})(\\d{3})(\\d{3})"), format := some (str% "$1 $2 $3"), leadingDigits := [str% "\n            21|\n            39|\n            45|\n            5[0137]|\n            6[0469]|\n            7[02389]|\n            8(?:\n              0[14]|\n              8\n            )\n          "] },
      { pattern := some (str% "(\\d{2})(\\d{3})(\\d{2})(\\d{2})"), format := some (str% "$1 $2 $3 $4"), leadingDigits := [str% "\n            1[2-8]|\n            [2-7]|\n            8[1-79]|\n            9[145]\n          "] },
      { pattern := some (str% "(\\d{3})(\\d{3})(\\d{3,4})"), format := some (str% "$1 $2 $3"), leadingDigits := [str% "8"] }],
    mobileNumberPortable := true }

/-- territory id=PM countryCode=508 -/
noncomputable def PM : Loader.Metadata :=
  { general := some { nationalNumber := some (str% "\n          [78]\\d{8}|\n          [2-9]\\d{5}\n        ") },
    fixedLine := some { nationalNumber := some (str% "\n          80[6-9]\\d{6}|\n          (?:\n            [236-9]\\d|\n            4[1-35-9]|\n            5[0-47-9]\n          )\\d{4}\n        "), possibleLength := [6, 9], example? := some (str% "430123") },
    mobile := some { nationalNumber := some (str% "\n          708(?:\n            4[0-5]|\n            5[0-6]\n          )\\d{4}|\n          (?:\n            [236-9]\\d|\n            4[02-489]|\n            5[02-9]\n          )\\d{4}\n        "), possibleLength := [6, 9], example? := some (str% "551234") },
    tollFree := some { nationalNumber := some (str% "80[0-5]\\d{6}"), possibleLength := [9], example? := some (str% "800012345") },
    premiumRate := some { nationalNumber := some (str% "8[129]\\d{7}"), possibleLength := [9], example? := some (str% "810123456") },
    id := some (str% "PM"),
    countryCode := some 508,
    internationalPrefix := some (str% "00"),
    nationalPrefix := some (str% "0"),
    formats := [
      { pattern := some (str% "(\\d{2})(\\d{2})(\\d{2})"), format := some (str% "$1 $2 $3"), leadingDigits := [str% "[2-9]"], nationalPrefixFormattingRule := some (str% "$NP$FG") },
      { pattern := some (str% "(\\d{3})(\\d{3})(\\d{3})"), format := some (str% "$1 $2 $3"), leadingDigits := [str% "7"] },
      { pattern := some (str% "(\\d{3})(\\d{2})(\\d{2})(\\d{2})"), format := some (str% "$1 $2 $3 $4"), leadingDigits := [str% "8"], nationalPrefixFormattingRule := some (str% "$NP$FG") }],
    internationalFormats := [
      { pattern := some (str% "(\\d{2})(\\d{2})(\\d{2})"), format := some (str% "$1 $2 $3"), leadingDigits := [str% "[2-9]"], nationalPrefixFormattingRule := some (str% "$NP$FG") },
      { pattern := some (str% "(\\d{3})(\\d{3})(\\d{3})"), format := some (str% "$1 $2 $3"), leadingDigits := [str% "7"] },
      { pattern := some (str% "(\\d{3})(\\d{2})(\\d{2})(\\d{2})"), format := some (str% "$1 $2 $3 $4"), leadingDigits := [str% "8"], nationalPrefixFormattingRule := some (str% "$NP$FG") }] }

/-- territory id=PR countryCode=1 -/
noncomputable def PR : Loader.Metadata :=
  { general := some { nationalNumber := some (str% "\n          (?:\n            [589]\\d\\d|\n            787\n          )\\d{7}\n        ") },
    fixedLine := some { nationalNumber := some (str% "\n          (?:\n            787|\n            939\n          )[2-9]\\d{6}\n        "), possibleLength := [10], possibleLocalLength := [7], example? := some (str% "7872345678") },
    mobile := some { nationalNumber := some (str% "\n          (?:\n            787|\n            939\n          )[2-9]\\d{6}\n        "), possibleLength := [10], possibleLocalLength := [7], example? := some (str% "7872345678") },
    tollFree := some { nationalNumber := some (str% "\n          8(?:\n            00|\n            33|\n            44|\n            55|\n            66|\n            77|\n            88\n          )[2-9]\\d{6}\n        "), possibleLength := [10], example? := some (str% "8002345678") },
    premiumRate := some { nationalNumber := some (str% "900[2-9]\\d{6}"), possibleLength := [10], example? := some (str% "9002345678") },
    personalNumber := some { nationalNumber := some (str% "\n          52(?:\n            3(?:\n              [2-46-9][02-9]\\d|\n              5(?:\n                [02-46-9]\\d|\n                5[0-46-9]\n              )\n            )|\n            4(?:\n              [2-478][02-9]\\d|\n              5(?:\n                [034]\\d|\n                2[024-9]|\n                5[0-46-9]\n              )|\n              6(?:\n                0[1-9]|\n                [2-9]\\d\n              )|\n              9(?:\n                [05-9]\\d|\n                2[0-5]|\n                49\n              )\n            )\n          )\\d{4}|\n          52[34][2-9]1[02-9]\\d{4}|\n          5(?:\n            00|\n            2[125-9]|\n            3[23]|\n            44|\n            66|\n            77|\n            88\n          )[2-9]\\d{6}\n        "), possibleLength := [10], example? := some (str% "5002345678") },
    id := some (str% "PR"),
    countryCode := some 1,
    internationalPrefix := some (str% "011"),
    nationalPrefix := some (str% "1"),
    leadingDigits := some (str% "787|939"),
    mobileNumberPortable := true }

/-- territory id=PS countryCode=970 -/
noncomputable def PS : Loader.Metadata :=
  { general := some { nationalNumber := some (str% "\n          [2489]2\\d{6}|\n          (?:\n            1\\d|\n            5\n          )\\d{8}\n        ") },
    fixedLine := some { nationalNumber := some (str% "\n          (?:\n            22[2-47-9]|\n            42[45]|\n            82[014-68]|\n            92[3569]\n          )\\d{5}\n        "), possibleLength := [8], possibleLocalLength := [7], example? := some (str% "22234567") },
    mobile := some { nationalNumber := some (str% "5[69]\\d{7}"), possibleLength := [9], example? := some (str% "599123456") },
    tollFree := some { nationalNumber := some (str% "1800\\d{6}"), possibleLength := [10], example? := some (str% "1800123456") },
    sharedCost := some { nationalNumber := some (str% "1700\\d{6}"), possibleLength := [10], example? := some (str% "1700123456") },
    id := some (str% "PS"),
    countryCode := some 970,
    internationalPrefix := some (str% "00"),
    nationalPrefix := some (str% "0"),
    formats := [
      { pattern := some (str% "(\\d)(\\d{3})(\\d{4})"), format := some (str% "$1 $2 $3"), leadingDigits := [str% "[2489]"], nationalPrefixFormattingRule := some (str% "$NP$FG") },
      { pattern := some (str% "(\\d{3})(\\d{3})(\\d{3})"), format := some (str% "$1 $2 $3"), leadingDigits := [str% "5"], nationalPrefixFormattingRule := some (str% "$NP$FG") },
      { pattern := some (str% "(\\d{4})(\\d{3})(\\d{3})"), format := some (str% "$1 $2 $3"), leadingDigits := [str% "1"] }],
    internationalFormats := [
      { pattern := some (str% "(\\d)(\\d{3})(\\d{4})"), format := some (str% "$1 $2 $3"), leadingDigits := [str% "[2489]"], nationalPrefixFormattingRule := some (str% "$NP$FG") },
      { pattern := some (str% "(\\d{3})(\\d{3})(\\d{3})"), format := some (str% "$1 $2 $3"), leadingDigits := [str% "5"], nationalPrefixFormattingRule := some (str% "$NP$FG") },
      { pattern := some (str% "(\\d{4})(\\d{3})(\\d{3})"), format := some (str% "$1 $2 $3"), leadingDigits := [str% "1"] }] }

/-- territory id=PT countryCode=351 -/
noncomputable def PT : Loader.Metadata :=
  { general := some { nationalNumber := some (str% "\n          1693\\d{5}|\n          (?:\n            [26-9]\\d|\n            30\n          )\\d{7}\n        ") },
    fixedLine := some { nationalNumber := some (str% "\n          2(?:\n            [12]\\d|\n            3[1-689]|\n            4[1-59]|\n            [57][1-9]|\n            6[1-35689]|\n            8[1-69]|\n            9[1256]\n          )\\d{6}\n        "), possibleLength := [9], example? := some (str% "212345678") },
    mobile := some { nationalNumber := some (str% "\n          6(?:\n            [06]92(?:\n              30|\n              9\\d\n            )|\n            [35]92(?:\n              [049]\\d|\n              3[034]\n            )\n          )\\d{3}|\n          (?:\n            (?:\n              16|\n              6[0356]\n            )93|\n            9(?:\n              [1-36]\\d\\d|\n              480\n            )\n          )\\d{5}\n        "), possibleLength := [9], example? := some (str% "912345678") },
    tollFree := some { nationalNumber := some (str% "80[02]\\d{6}"), possibleLength := [9], example? := some (str% "800123456") },
    premiumRate := some { nationalNumber := some (str% "\n          (?:\n            6(?:\n              0[178]|\n              4[68]\n            )\\d|\n            76(?:\n              0[1-57]|\n              1[2-47]|\n              2[237]\n            )\n          )\\d{5}\n        "), possibleLength := [9], example? := some (str% "760123456") },
    sharedCost := some { nationalNumber := some (str% "\n          80(?:\n            8\\d|\n            9[1579]\n          )\\d{5}\n        "), possibleLength := [9], example? := some (str% "808123456") },
    personalNumber := some { nationalNumber := some (str% "884[0-4689]\\d{5}"), possibleLength := [9], example? := some (str% "884123456") },
    voip := some { nationalNumber := some (str% "30\\d{7}"), possibleLength := [9], example? := some (str% "301234567") },
    pager := some { nationalNumber := some (str% "\n          6(?:\n            222\\d|\n            89(?:\n              00|\n              88|\n              99\n            )\n          )\\d{4}\n        "), possibleLength := [9], example? := some (str% "622212345") },
    uan := some { nationalNumber := some (str% "\n          70(?:\n            38[01]|\n            596|\n            (?:\n              7\\d|\n              8[17]\n            )\\d\n          )\\d{4}\n        "), possibleLength := [9], example? := some (str% "707123456") },
    voicemail := some { nationalNumber := some (str% "\n          600\\d{6}|\n          6[06]92(?:\n            0\\d|\n            3[349]|\n            49\n          )\\d{3}\n        "), possibleLength := [9], example? := some (str% "600110000") },
    id := some (str% "PT"),
    countryCode := some 351,
    internationalPrefix := some (str% "00"),
    formats := [
      { pattern := some (str% "(\\d{2})(\\d{3})(\\d{4})"), format := some (str% "$1 $2 $3"), leadingDigits := [str% "2[12]"] },
      { pattern := some (str% "(\\d{3})(\\d{3})(\\d{3})"), format := some (str% "$1 $2 $3"), leadingDigits := [str% "\n            16|\n            [236-9]\n          "] }],
    internationalFormats := [
      { pattern := some (str% "(\\d{2})(\\d{3})(\\d{4})"), format := some (str% "$1 $2 $3"), leadingDigits := [str% "2[12]"] },
      { pattern := some (str% "(\\d{3})(\\d{3})(\\d{3})"), format := some (str% "$1 $2 $3"), leadingDigits := [str% "\n            16|\n            [236-9]\n          "] }],
    mobileNumberPortable := true }

/-- territory id=PW countryCode=680 -/
noncomputable def PW : Loader.Metadata :=
  { general := some { nationalNumber := some (str% "\n          (?:\n            [24-8]\\d\\d|\n            345|\n            900\n          )\\d{4}\n        ") },
    fixedLine := some { nationalNumber := some (str% "\n          (?:\n            2(?:\n              55|\n              77\n            )|\n            345|\n            488|\n            5(?:\n              35|\n              44|\n              87\n            )|\n            6(?:\n              22|\n              54|\n              79\n            )|\n            7(?:\n              33|\n              47\n            )|\n            8(?:\n              24|\n              55|\n              76\n            )|\n            900\n          )\\d{4}\n        "), possibleLength := [7], example? := some (str% "2771234") },
    mobile := some { nationalNumber := some (str% "\n          (?:\n            (?:\n              46|\n              83\n            )[0-5]|\n            (?:\n              6[2-4689]|\n              78\n            )0\n          )\\d{4}|\n          (?:\n            45|\n            77|\n            88\n          )\\d{5}\n        "), possibleLength := [7], example? := some (str% "6201234") },
    id := some (str% "PW"),
    countryCode := some 680,
    internationalPrefix := some (str% "01[12]"),
    formats := [
      { pattern := some (str% "(\\d{3})(\\d{4})"), format := some (str% "$1 $2"), leadingDigits := [str% "[2-9]"] }],
    internationalFormats := [
      { pattern := some (str% "(\\d{3})(\\d{4})"), format := some (str% "$1 $2"), leadingDigits := [str% "[2-9]"] }] }

/-- territory id=PY countryCode=595 -/
noncomputable def PY : Loader.Metadata :=
  { general := some { nationalNumber := some (str% "\n          [36-8]\\d{5,8}|\n          4\\d{6,8}|\n          59\\d{6}|\n          9\\d{5,10}|\n          (?:\n            2\\d|\n            5[0-8]\n          )\\d{6,7}\n        ") },
    fixedLine := some { nationalNumber := some (str% "\n          (?:\n            3[289]|\n            4[246-8]|\n            61|\n            7[1-3]|\n            8[1-36]\n          )\\d{5,7}|\n          (?:\n            2(?:\n              [14-68]\\d|\n              2[4-68]|\n              7[15]|\n              9[1-5]\n            )|\n            3(?:\n              18|\n              3[167]|\n              4[2357]|\n              51|\n              [67]\\d\n            )|\n            4(?:\n              1\\d|\n              3[12]|\n              5[13]|\n              9[1-47]\n            )|\n            5(?:\n              [1-4]\\d|\n              5[02-4]\n            )|\n            6(?:\n              3[1-3]|\n              44|\n              7[1-8]\n            )|\n            7(?:\n              4[0-4]|\n              5\\d|\n              6[1-578]|\n              75|\n              8[0-8]\n            )|\n            858\n          )\\d{5,6}\n        "), possibleLength := [7, 8, 9], possibleLocalLength := [5, 6], example? := some (str% "212345678") },
    mobile := some { nationalNumber := some (str% "\n          9(?:\n            51|\n            6[129]|\n            7[1-6]|\n            8[1-7]|\n            9[1-5]\n          )\\d{6}\n        "), possibleLength := [9], example? := some (str% "961456789") },
    tollFree := some { nationalNumber := some (str% "9800\\d{5,7}"), possibleLength := [9, 10, 11], example? := some (str% "98000123456") },
    voip := some { nationalNumber := some (str% "8700[0-4]\\d{4}"), possibleLength := [9], example? := some (str% "870012345") },
    uan := some { nationalNumber := some (str% "\n          [245]0\\d{6,7}|\n          [36-9]0\\d{4,7}\n        "), possibleLength := [6, 7, 8, 9], example? := some (str% "201234567") },
    id := some (str% "PY"),
    countryCode := some 595,
    internationalPrefix := some (str% "00"),
    nationalPrefix := some (str% "0"),
    formats := [
      { pattern := some (str% "(\\d{6,7})"), format := some (str% "$1"), leadingDigits := [str% "\n            [125]|\n            4[01]\n          "] },
      { pattern := some (str% "(\\d{3})(\\d{3,6})"), format := some (str% "$1 $2"), leadingDigits := [str% "[2-9]0"], nationalPrefixFormattingRule := some (str% "$NP$FG") },
      { pattern := some (str% "(\\d{2})(\\d{5})"), format := some (str% "$1 $2"), leadingDigits := [str% "\n            3[289]|\n            4[246-8]|\n            61|\n            7[1-3]|\n            8[1-36]\n          "], nationalPrefixFormattingRule := some (str% "($NP$FG)") },
      { pattern := some (str% "(\\d{3})(\\d{4,5})"), format := some (str% "$1 $2"), leadingDigits := [str% "\n            2[279]|\n            3[13-5]|\n            4[359]|\n            5|\n            6(?:\n              [34]|\n              7[1-46-8]\n            )|\n            7[46-8]|\n            85\n          "], nationalPrefixFormattingRule := some (str% "($NP$FG)") },
      { pattern := some (str% "(\\d{2})(\\d{3})(\\d{3,4})"), format := some (str% "$1 $2 $3"), leadingDigits := [str% "\n            2[14-68]|\n            3[26-9]|\n            4[1246-8]|\n            6(?:\n              1|\n              75\n            )|\n            7[1-35]|\n            8[1-36]\n          "], nationalPrefixFormattingRule := some (str% "($NP$FG)") },
      { pattern := some (str% "(\\d{2})(\\d{3})(\\d{4})"), format := some (str% "$1 $2 $3"), leadingDigits := [str% "87"] },
      { pattern := some (str% "(\\d{3})(\\d{6})"), format := some (str% "$1 $2"), leadingDigits := [str% "\n            9(?:\n              [5-79]|\n              8[1-7]\n            )\n          "], nationalPrefixFormattingRule := some (str% "$NP$FG") },
      { pattern := some (str% "(\\d{3})(\\d{3})(\\d{3})"), format := some (str% "$1 $2 $3"), leadingDigits := [str% "[2-8]"], nationalPrefixFormattingRule := some (str% "$NP$FG") },
      { pattern := some (str% "(\\d{4})(\\d{3})(\\d{4})"), format := some (str% "$1 $2 $3"), leadingDigits := [str% "9"] }],
    internationalFormats := [
      { pattern := some (str% "(\\d{3})(\\d{3,6})"), format := some (str% "$1 $2"), leadingDigits := [str% "[2-9]0"], nationalPrefixFormattingRule := some (str% "$NP$FG") },
      { pattern := some (str% "(\\d{2})(\\d{5})"), format := some (str% "$1 $2"), leadingDigits := [str% "\n            3[289]|\n            4[246-8]|\n            61|\n            7[1-3]|\n            8[1-36]\n          "], nationalPrefixFormattingRule := some (str% "($NP$FG)") },
      { pattern := some (str% "(\\d{3})(\\d{4,5})"), format := some (str% "$1 $2"), leadingDigits := [str% "\n            2[279]|\n            3[13-5]|\n            4[359]|\n            5|\n            6(?:\n              [34]|\n              7[1-46-8]\n            )|\n            7[46-8]|\n            85\n          "], nationalPrefixFormattingRule := some (str% "($NP$FG)") },
      { pattern := some (str% "(\\d{2})(\\d{3})(\\d{3,4})"), format := some (str% "$1 $2 $3"), leadingDigits := [str% "\n            2[14-68]|\n            3[26-9]|\n            4[1246-8]|\n            6(?:\n              1|\n              75\n            )|\n            7[1-35]|\n            8[1-36]\n          "], nationalPrefixFormattingRule := some (str% "($NP$FG)") },
      { pattern := some (str% "(\\d{2})(\\d{3})(\\d{4})"), format := some (str% "$1 $2 $3"), leadingDigits := [str% "87"] },
      { pattern := some (str% "(\\d{3})(\\d{6})"), format := some (str% "$1 $2"), leadingDigits := [str% "\n            9(?:\n              [5-79]|\n              8[1-7]\n            )\n          "], nationalPrefixFormattingRule := some (str% "$NP$FG") },
      { pattern := some (str% "(\\d{3})(\\d{3})(\\d{3})"), format := some (str% "$1 $2 $3"), leadingDigits := [str% "[2-8]"], nationalPrefixFormattingRule := some (str% "$NP$FG") },
      { pattern := some (str% "(\\d{4})(\\d{3})(\\d{4})"), format := some (str% "$1 $2 $3"), leadingDigits := [str% "9"] }],
    mobileNumberPortable := true }

/-- territory id=QA countryCode=974 -/
noncomputable def QA : Loader.Metadata :=
  { general := some { nationalNumber := some (str% "\n          800\\d{4}|\n          (?:\n            2|\n            800\n          )\\d{6}|\n          (?:\n            0080|\n            [3-7]\n          )\\d{7}\n        ") },
    fixedLine := some { nationalNumber := some (str% "\n          4(?:\n            (?:\n              [014]\\d\\d|\n              999\n            )\\d|\n            2022\n          )\\d{3}\n        "), possibleLength := [8], example? := some (str% "44123456") },
    mobile := some { nationalNumber := some (str% "[35-7]\\d{7}"), possibleLength := [8], example? := some (str% "33123456") },
    tollFree := some { nationalNumber := some (str% "\n          800\\d{4}|\n          (?:\n            0080[01]|\n            800\n          )\\d{6}\n        "), possibleLength := [7, 9, 11], example? := some (str% "8001234") },
    pager := some { nationalNumber := some (str% "2[136]\\d{5}"), possibleLength := [7], example? := some (str% "2123456") },
    id := some (str% "QA"),
    countryCode := some 974,
    internationalPrefix := some (str% "00"),
    formats := [
      { pattern := some (str% "(\\d{3})(\\d{4})"), format := some (str% "$1 $2"), leadingDigits := [str% "\n            2[136]|\n            8\n          "] },
      { pattern := some (str% "(\\d{4})(\\d{4})"), format := some (str% "$1 $2"), leadingDigits := [str% "[3-7]"] }],
    internationalFormats := [
      { pattern := some (str% "(\\d{3})(\\d{4})"), format := some (str% "$1 $2"), leadingDigits := [str% "\n            2[136]|\n            8\n          "] },
      { pattern := some (str% "(\\d{4})(\\d{4})"), format := some (str% "$1 $2"), leadingDigits := [str% "[3-7]"] }],
    mobileNumberPortable := true }

/-- territory id=RE countryCode=262 -/
noncomputable def RE : Loader.Metadata :=
  { general := some { nationalNumber := some (str% "\n          709\\d{6}|\n          (?:\n            26|\n            [689]\\d\n          )\\d{7}\n        ") },
    fixedLine := some { nationalNumber := some (str% "\n          2631[0-6]\\d{4}|\n          26(?:\n            2\\d|\n            30|\n            88\n          )\\d{5}\n        "), possibleLength := [9], example? := some (str% "262161234") },
    mobile := some { nationalNumber := some (str% "\n          (?:\n            69(?:\n              2\\d\\d|\n              3(?:\n                [06][0-6]|\n                1[0-3]|\n                2[0-2]|\n                3[0-39]|\n                4\\d|\n                5[0-5]|\n                7[0-37]|\n                8[0-8]|\n                9[0-479]\n              )\n            )|\n            7092[0-3]\n          )\\d{4}\n        "), possibleLength := [9], example? := some (str% "692123456") },
    tollFree := some { nationalNumber := some (str% "80\\d{7}"), possibleLength := [9], example? := some (str% "801234567") },
    premiumRate := some { nationalNumber := some (str% "89[1-37-9]\\d{6}"), possibleLength := [9], example? := some (str% "891123456") },
    sharedCost := some { nationalNumber := some (str% "\n          8(?:\n            1[019]|\n            2[0156]|\n            84|\n            90\n          )\\d{6}\n        "), possibleLength := [9], example? := some (str% "810123456") },
    voip := some { nationalNumber := some (str% "\n          9(?:\n            399[0-3]|\n            479[0-6]|\n            76(?:\n              2[278]|\n              3[0-37]\n            )\n          )\\d{4}\n        "), possibleLength := [9], example? := some (str% "939901234") },
    id := some (str% "RE"),
    countryCode := some 262,
    internationalPrefix := some (str% "00"),
    nationalPrefix := some (str% "0"),
    formats := [
      { pattern := some (str% "(\\d{3})(\\d{2})(\\d{2})(\\d{2})"), format := some (str% "$1 $2 $3 $4"), leadingDigits := [str% "[26-9]"], nationalPrefixFormattingRule := some (str% "$NP$FG") }],
    internationalFormats := [
      { pattern := some (str% "(\\d{3})(\\d{2})(\\d{2})(\\d{2})"), format := some (str% "$1 $2 $3 $4"), leadingDigits := [str% "[26-9]"], nationalPrefixFormattingRule := some (str% "$NP$FG") }],
    mainCountryForCode := true }

/-- territory id=RO countryCode=40 -/
noncomputable def RO : Loader.Metadata :=
  { general := some { nationalNumber := some (str% "\n          (?:\n            [236-8]\\d|\n            90\n          )\\d{7}|\n          [23]\\d{5}\n        ") },
    fixedLine := some { nationalNumber := some (str% "\n          [23][13-6]\\d{7}|\n          (?:\n            2(?:\n              19\\d|\n              [3-6]\\d9\n            )|\n            31\\d\\d\n          )\\d\\d\n        "), possibleLength := [6, 9], example? := some (str% "211234567") },
    mobile := some { nationalNumber := some (str% "\n          (?:\n            630|\n            702\n          )0\\d{5}|\n          (?:\n            6(?:\n              00|\n              2\\d\n            )|\n            7(?:\n              0[013-9]|\n              1[0-3]|\n              [2-7]\\d|\n              8[03-8]|\n              9[0-39]\n            )\n          )\\d{6}\n        "), possibleLength := [9], example? := some (str% "712034567") },
    tollFree := some { nationalNumber := some (str% "800\\d{6}"), possibleLength := [9], example? := some (str% "800123456") },
    premiumRate := some { nationalNumber := some (str% "90[0136]\\d{6}"), possibleLength := [9], example? := some (str% "900123456") },
    sharedCost := some { nationalNumber := some (str% "801\\d{6}"), possibleLength := [9], example? := some (str% "801123456") },
    uan := some { nationalNumber := some (str% "\n          (?:\n            37\\d|\n            80[578]\n          )\\d{6}\n        "), possibleLength := [9], example? := some (str% "372123456") },
    id := some (str% "RO"),
    countryCode := some 40,
    internationalPrefix := some (str% "00"),
    nationalPrefix := some (str% "0"),
    preferredExtensionPrefix := some (str% " int "),
    formats := [
      { pattern := some (str% "(\\d{3})(\\d{3})"), format := some (str% "$1 $2"), leadingDigits := [str% "2[3-6]", str% "2[3-6]\\d9"], nationalPrefixFormattingRule := some (str% "$NP$FG") },
      { pattern := some (str% "(\\d{2})(\\d{4})"), format := some (str% "$1 $2"), leadingDigits := [str% "\n            219|\n            31\n          "], nationalPrefixFormattingRule := some (str% "$NP$FG") },
      { pattern := some (str% "(\\d{2})(\\d{3})(\\d{4})"), format := some (str% "$1 $2 $3"), leadingDigits := [str% "[23]1"], nationalPrefixFormattingRule := some (str% "$NP$FG") },
      { pattern := some (str% "(\\d{3})(\\d{3})(\\d{3})"), format := some (str% "$1 $2 $3"), leadingDigits := [str% "[236-9]"], nationalPrefixFormattingRule := some (str% "$NP$FG") }],
    internationalFormats := [
      { pattern := some (str% "(\\d{3})(\\d{3})"), format := some (str% "$1 $2"), leadingDigits := [str% "2[3-6]", str% "2[3-6]\\d9"], nationalPrefixFormattingRule := some (str% "$NP$FG") },
      { pattern := some (str% "(\\d{2})(\\d{4})"), format := some (str% "$1 $2"), leadingDigits := [str% "\n            219|\n            31\n          "], nationalPrefixFormattingRule := some (str% "$NP$FG") },
      { pattern := some (str% "(\\d{2})(\\d{3})(\\d{4})"), format := some (str% "$1 $2 $3"), leadingDigits := [str% "[23]1"], nationalPrefixFormattingRule := some (str% "$NP$FG") },
      { pattern := some (str% "(\\d{3})(\\d{3})(\\d{3})"), format := some (str% "$1 $2 $3"), leadingDigits := [str% "[236-9]"], nationalPrefixFormattingRule := some (str% "$NP$FG") }],
    mobileNumberPortable := true }

/-- territory id=RS countryCode=381 -/
noncomputable def RS : Loader.Metadata :=
  { general := some { nationalNumber := some (str% "\n          38[02-9]\\d{6,9}|\n          6\\d{7,9}|\n          90\\d{4,8}|\n          38\\d{5,6}|\n          (?:\n            7\\d\\d|\n            800\n          )\\d{3,9}|\n          (?:\n            [12]\\d|\n            3[0-79]\n          )\\d{5,10}\n        ") },
    fixedLine := some { nationalNumber := some (str% "\n          (?:\n            11[1-9]\\d|\n            (?:\n              2[389]|\n              39\n            )(?:\n              0[2-9]|\n              [2-9]\\d\n            )\n          )\\d{3,8}|\n          (?:\n            1[02-9]|\n            2[0-24-7]|\n            3[0-8]\n          )[2-9]\\d{4,9}\n        "), possibleLength := [7, 8, 9, 10, 11, 12], possibleLocalLength := [4, 5, 6], example? := some (str% "10234567") },
    mobile := some { nationalNumber := some (str% "\n          6(?:\n            [0-689]|\n            7\\d\n          )\\d{6,7}\n        "), possibleLength := [8, 9, 10], example? := some (str% "601234567") },
    tollFree := some { nationalNumber := some (str% "800\\d{3,9}"), possibleLength := [6, 7, 8, 9, 10, 11, 12], example? := some (str% "80012345") },
    premiumRate := some { nationalNumber := some (str% "\n          (?:\n            78\\d|\n            90[0169]\n          )\\d{3,7}\n        "), possibleLength := [6, 7, 8, 9, 10], example? := some (str% "90012345") },
    uan := some { nationalNumber := some (str% "7[06]\\d{4,10}"), possibleLength := [6, 7, 8, 9, 10, 11, 12], example? := some (str% "700123456") },
    id := some (str% "RS"),
    countryCode := some 381,
    internationalPrefix := some (str% "00"),
    nationalPrefix := some (str% "0"),
    formats := [
      { pattern := some (str% "(\\d{3})(\\d{3,9})"), format := some (str% "$1 $2"), leadingDigits := [str% "\n            (?:\n              2[389]|\n              39\n            )0|\n            [7-9]\n          "], nationalPrefixFormattingRule := some (str% "$NP$FG") },
      { pattern := some (str% "(\\d{2})(\\d{5,10})"), format := some (str% "$1 $2"), leadingDigits := [str% "[1-36]"], nationalPrefixFormattingRule := some (str% "$NP$FG") }],
    internationalFormats := [
      { pattern := some (str% "(\\d{3})(\\d{3,9})"), format := some (str% "$1 $2"), leadingDigits := [str% "\n            (?:\n              2[389]|\n              39\n            )0|\n            [7-9]\n          "], nationalPrefixFormattingRule := some (str% "$NP$FG") },
      { pattern := some (str% "(\\d{2})(\\d{5,10})"), format := some (str% "$1 $2"), leadingDigits := [str% "[1-36]"], nationalPrefixFormattingRule := some (str% "$NP$FG") }],
    mobileNumberPortable := true }

/-- territory id=RU countryCode=7 -/
noncomputable def RU : Loader.Metadata :=
  { general := some { nationalNumber := some (str% "\n          8\\d{13}|\n          [347-9]\\d{9}\n        ") },
    fixedLine := some { nationalNumber := some (str% "\n          (?:\n            3(?:\n              0[12]|\n              36|\n              4[1-35-79]|\n              5[1-3]|\n              65|\n              8[1-58]|\n              9[0145]\n            )|\n            4(?:\n              01|\n              1[1356]|\n              2[13467]|\n              7[1-5]|\n              8[1-7]|\n              9[1-689]\n            )|\n            8(?:\n              1[1-8]|\n              2[01]|\n              3[13-6]|\n              4[0-8]|\n              5[15-7]|\n              6[0-35-79]|\n              7[1-37-9]\n            )\n          )\\d{7}\n        "), possibleLength := [10], possibleLocalLength := [7], example? := some (str% "3011234567") },
    mobile := some { nationalNumber := some (str% "9\\d{9}"), possibleLength := [10], example? := some (str% "9123456789") },
    tollFree := some { nationalNumber := some (str% "\n          8(?:\n            0[04]|\n            108\\d{3}\n          )\\d{7}\n        "), possibleLength := [10, 14], example? := some (str% "8001234567") },
    premiumRate := some { nationalNumber := some (str% "80[39]\\d{7}"), possibleLength := [10], example? := some (str% "8091234567") },
    personalNumber := some { nationalNumber := some (str% "808\\d{7}"), possibleLength := [10], example? := some (str% "8081234567") },
    id := some (str% "RU"),
    countryCode := some 7,
    internationalPrefix := some (str% "810"),
    preferredInternationalPrefix := some (str% "8~10"),
    nationalPrefix := some (str% "8"),
    formats := [
      { pattern := some (str% "(\\d{3})(\\d{2})(\\d{2})"), format := some (str% "$1-$2-$3"), leadingDigits := [str% "[0-79]"] },
      { pattern := some (str% "(\\d{4})(\\d{2})(\\d{2})(\\d{2})"), format := some (str% "$1 $2 $3 $4"), leadingDigits := [str% "\n            7(?:\n              1[0-8]|\n              2[1-9]\n            )\n          ", str% "\n            7(?:\n              1(?:\n                [0-356]2|\n                4[29]|\n                7|\n                8[27]\n              )|\n              2(?:\n                1[23]|\n                [2-9]2\n              )\n            )\n          ", str% "\n            7(?:\n              1(?:\n                [0-356]2|\n                4[29]|\n                7|\n                8[27]\n              )|\n              2(?:\n                13[03-69]|\n                62[013-9]\n              )\n            )|\n            72[1-57-9]2\n          "], nationalPrefixFormattingRule := some (str% "$NP ($FG)"), nationalPrefixOptionalWhenFormatting := true },
      { pattern := some (str% "(\\d{5})(\\d)(\\d{2})(\\d{2})"), format := some (str% "$1 $2 $3 $4"), leadingDigits := [str% "\n            7(?:\n              1[0-68]|\n              2[1-9]\n            )\n          ", str% "\n            7(?:\n              1(?:\n                [06][3-6]|\n                [18]|\n                2[35]|\n                [3-5][3-5]\n              )|\n              2(?:\n                [13][3-5]|\n                [24-689]|\n                7[457]\n              )\n            )\n          ", str% "\n            7(?:\n              1(?:\n                0(?:\n                  [356]|\n                  4[023]\n                )|\n                [18]|\n                2(?:\n                  3[013-9]|\n                  5\n                )|\n                3[45]|\n                43[013-79]|\n                5(?:\n                  3[1-8]|\n                  4[1-7]|\n                  5\n                )|\n                6(?:\n                  3[0-35-9]|\n                  [4-6]\n                )\n              )|\n              2(?:\n                1(?:\n                  3[178]|\n                  [45]\n                )|\n                [24-689]|\n                3[35]|\n                7[457]\n              )\n            )|\n            7(?:\n              14|\n              23\n            )4[0-8]|\n            71(?:\n              33|\n              45\n            )[1-79]\n          "], nationalPrefixFormattingRule := some (str% "$NP ($FG)"), nationalPrefixOptionalWhenFormatting := true },
      { pattern := some (str% "(\\d{3})(\\d{3})(\\d{4})"), format := some (str% "$1 $2 $3"), leadingDigits := [str% "7"], nationalPrefixFormattingRule := some (str% "$NP ($FG)"), nationalPrefixOptionalWhenFormatting := true },
      { pattern := some (str% "(\\d{3})(\\d{3})(\\d{2})(\\d{2})"), format := some (str% "$1 $2-$3-$4"), leadingDigits := [str% "\n            [349]|\n            8(?:\n              [02-7]|\n              1[1-8]\n            )\n          "], nationalPrefixFormattingRule := some (str% "$NP ($FG)"), nationalPrefixOptionalWhenFormatting := true },
      { pattern := some (str% "(\\d{4})(\\d{4})(\\d{3})(\\d{3})"), format := some (str% "$1 $2 $3 $4"), leadingDigits := [str% "8"], nationalPrefixFormattingRule := some (str% "$NP ($FG)") }],
    internationalFormats := [
      { pattern := some (str% "(\\d{4})(\\d{2})(\\d{2})(\\d{2})"), format := some (str% "$1 $2 $3 $4"), leadingDigits := [str% "\n            7(?:\n              1[0-8]|\n              2[1-9]\n            )\n          ", str% "\n            7(?:\n              1(?:\n                [0-356]2|\n                4[29]|\n                7|\n                8[27]\n              )|\n              2(?:\n                1[23]|\n                [2-9]2\n              )\n            )\n          ", str% "\n            7(?:\n              1(?:\n                [0-356]2|\n                4[29]|\n                7|\n                8[27]\n              )|\n              2(?:\n                13[03-69]|\n                62[013-9]\n              )\n            )|\n            72[1-57-9]2\n          "], nationalPrefixFormattingRule := some (str% "$NP ($FG)"), nationalPrefixOptionalWhenFormatting := true },
      { pattern := some (str% "(\\d{5})(\\d)(\\d{2})(\\d{2})"), format := some (str% "$1 $2 $3 $4"), leadingDigits := [str% "\n            7(?:\n              1[0-68]|\n              2[1-9]\n            )\n          ", str% "\n            7(?:\n              1(?:\n                [06][3-6]|\n                [18]|\n                2[35]|\n                [3-5][3-5]\n              )|\n              2(?:\n                [13][3-5]|\n                [24-689]|\n                7[457]\n              )\n            )\n          ", str% "\n            7(?:\n              1(?:\n                0(?:\n                  [356]|\n                  4[023]\n                )|\n                [18]|\n                2(?:\n                  3[013-9]|\n                  5\n                )|\n                3[45]|\n                43[013-79]|\n                5(?:\n                  3[1-8]|\n                  4[1-7]|\n                  5\n                )|\n                6(?:\n                  3[0-35-9]|\n                  [4-6]\n                )\n              )|\n              2(?:\n                1(?:\n                  3[178]|\n                  [45]\n                )|\n                [24-689]|\n                3[35]|\n                7[457]\n              )\n            )|\n            7(?:\n              14|\n              23\n            )4[0-8]|\n            71(?:\n              33|\n              45\n            )[1-79]\n          "], nationalPrefixFormattingRule := some (str% "$NP ($FG)"), nationalPrefixOptionalWhenFormatting := true },
      { pattern := some (str% "(\\d{3})(\\d{3})(\\d{4})"), format := some (str% "$1 $2 $3"), leadingDigits := [str% "7"], nationalPrefixFormattingRule := some (str% "$NP ($FG)"), nationalPrefixOptionalWhenFormatting := true },
      { pattern := some (str% "(\\d{3})(\\d{3})(\\d{2})(\\d{2})"), format := some (str% "$1 $2-$3-$4"), leadingDigits := [str% "\n            [349]|\n            8(?:\n              [02-7]|\n              1[1-8]\n            )\n          "], nationalPrefixFormattingRule := some (str% "$NP ($FG)"), nationalPrefixOptionalWhenFormatting := true },
      { pattern := some (str% "(\\d{4})(\\d{4})(\\d{3})(\\d{3})"), format := some (str% "$1 $2 $3 $4"), leadingDigits := [str% "8"], nationalPrefixFormattingRule := some (str% "$NP ($FG)") }],
    mainCountryForCode := true,
    leadingDigits := some (str% "[3489]"),
    mobileNumberPortable := true }

/-- territory id=RW countryCode=250 -/
noncomputable def RW : Loader.Metadata :=
  { general := some { nationalNumber := some (str% "\n          (?:\n            06|\n            [27]\\d\\d|\n            [89]00\n          )\\d{6}\n        ") },
    fixedLine := some { nationalNumber := some (str% "\n          (?:\n            06|\n            2[23568]\\d\n          )\\d{6}\n        "), possibleLength := [8, 9], example? := some (str% "250123456") },
    mobile := some { nationalNumber := some (str% "7[237-9]\\d{7}"), possibleLength := [9], example? := some (str% "720123456") },
    tollFree := some { nationalNumber := some (str% "800\\d{6}"), possibleLength := [9], example? := some (str% "800123456") },
    premiumRate := some { nationalNumber := some (str% "900\\d{6}"), possibleLength := [9], example? := some (str% "900123456") },
    id := some (str% "RW"),
    countryCode := some 250,
    internationalPrefix := some (str% "00"),
    nationalPrefix := some (str% "0"),
    formats := [
      { pattern := some (str% "(\\d{2})(\\d{2})(\\d{2})(\\d{2})"), format := some (str% "$1 $2 $3 $4"), leadingDigits := [str% "0"] },
      { pattern := some (str% "(\\d{3})(\\d{3})(\\d{3})"), format := some (str% "$1 $2 $3"), leadingDigits := [str% "2"] },
      { pattern := some (str% "(\\d{3})(\\d{3})(\\d{3})"), format := some (str% "$1 $2 $3"), leadingDigits := [str% "[7-9]"], nationalPrefixFormattingRule := some (str% "$NP$FG") }],
    internationalFormats := [
      { pattern := some (str% "(\\d{2})(\\d{2})(\\d{2})(\\d{2})"), format := some (str% "$1 $2 $3 $4"), leadingDigits := [str% "0"] },
      { pattern := some (str% "(\\d{3})(\\d{3})(\\d{3})"), format := some (str% "$1 $2 $3"), leadingDigits := [str% "2"] },
      { pattern := some (str% "(\\d{3})(\\d{3})(\\d{3})"), format := some (str% "$1 $2 $3"), leadingDigits := [str% "[7-9]"], nationalPrefixFormattingRule := some (str% "$NP$FG") }] }

/-- territory id=SA countryCode=966 -/
noncomputable def SA : Loader.Metadata :=
  { general := some { nationalNumber := some (str% "\n          (?:\n            [15]\\d|\n            800|\n            92\n          )\\d{7}\n        ") },
    fixedLine := some { nationalNumber := some (str% "\n          1(?:\n            1\\d|\n            2[24-8]|\n            3[35-8]|\n            4[3-68]|\n            6[2-5]|\n            7[235-7]\n          )\\d{6}\n        "), possibleLength := [9], possibleLocalLength := [7], example? := some (str% "112345678") },
    mobile := some { nationalNumber := some (str% "\n          579[0-8]\\d{5}|\n          5(?:\n            [013-689]\\d|\n            7[0-8]\n          )\\d{6}\n        "), possibleLength := [9], example? := some (str% "512345678") },
    tollFree := some { nationalNumber := some (str% "800\\d{7}"), possibleLength := [10], example? := some (str% "8001234567") },
    premiumRate := some { nationalNumber := some (str% "925\\d{6}"), possibleLength := [9], example? := some (str% "925012345") },
    sharedCost := some { nationalNumber := some (str% "920\\d{6}"), possibleLength := [9], example? := some (str% "920012345") },
    id := some (str% "SA"),
    countryCode := some 966,
    internationalPrefix := some (str% "00"),
    nationalPrefix := some (str% "0"),
    formats := [
      { pattern := some (str% "(\\d{4})(\\d{5})"), format := some (str% "$1 $2"), leadingDigits := [str% "9"] },
      { pattern := some (str% "(\\d{2})(\\d{3})(\\d{4})"), format := some (str% "$1 $2 $3"), leadingDigits := [str% "1"], nationalPrefixFormattingRule := some (str% "$NP$FG") },
      { pattern := some (str% "(\\d{2})(\\d{3})(\\d{4})"), format := some (str% "$1 $2 $3"), leadingDigits := [str% "5"], nationalPrefixFormattingRule := some (str% "$NP$FG") },
      { pattern := some (str% "(\\d{3})(\\d{3})(\\d{4})"), format := some (str% "$1 $2 $3"), leadingDigits := [str% "8"] }],
    internationalFormats := [
      { pattern := some (str% "(\\d{4})(\\d{5})"), format := some (str% "$1 $2"), leadingDigits := [str% "9"] },
      { pattern := some (str% "(\\d{2})(\\d{3})(\\d{4})"), format := some (str% "$1 $2 $3"), leadingDigits := [str% "1"], nationalPrefixFormattingRule := some (str% "$NP$FG") },
      { pattern := some (str% "(\\d{2})(\\d{3})(\\d{4})"), format := some (str% "$1 $2 $3"), leadingDigits := [str% "5"], nationalPrefixFormattingRule := some (str% "$NP$FG") },
      { pattern := some (str% "(\\d{3})(\\d{3})(\\d{4})"), format := some (str% "$1 $2 $3"), leadingDigits := [str% "8"] }],
    mobileNumberPortable := true }

/-- territory id=SB countryCode=677 -/
noncomputable def SB : Loader.Metadata :=
  { general := some { nationalNumber := some (str% "\n          [6-9]\\d{6}|\n          [1-6]\\d{4}\n        ") },
    fixedLine := some { nationalNumber := some (str% "\n          (?:\n            1[4-79]|\n            [23]\\d|\n            4[0-2]|\n            5[03]|\n            6[0-37]\n          )\\d{3}\n        "), possibleLength := [5], example? := some (str% "40123") },
    mobile := some { nationalNumber := some (str% "\n          48\\d{3}|\n          (?:\n            (?:\n              6[89]|\n              7[1-9]|\n              8[4-9]\n            )\\d|\n            9(?:\n              1[2-9]|\n              2[013-9]|\n              3[0-2]|\n              [46]\\d|\n              5[0-46-9]|\n              7[0-689]|\n              8[0-79]|\n              9[0-8]\n            )\n          )\\d{4}\n        "), possibleLength := [5, 7], example? := some (str% "7421234") },
    tollFree := some { nationalNumber := some (str% "1[38]\\d{3}"), possibleLength := [5], example? := some (str% "18123") },
    voip := some { nationalNumber := some (str% "5[12]\\d{3}"), possibleLength := [5], example? := some (str% "51123") },
    id := some (str% "SB"),
    countryCode := some 677,
    internationalPrefix := some (str% "0[01]"),
    formats := [
      { pattern := some (str% "(\\d{2})(\\d{5})"), format := some (str% "$1 $2"), leadingDigits := [str% "\n            6[89]|\n            7|\n            8[4-9]|\n            9(?:\n              [1-8]|\n              9[0-8]\n            )\n          "] }],
    internationalFormats := [
      { pattern := some (str% "(\\d{2})(\\d{5})"), format := some (str% "$1 $2"), leadingDigits := [str% "\n            6[89]|\n            7|\n            8[4-9]|\n            9(?:\n              [1-8]|\n              9[0-8]\n            )\n          "] }] }

/-- territory id=SC countryCode=248 -/
noncomputable def SC : Loader.Metadata :=
  { general := some { nationalNumber := some (str% "\n          (?:\n            [2489]\\d|\n            64\n          )\\d{5}\n        ") },
    fixedLine := some { nationalNumber := some (str% "4[2-46]\\d{5}"), possibleLength := [7], example? := some (str% "4217123") },
    mobile := some { nationalNumber := some (str% "2[125-8]\\d{5}"), possibleLength := [7], example? := some (str% "2510123") },
    tollFree := some { nationalNumber := some (str% "800[08]\\d{3}"), possibleLength := [7], example? := some (str% "8000000") },
    premiumRate := some { nationalNumber := some (str% "85\\d{5}"), possibleLength := [7], example? := some (str% "8512345") },
    voip := some { nationalNumber := some (str% "\n          971\\d{4}|\n          (?:\n            64|\n            95\n          )\\d{5}\n        "), possibleLength := [7], example? := some (str% "6412345") },
    id := some (str% "SC"),
    countryCode := some 248,
    internationalPrefix := some (str% "010|0[0-2]"),
    preferredInternationalPrefix := some (str% "00"),
    formats := [
      { pattern := some (str% "(\\d)(\\d{3})(\\d{3})"), format := some (str% "$1 $2 $3"), leadingDigits := [str% "\n            [246]|\n            9[57]\n          "] }],
    internationalFormats := [
      { pattern := some (str% "(\\d)(\\d{3})(\\d{3})"), format := some (str% "$1 $2 $3"), leadingDigits := [str% "\n            [246]|\n            9[57]\n          "] }] }

/-- the territories of this module, in document order -/
noncomputable def chunk12 : List Loader.Metadata :=
  [PK, PL, PM, PR, PS, PT, PW, PY, QA, RE, RO, RS, RU, RW, SA, SB, SC]

end Phone.Data
