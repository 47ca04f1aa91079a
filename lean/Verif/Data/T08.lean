import Verif.Model.Database
/-! Territories of `/repo/assets/PhoneNumberMetadata.xml` as `/repo/src/metadata/loader.rs` reads them.
Generated by `tools/gen_data.py`; do not edit. -/

set_option maxRecDepth 100000
namespace Phone.Data

/-- territory id=JM countryCode=1 -/
noncomputable def JM : Loader.Metadata :=
  { general := some { nationalNumber := some (str% "\n          (?:\n            [58]\\d\\d|\n            658|\n            900\n          )\\d{7}\n        ") },
    fixedLine := some { nationalNumber := some (str% "\n          8766060\\d{3}|\n          (?:\n            658(?:\n              2(?:\n                [5-8]\\d|\n                9[0-46-9]\n              )|\n              [3-9]\\d\\d\n            )|\n            876(?:\n              52[35]|\n              6(?:\n                0[1-3579]|\n                1[0235-9]|\n                [23]\\d|\n                40|\n                5[06]|\n                6[2-589]|\n                7[0-25-9]|\n                8[04]|\n                9[4-9]\n              )|\n              7(?:\n                0[2-689]|\n                [1-6]\\d|\n                8[056]|\n                9[45]\n              )|\n              9(?:\n                0[1-8]|\n                1[02378]|\n                [2-8]\\d|\n                9[2-468]\n              )\n            )\n          )\\d{4}\n        "), possibleLength := [10], possibleLocalLength := [7], example? := some (str% "8765230123") },
    mobile := some { nationalNumber := some (str% "\n          (?:\n            6582(?:\n              [0-4]\\d|\n              95\n            )|\n            876(?:\n              2(?:\n                0[1-9]|\n                [13-9]\\d|\n                2[013-9]\n              )|\n              [348]\\d\\d|\n              5(?:\n                0[1-9]|\n                [1-9]\\d\n              )|\n              6(?:\n                4[89]|\n                6[67]\n              )|\n              7(?:\n                0[07]|\n                7\\d|\n                8[1-47-9]|\n                9[0-36-9]\n              )|\n              9(?:\n                [01]9|\n                9[0579]\n              )\n            )\n          )\\d{4}\n        "), possibleLength := [10], possibleLocalLength := [7], example? := some (str% "8762101234") },
    tollFree := some { nationalNumber := some (str% "\n          8(?:\n            00|\n            33|\n            44|\n            55|\n            66|\n            77|\n            88\n          )[2-9]\\d{6}\n        "), possibleLength := [10], example? := some (str% "8002123456") },
    premiumRate := some { nationalNumber := some (str% "900[2-9]\\d{6}"), possibleLength := [10], example? := some (str% "9002123456") },
    personalNumber := some { nationalNumber := some (str% "\n          52(?:\n            3(?:\n              [2-46-9][02-9]\\d|\n              5(?:\n                [02-46-9]\\d|\n                5[0-46-9]\n              )\n            )|\n            4(?:\n              [2-478][02-9]\\d|\n              5(?:\n                [034]\\d|\n                2[024-9]|\n                5[0-46-9]\n              )|\n              6(?:\n                0[1-9]|\n                [2-9]\\d\n              )|\n              9(?:\n                [05-9]\\d|\n                2[0-5]|\n                49\n              )\n            )\n          )\\d{4}|\n          52[34][2-9]1[02-9]\\d{4}|\n          5(?:\n            00|\n            2[125-9]|\n            3[23]|\n            44|\n            66|\n            77|\n            88\n          )[2-9]\\d{6}\n        "), possibleLength := [10], example? := some (str% "5002345678") },
    id := some (str% "JM"),
    countryCode := some 1,
    internationalPrefix := some (str% "011"),
    nationalPrefix := some (str% "1"),
    leadingDigits := some (str% "658|876"),
    mobileNumberPortable := true }

/-- territory id=JO countryCode=962 -/
noncomputable def JO : Loader.Metadata :=
  { general := some { nationalNumber := some (str% "\n          (?:\n            (?:\n              [2689]|\n              7\\d\n            )\\d|\n            32|\n            427|\n            53\n          )\\d{6}\n        ") },
    fixedLine := some { nationalNumber := some (str% "\n          87(?:\n            000|\n            90[01]\n          )\\d{3}|\n          (?:\n            2(?:\n              6(?:\n                2[0-35-9]|\n                3[0-578]|\n                4[24-7]|\n                5[0-24-8]|\n                [6-8][023]|\n                9[0-3]\n              )|\n              7(?:\n                0[1-79]|\n                10|\n                2[014-7]|\n                3[0-689]|\n                4[019]|\n                5[0-3578]\n              )\n            )|\n            32(?:\n              0[1-69]|\n              1[1-35-7]|\n              2[024-7]|\n              3\\d|\n              4[0-3]|\n              [5-7][023]\n            )|\n            53(?:\n              0[0-3]|\n              [13][023]|\n              2[0-59]|\n              49|\n              5[0-35-9]|\n              6[15]|\n              7[45]|\n              8[1-6]|\n              9[0-36-9]\n            )|\n            6(?:\n              2(?:\n                [05]0|\n                22\n              )|\n              3(?:\n                00|\n                33\n              )|\n              4(?:\n                0[0-25]|\n                1[2-7]|\n                2[0569]|\n                [38][07-9]|\n                4[025689]|\n                6[0-589]|\n                7\\d|\n                9[0-2]\n              )|\n              5(?:\n                [01][056]|\n                2[034]|\n                3[0-57-9]|\n                4[178]|\n                5[0-69]|\n                6[0-35-9]|\n                7[1-379]|\n                8[0-68]|\n                9[0239]\n              )\n            )|\n            87(?:\n              20|\n              7[078]|\n              99\n            )\n          )\\d{4}\n        "), possibleLength := [8], example? := some (str% "62001234") },
    mobile := some { nationalNumber := some (str% "\n          (?:\n            427|\n            7(?:\n              [78][0-25-9]|\n              9\\d\n            )\n          )\\d{6}\n        "), possibleLength := [9], example? := some (str% "790123456") },
    tollFree := some { nationalNumber := some (str% "80\\d{6}"), possibleLength := [8], example? := some (str% "80012345") },
    premiumRate := some { nationalNumber := some (str% "9\\d{7}"), possibleLength := [8], example? := some (str% "90012345") },
    sharedCost := some { nationalNumber := some (str% "85\\d{6}"), possibleLength := [8], example? := some (str% "85012345") },
    personalNumber := some { nationalNumber := some (str% "70\\d{7}"), possibleLength := [9], example? := some (str% "700123456") },
    pager := some { nationalNumber := some (str% "\n          74(?:\n            66|\n            77\n          )\\d{5}\n        "), possibleLength := [9], example? := some (str% "746612345") },
    uan := some { nationalNumber := some (str% "\n          8(?:\n            10|\n            8\\d\n          )\\d{5}\n        "), possibleLength := [8], example? := some (str% "88101234") },
    id := some (str% "JO"),
    countryCode := some 962,
    internationalPrefix := some (str% "00"),
    nationalPrefix := some (str% "0"),
    formats := [
      { pattern := some (str% "(\\d)(\\d{3})(\\d{4})"), format := some (str% "$1 $2 $3"), leadingDigits := [str% "\n            [2356]|\n            87\n          "], nationalPrefixFormattingRule := some (str% "($NP$FG)") },
      { pattern := some (str% "(\\d{3})(\\d{5,6})"), format := some (str% "$1 $2"), leadingDigits := [str% "[89]"], nationalPrefixFormattingRule := some (str% "$NP$FG") },
      { pattern := some (str% "(\\d{2})(\\d{7})"), format := some (str% "$1 $2"), leadingDigits := [str% "70"], nationalPrefixFormattingRule := some (str% "$NP$FG") },
      { pattern := some (str% "(\\d)(\\d{4})(\\d{4})"), format := some (str% "$1 $2 $3"), leadingDigits := [str% "[47]"], nationalPrefixFormattingRule := some (str% "$NP$FG") }],
    internationalFormats := [
      { pattern := some (str% "(\\d)(\\d{3})(\\d{4})"), format := some (str% "$1 $2 $3"), leadingDigits := [str% "\n            [2356]|\n            87\n          "], nationalPrefixFormattingRule := some (str% "($NP$FG)") },
      { pattern := some (str% "(\\d{3})(\\d{5,6})"), format := some (str% "$1 $2"), leadingDigits := [str% "[89]"], nationalPrefixFormattingRule := some (str% "$NP$FG") },
      { pattern := some (str% "(\\d{2})(\\d{7})"), format := some (str% "$1 $2"), leadingDigits := [str% "70"], nationalPrefixFormattingRule := some (str% "$NP$FG") },
      { pattern := some (str% "(\\d)(\\d{4})(\\d{4})"), format := some (str% "$1 $2 $3"), leadingDigits := [str% "[47]"], nationalPrefixFormattingRule := some (str% "$NP$FG") }],
    mobileNumberPortable := true }

/-- territory id=JP countryCode=81 -/
noncomputable def JP : Loader.Metadata :=
  { general := some { nationalNumber := some (str% "\n          00[1-9]\\d{6,14}|\n          [25-9]\\d{9}|\n          (?:\n            00|\n            [1-9]\\d\\d\n          )\\d{6}\n        ") },
    fixedLine := some { nationalNumber := some (str% "\n          (?:\n            1(?:\n              1[235-8]|\n              2[3-6]|\n              3[3-9]|\n              4[2-6]|\n              [58][2-8]|\n              6[2-7]|\n              7[2-9]|\n              9[1-9]\n            )|\n            (?:\n              2[2-9]|\n              [36][1-9]\n            )\\d|\n            4(?:\n              [2-578]\\d|\n              6[02-8]|\n              9[2-59]\n            )|\n            5(?:\n              [2-589]\\d|\n              6[1-9]|\n              7[2-8]\n            )|\n            7(?:\n              [25-9]\\d|\n              3[4-9]|\n              4[02-9]\n            )|\n            8(?:\n              [2679]\\d|\n              3[2-9]|\n              4[5-9]|\n              5[1-9]|\n              8[03-9]\n            )|\n            9(?:\n              [2-58]\\d|\n              [679][1-9]\n            )\n          )\\d{6}\n        "), possibleLength := [9], example? := some (str% "312345678") },
    mobile := some { nationalNumber := some (str% "[6-9]0[1-9]\\d{7}"), possibleLength := [10], example? := some (str% "9012345678") },
    tollFree := some { nationalNumber := some (str% "\n          00777(?:\n            [01]|\n            5\\d\n          )\\d\\d|\n          (?:\n            00(?:\n              7778|\n              882[1245]\n            )|\n            (?:\n              120|\n              800\\d\n            )\\d\\d\n          )\\d{4}|\n          00(?:\n            37|\n            66|\n            78\n          )\\d{6,13}\n        "), possibleLength := [8, 9, 10, 11, 12, 13, 14, 15, 16, 17], example? := some (str% "120123456") },
    premiumRate := some { nationalNumber := some (str% "990\\d{6}"), possibleLength := [9], example? := some (str% "990123456") },
    personalNumber := some { nationalNumber := some (str% "60\\d{7}"), possibleLength := [9], example? := some (str% "601234567") },
    voip := some { nationalNumber := some (str% "50[1-9]\\d{7}"), possibleLength := [10], example? := some (str% "5012345678") },
    pager := some { nationalNumber := some (str% "20\\d{8}"), possibleLength := [10], example? := some (str% "2012345678") },
    uan := some { nationalNumber := some (str% "570\\d{6}"), possibleLength := [9], example? := some (str% "570123456") },
    noInternational := some { nationalNumber := some (str% "\n          00(?:\n            777(?:\n              [01]|\n              (?:\n                5|\n                8\\d\n              )\\d\n            )|\n            882[1245]\\d\\d\n          )\\d\\d|\n          00(?:\n            37|\n            66|\n            78\n          )\\d{6,13}\n        "), possibleLength := [8, 9, 10, 11, 12, 13, 14, 15, 16, 17] },
    id := some (str% "JP"),
    countryCode := some 81,
    internationalPrefix := some (str% "010"),
    nationalPrefix := some (str% "0"),
    nationalPrefixForParsing := some (str% "(000[2569]\\d{4,6})$|(?:(?:003768)0?)|0"),
    nationalPrefixTransformRule := some (str% "$1"),
    formats := [
      { pattern := some (str% "(\\d{4})(\\d{4})"), format := some (str% "$1-$2"), leadingDigits := [str% "007", str% "0077", str% "00777", str% "00777[01]"] },
      { pattern := some (str% "(\\d{8,10})"), format := some (str% "$1"), leadingDigits := [str% "000"] },
      { pattern := some (str% "(\\d{3})(\\d{3})(\\d{3})"), format := some (str% "$1-$2-$3"), leadingDigits := [str% "\n            (?:\n              12|\n              57|\n              99\n            )0\n          "], nationalPrefixFormattingRule := some (str% "$NP$FG") },
      { pattern := some (str% "(\\d{4})(\\d)(\\d{4})"), format := some (str% "$1-$2-$3"), leadingDigits := [str% "\n            1(?:\n              26|\n              3[79]|\n              4[56]|\n              5[4-68]|\n              6[3-5]\n            )|\n            499|\n            5(?:\n              76|\n              97\n            )|\n            746|\n            8(?:\n              3[89]|\n              47|\n              51\n            )|\n            9(?:\n              80|\n              9[16]\n            )\n          ", str% "\n            1(?:\n              267|\n              3(?:\n                7[247]|\n                9[278]\n              )|\n              466|\n              5(?:\n                47|\n                58|\n                64\n              )|\n              6(?:\n                3[245]|\n                48|\n                5[4-68]\n              )\n            )|\n            499[2468]|\n            5(?:\n              76|\n              97\n            )9|\n            7468|\n            8(?:\n              3(?:\n                8[7-9]|\n                96\n              )|\n              477|\n              51[2-9]\n            )|\n            9(?:\n              802|\n              9(?:\n                1[23]|\n                69\n              )\n            )|\n            1(?:\n              45|\n              58\n            )[67]\n          ", str% "\n            1(?:\n              267|\n              3(?:\n                7[247]|\n                9[278]\n              )|\n              466|\n              5(?:\n                47|\n                58|\n                64\n              )|\n              6(?:\n                3[245]|\n                48|\n                5[4-68]\n              )\n            )|\n            499[2468]|\n            5(?:\n              769|\n              979[2-69]\n            )|\n            7468|\n            8(?:\n              3(?:\n                8[7-9]|\n                96[2457-9]\n              )|\n              477|\n              51[2-9]\n            )|\n            9(?:\n              802|\n              9(?:\n                1[23]|\n                69\n              )\n            )|\n            1(?:\n              45|\n              58\n            )[67]\n          "], nationalPrefixFormattingRule := some (str% "$NP$FG") },
      { pattern := some (str% "(\\d{2})(\\d{3})(\\d{4})"), format := some (str% "$1-$2-$3"), leadingDigits := [str% "60"], nationalPrefixFormattingRule := some (str% "$NP$FG") },
      { pattern := some (str% "(\\d)(\\d{4})(\\d{4})"), format := some (str% "$1-$2-$3"), leadingDigits := [str% "\n            3|\n            4(?:\n              2[09]|\n              7[01]\n            )|\n            6[1-9]\n          ", str% "\n            3|\n            4(?:\n              2(?:\n                0|\n                9[02-69]\n              )|\n              7(?:\n                0[019]|\n                1\n              )\n            )|\n            6[1-9]\n          "], nationalPrefixFormattingRule := some (str% "$NP$FG") },
      { pattern := some (str% "(\\d{2})(\\d{3})(\\d{4})"), format := some (str% "$1-$2-$3"), leadingDigits := [str% "\n            1(?:\n              1|\n              5[45]|\n              77|\n              88|\n              9[69]\n            )|\n            2(?:\n              2[1-37]|\n              3[0-269]|\n              4[59]|\n              5|\n              6[24]|\n              7[1-358]|\n              8[1369]|\n              9[0-38]\n            )|\n            4(?:\n              [28][1-9]|\n              3[0-57]|\n              [45]|\n              6[248]|\n              7[2-579]|\n              9[29]\n            )|\n            5(?:\n              2|\n              3[0459]|\n              4[0-369]|\n              5[29]|\n              8[02389]|\n              9[0-389]\n            )|\n            7(?:\n              2[02-46-9]|\n              34|\n              [58]|\n              6[0249]|\n              7[57]|\n              9[2-6]\n            )|\n            8(?:\n              2[124589]|\n              3[26-9]|\n              49|\n              51|\n              6|\n              7[0-468]|\n              8[68]|\n              9[019]\n            )|\n            9(?:\n              [23][1-9]|\n              4[15]|\n              5[138]|\n              6[1-3]|\n              7[156]|\n              8[189]|\n              9[1-489]\n            )\n          ", str% "\n            1(?:\n              1|\n              5(?:\n                4[018]|\n                5[017]\n              )|\n              77|\n              88|\n              9[69]\n            )|\n            2(?:\n              2(?:\n                [127]|\n                3[014-9]\n              )|\n              3[0-269]|\n              4[59]|\n              5(?:\n                [1-3]|\n                5[0-69]|\n                9[19]\n              )|\n              62|\n              7(?:\n                [1-35]|\n                8[0189]\n              )|\n              8(?:\n                [16]|\n                3[0134]|\n                9[0-5]\n              )|\n              9(?:\n                [028]|\n                17\n              )\n            )|\n            4(?:\n              2(?:\n                [13-79]|\n                8[014-6]\n              )|\n              3[0-57]|\n              [45]|\n              6[248]|\n              7[2-47]|\n              8[1-9]|\n              9[29]\n            )|\n            5(?:\n              2|\n              3(?:\n                [045]|\n                9[0-8]\n              )|\n              4[0-369]|\n              5[29]|\n              8[02389]|\n              9[0-3]\n            )|\n            7(?:\n              2[02-46-9]|\n              34|\n              [58]|\n              6[0249]|\n              7[57]|\n              9(?:\n                [23]|\n                4[0-59]|\n                5[01569]|\n                6[0167]\n              )\n            )|\n            8(?:\n              2(?:\n                [1258]|\n                4[0-39]|\n                9[0-2469]\n              )|\n              3(?:\n                [29]|\n                60\n              )|\n              49|\n              51|\n              6(?:\n                [0-24]|\n                36|\n                5[0-3589]|\n                7[23]|\n                9[01459]\n              )|\n              7[0-468]|\n              8[68]\n            )|\n            9(?:\n              [23][1-9]|\n              4[15]|\n              5[138]|\n              6[1-3]|\n              7[156]|\n              8[189]|\n              9(?:\n                [1289]|\n                3[34]|\n                4[0178]\n              )\n            )|\n            (?:\n              264|\n              837\n            )[016-9]|\n            2(?:\n              57|\n              93\n            )[015-9]|\n            (?:\n              25[0468]|\n              422|\n              838\n            )[01]|\n            (?:\n              47[59]|\n              59[89]|\n              8(?:\n                6[68]|\n                9\n              )\n            )[019]\n          ", str% "\n            1(?:\n              1|\n              5(?:\n                4[018]|\n                5[017]\n              )|\n              77|\n              88|\n              9[69]\n            )|\n            2(?:\n              2[127]|\n              3[0-269]|\n              4[59]|\n              5(?:\n                [1-3]|\n                5[0-69]|\n                9(?:\n                  17|\n                  99\n                )\n              )|\n              6(?:\n                2|\n                4[016-9]\n              )|\n              7(?:\n                [1-35]|\n                8[0189]\n              )|\n              8(?:\n                [16]|\n                3[0134]|\n                9[0-5]\n              )|\n              9(?:\n                [028]|\n                17\n              )\n            )|\n            4(?:\n              2(?:\n                [13-79]|\n                8[014-6]\n              )|\n              3[0-57]|\n              [45]|\n              6[248]|\n              7[2-47]|\n              9[29]\n            )|\n            5(?:\n              2|\n              3(?:\n                [045]|\n                9(?:\n                  [0-58]|\n                  6[4-9]|\n                  7[0-35689]\n                )\n              )|\n              4[0-369]|\n              5[29]|\n              8[02389]|\n              9[0-3]\n            )|\n            7(?:\n              2[02-46-9]|\n              34|\n              [58]|\n              6[0249]|\n              7[57]|\n              9(?:\n                [23]|\n                4[0-59]|\n                5[01569]|\n                6[0167]\n              )\n            )|\n            8(?:\n              2(?:\n                [1258]|\n                4[0-39]|\n                9[0169]\n              )|\n              3(?:\n                [29]|\n                60|\n                7(?:\n                  [017-9]|\n                  6[6-8]\n                )\n              )|\n              49|\n              51|\n              6(?:\n                [0-24]|\n                36[2-57-9]|\n                5(?:\n                  [0-389]|\n                  5[23]\n                )|\n                6(?:\n                  [01]|\n                  9[178]\n                )|\n                7(?:\n                  2[2-468]|\n                  3[78]\n                )|\n                9[0145]\n              )|\n              7[0-468]|\n              8[68]\n            )|\n            9(?:\n              4[15]|\n              5[138]|\n              7[156]|\n              8[189]|\n              9(?:\n                [1289]|\n                3(?:\n                  31|\n                  4[357]\n                )|\n                4[0178]\n              )\n            )|\n            (?:\n              8294|\n              96\n            )[1-3]|\n            2(?:\n              57|\n              93\n            )[015-9]|\n            (?:\n              223|\n              8699\n            )[014-9]|\n            (?:\n              25[0468]|\n              422|\n              838\n            )[01]|\n            (?:\n              48|\n              8292|\n              9[23]\n            )[1-9]|\n            (?:\n              47[59]|\n              59[89]|\n              8(?:\n                68|\n                9\n              )\n            )[019]\n          "], nationalPrefixFormattingRule := some (str% "$NP$FG") },
      { pattern := some (str% "(\\d{3})(\\d{2})(\\d{4})"), format := some (str% "$1-$2-$3"), leadingDigits := [str% "\n            [14]|\n            [289][2-9]|\n            5[3-9]|\n            7[2-4679]\n          "], nationalPrefixFormattingRule := some (str% "$NP$FG") },
      { pattern := some (str% "(\\d{4})(\\d{2})(\\d{3,4})"), format := some (str% "$1-$2-$3"), leadingDigits := [str% "007", str% "0077"] },
      { pattern := some (str% "(\\d{4})(\\d{2})(\\d{4})"), format := some (str% "$1-$2-$3"), leadingDigits := [str% "008"] },
      { pattern := some (str% "(\\d{3})(\\d{3})(\\d{4})"), format := some (str% "$1-$2-$3"), leadingDigits := [str% "800"], nationalPrefixFormattingRule := some (str% "$NP$FG") },
      { pattern := some (str% "(\\d{2})(\\d{4})(\\d{4})"), format := some (str% "$1-$2-$3"), leadingDigits := [str% "[25-9]"], nationalPrefixFormattingRule := some (str% "$NP$FG") },
      { pattern := some (str% "(\\d{4})(\\d{3})(\\d{3,4})"), format := some (str% "$1-$2-$3"), leadingDigits := [str% "0"] },
      { pattern := some (str% "(\\d{4})(\\d{4})(\\d{4,5})"), format := some (str% "$1-$2-$3"), leadingDigits := [str% "0"] },
      { pattern := some (str% "(\\d{4})(\\d{5})(\\d{5,6})"), format := some (str% "$1-$2-$3"), leadingDigits := [str% "0"] },
      { pattern := some (str% "(\\d{4})(\\d{6})(\\d{6,7})"), format := some (str% "$1-$2-$3"), leadingDigits := [str% "0"] }],
    internationalFormats := [
      { pattern := some (str% "(\\d{3})(\\d{3})(\\d{3})"), format := some (str% "$1-$2-$3"), leadingDigits := [str% "\n            (?:\n              12|\n              57|\n              99\n            )0\n          "], nationalPrefixFormattingRule := some (str% "$NP$FG") },
      { pattern := some (str% "(\\d{4})(\\d)(\\d{4})"), format := some (str% "$1-$2-$3"), leadingDigits := [str% "\n            1(?:\n              26|\n              3[79]|\n              4[56]|\n              5[4-68]|\n              6[3-5]\n            )|\n            499|\n            5(?:\n              76|\n              97\n            )|\n            746|\n            8(?:\n              3[89]|\n              47|\n              51\n            )|\n            9(?:\n              80|\n              9[16]\n            )\n          ", str% "\n            1(?:\n              267|\n              3(?:\n                7[247]|\n                9[278]\n              )|\n              466|\n              5(?:\n                47|\n                58|\n                64\n              )|\n              6(?:\n                3[245]|\n                48|\n                5[4-68]\n              )\n            )|\n            499[2468]|\n            5(?:\n              76|\n              97\n            )9|\n            7468|\n            8(?:\n              3(?:\n                8[7-9]|\n                96\n              )|\n              477|\n              51[2-9]\n            )|\n            9(?:\n              802|\n              9(?:\n                1[23]|\n                69\n              )\n            )|\n            1(?:\n              45|\n              58\n            )[67]\n          ", str% "\n            1(?:\n              267|\n              3(?:\n                7[247]|\n                9[278]\n              )|\n              466|\n              5(?:\n                47|\n                58|\n                64\n              )|\n              6(?:\n                3[245]|\n                48|\n                5[4-68]\n              )\n            )|\n            499[2468]|\n            5(?:\n              769|\n              979[2-69]\n            )|\n            7468|\n            8(?:\n              3(?:\n                8[7-9]|\n                96[2457-9]\n              )|\n              477|\n              51[2-9]\n            )|\n            9(?:\n              802|\n              9(?:\n                1[23]|\n                69\n              )\n            )|\n            1(?:\n              45|\n              58\n            )[67]\n          "], nationalPrefixFormattingRule := some (str% "$NP$FG") },
      { pattern := some (str% "(\\d{2})(\\d{3})(\\d{4})"), format := some (str% "$1-$2-$3"), leadingDigits := [str% "60"], nationalPrefixFormattingRule := some (str% "$NP$FG") },
      { pattern := some (str% "(\\d)(\\d{4})(\\d{4})"), format := some (str% "$1-$2-$3"), leadingDigits := [str% "\n            3|\n            4(?:\n              2[09]|\n              7[01]\n            )|\n            6[1-9]\n          ", str% "\n            3|\n            4(?:\n              2(?:\n                0|\n                9[02-69]\n              )|\n              7(?:\n                0[019]|\n                1\n              )\n            )|\n            6[1-9]\n          "], nationalPrefixFormattingRule := some (str% "$NP$FG") },
      { pattern := some (str% "(\\d{2})(\\d{3})(\\d{4})"), format := some (str% "$1-$2-$3"), leadingDigits := [str% "\n            1(?:\n              1|\n              5[45]|\n              77|\n              88|\n              9[69]\n            )|\n            2(?:\n              2[1-37]|\n              3[0-269]|\n              4[59]|\n              5|\n              6[24]|\n              7[1-358]|\n              8[1369]|\n              9[0-38]\n            )|\n            4(?:\n              [28][1-9]|\n              3[0-57]|\n              [45]|\n              6[248]|\n              7[2-579]|\n              9[29]\n            )|\n            5(?:\n              2|\n              3[0459]|\n              4[0-369]|\n              5[29]|\n              8[02389]|\n              9[0-389]\n            )|\n            7(?:\n              2[02-46-9]|\n              34|\n              [58]|\n              6[0249]|\n              7[57]|\n              9[2-6]\n            )|\n            8(?:\n              2[124589]|\n              3[26-9]|\n              49|\n              51|\n              6|\n              7[0-468]|\n              8[68]|\n              9[019]\n            )|\n            9(?:\n              [23][1-9]|\n              4[15]|\n              5[138]|\n              6[1-3]|\n              7[156]|\n              8[189]|\n              9[1-489]\n            )\n          ", str% "\n            1(?:\n              1|\n              5(?:\n                4[018]|\n                5[017]\n              )|\n              77|\n              88|\n              9[69]\n            )|\n            2(?:\n              2(?:\n                [127]|\n                3[014-9]\n              )|\n              3[0-269]|\n              4[59]|\n              5(?:\n                [1-3]|\n                5[0-69]|\n                9[19]\n              )|\n              62|\n              7(?:\n                [1-35]|\n                8[0189]\n              )|\n              8(?:\n                [16]|\n                3[0134]|\n                9[0-5]\n              )|\n              9(?:\n                [028]|\n                17\n              )\n            )|\n            4(?:\n              2(?:\n                [13-79]|\n                8[014-6]\n              )|\n              3[0-57]|\n              [45]|\n              6[248]|\n              7[2-47]|\n              8[1-9]|\n              9[29]\n            )|\n            5(?:\n              2|\n              3(?:\n                [045]|\n                9[0-8]\n              )|\n              4[0-369]|\n              5[29]|\n              8[02389]|\n              9[0-3]\n            )|\n            7(?:\n              2[02-46-9]|\n              34|\n              [58]|\n              6[0249]|\n              7[57]|\n              9(?:\n                [23]|\n                4[0-59]|\n                5[01569]|\n                6[0167]\n              )\n            )|\n            8(?:\n              2(?:\n                [1258]|\n                4[0-39]|\n                9[0-2469]\n              )|\n              3(?:\n                [29]|\n                60\n              )|\n              49|\n              51|\n              6(?:\n                [0-24]|\n                36|\n                5[0-3589]|\n                7[23]|\n                9[01459]\n              )|\n              7[0-468]|\n              8[68]\n            )|\n            9(?:\n              [23][1-9]|\n              4[15]|\n              5[138]|\n              6[1-3]|\n              7[156]|\n              8[189]|\n              9(?:\n                [1289]|\n                3[34]|\n                4[0178]\n              )\n            )|\n            (?:\n              264|\n              837\n            )[016-9]|\n            2(?:\n              57|\n              93\n            )[015-9]|\n            (?:\n              25[0468]|\n              422|\n              838\n            )[01]|\n            (?:\n              47[59]|\n              59[89]|\n              8(?:\n                6[68]|\n                9\n              )\n            )[019]\n          ", str% "\n            1(?:\n              1|\n              5(?:\n                4[018]|\n                5[017]\n              )|\n              77|\n              88|\n              9[69]\n            )|\n            2(?:\n              2[127]|\n              3[0-269]|\n              4[59]|\n              5(?:\n                [1-3]|\n                5[0-69]|\n                9(?:\n                  17|\n                  99\n                )\n              )|\n              6(?:\n                2|\n                4[016-9]\n              )|\n              7(?:\n                [1-35]|\n                8[0189]\n              )|\n              8(?:\n                [16]|\n                3[0134]|\n                9[0-5]\n              )|\n              9(?:\n                [028]|\n                17\n              )\n            )|\n            4(?:\n              2(?:\n                [13-79]|\n                8[014-6]\n              )|\n              3[0-57]|\n              [45]|\n              6[248]|\n              7[2-47]|\n              9[29]\n            )|\n            5(?:\n              2|\n              3(?:\n                [045]|\n                9(?:\n                  [0-58]|\n                  6[4-9]|\n                  7[0-35689]\n                )\n              )|\n              4[0-369]|\n              5[29]|\n              8[02389]|\n              9[0-3]\n            )|\n            7(?:\n              2[02-46-9]|\n              34|\n              [58]|\n              6[0249]|\n              7[57]|\n              9(?:\n                [23]|\n                4[0-59]|\n                5[01569]|\n                6[0167]\n              )\n            )|\n            8(?:\n              2(?:\n                [1258]|\n                4[0-39]|\n                9[0169]\n              )|\n              3(?:\n                [29]|\n                60|\n                7(?:\n                  [017-9]|\n                  6[6-8]\n                )\n              )|\n              49|\n              51|\n              6(?:\n                [0-24]|\n                36[2-57-9]|\n                5(?:\n                  [0-389]|\n                  5[23]\n                )|\n                6(?:\n                  [01]|\n                  9[178]\n                )|\n                7(?:\n                  2[2-468]|\n                  3[78]\n                )|\n                9[0145]\n              )|\n              7[0-468]|\n              8[68]\n            )|\n            9(?:\n              4[15]|\n              5[138]|\n              7[156]|\n              8[189]|\n              9(?:\n                [1289]|\n                3(?:\n                  31|\n                  4[357]\n                )|\n                4[0178]\n              )\n            )|\n            (?:\n              8294|\n              96\n            )[1-3]|\n            2(?:\n              57|\n              93\n            )[015-9]|\n            (?:\n              223|\n              8699\n            )[014-9]|\n            (?:\n              25[0468]|\n              422|\n              838\n            )[01]|\n            (?:\n              48|\n              8292|\n              9[23]\n            )[1-9]|\n            (?:\n              47[59]|\n              59[89]|\n              8(?:\n                68|\n                9\n              )\n            )[019]\n          "], nationalPrefixFormattingRule := some (str% "$NP$FG") },
      { pattern := some (str% "(\\d{3})(\\d{2})(\\d{4})"), format := some (str% "$1-$2-$3"), leadingDigits := [str% "\n            [14]|\n            [289][2-9]|\n            5[3-9]|\n            7[2-4679]\n          "], nationalPrefixFormattingRule := some (str% "$NP$FG") },
      { pattern := some (str% "(\\d{3})(\\d{3})(\\d{4})"), format := some (str% "$1-$2-$3"), leadingDigits := [str% "800"], nationalPrefixFormattingRule := some (str% "$NP$FG") },
      { pattern := some (str% "(\\d{2})(\\d{4})(\\d{4})"), format := some (str% "$1-$2-$3"), leadingDigits := [str% "[25-9]"], nationalPrefixFormattingRule := some (str% "$NP$FG") }],
    mobileNumberPortable := true }

/-- territory id=KE countryCode=254 -/
noncomputable def KE : Loader.Metadata :=
  { general := some { nationalNumber := some (str% "\n          (?:\n            [17]\\d\\d|\n            900\n          )\\d{6}|\n          (?:\n            2|\n            80\n          )0\\d{6,7}|\n          [4-6]\\d{6,8}\n        ") },
    fixedLine := some { nationalNumber := some (str% "\n          (?:\n            4[245]|\n            5[1-79]|\n            6[01457-9]\n          )\\d{5,7}|\n          (?:\n            4[136]|\n            5[08]|\n            62\n          )\\d{7}|\n          (?:\n            [24]0|\n            66\n          )\\d{6,7}\n        "), possibleLength := [7, 8, 9], example? := some (str% "202012345") },
    mobile := some { nationalNumber := some (str% "\n          (?:\n            1(?:\n              0[0-8]|\n              1\\d|\n              2[014]|\n              30|\n              4[0-5]\n            )|\n            7\\d\\d\n          )\\d{6}\n        "), possibleLength := [9], example? := some (str% "712123456") },
    tollFree := some { nationalNumber := some (str% "800[02-8]\\d{5,6}"), possibleLength := [9, 10], example? := some (str% "800223456") },
    premiumRate := some { nationalNumber := some (str% "900[02-9]\\d{5}"), possibleLength := [9], example? := some (str% "900223456") },
    id := some (str% "KE"),
    countryCode := some 254,
    internationalPrefix := some (str% "000"),
    nationalPrefix := some (str% "0"),
    formats := [
      { pattern := some (str% "(\\d{2})(\\d{5,7})"), format := some (str% "$1 $2"), leadingDigits := [str% "[24-6]"], nationalPrefixFormattingRule := some (str% "$NP$FG") },
      { pattern := some (str% "(\\d{3})(\\d{6})"), format := some (str% "$1 $2"), leadingDigits := [str% "[17]"], nationalPrefixFormattingRule := some (str% "$NP$FG") },
      { pattern := some (str% "(\\d{3})(\\d{3})(\\d{3,4})"), format := some (str% "$1 $2 $3"), leadingDigits := [str% "[89]"], nationalPrefixFormattingRule := some (str% "$NP$FG") }],
    internationalFormats := [
      { pattern := some (str% "(\\d{2})(\\d{5,7})"), format := some (str% "$1 $2"), leadingDigits := [str% "[24-6]"], nationalPrefixFormattingRule := some (str% "$NP$FG") },
      { pattern := some (str% "(\\d{3})(\\d{6})"), format := some (str% "$1 $2"), leadingDigits := [str% "[17]"], nationalPrefixFormattingRule := some (str% "$NP$FG") },
      { pattern := some (str% "(\\d{3})(\\d{3})(\\d{3,4})"), format := some (str% "$1 $2 $3"), leadingDigits := [str% "[89]"], nationalPrefixFormattingRule := some (str% "$NP$FG") }],
    mobileNumberPortable := true }

/-- territory id=KG countryCode=996 -/
noncomputable def KG : Loader.Metadata :=
  { general := some { nationalNumber := some (str% "\n          8\\d{9}|\n          [235-9]\\d{8}\n        ") },
    fixedLine := some { nationalNumber := some (str% "\n          312(?:\n            5[0-79]\\d|\n            9(?:\n              [0-689]\\d|\n              7[0-24-9]\n            )\n          )\\d{3}|\n          (?:\n            3(?:\n              1(?:\n                2[0-46-8]|\n                3[1-9]|\n                47|\n                [56]\\d\n              )|\n              2(?:\n                22|\n                3[0-479]|\n                6[0-7]\n              )|\n              4(?:\n                22|\n                5[6-9]|\n                6\\d\n              )|\n              5(?:\n                22|\n                3[4-7]|\n                59|\n                6\\d\n              )|\n              6(?:\n                22|\n                5[35-7]|\n                6\\d\n              )|\n              7(?:\n                22|\n                3[468]|\n                4[1-9]|\n                59|\n                [67]\\d\n              )|\n              9(?:\n                22|\n                4[1-8]|\n                6\\d\n              )\n            )|\n            6(?:\n              09|\n              12|\n              2[2-4]\n            )\\d\n          )\\d{5}\n        "), possibleLength := [9], possibleLocalLength := [5, 6], example? := some (str% "312123456") },
    mobile := some { nationalNumber := some (str% "\n          312(?:\n            58\\d|\n            973\n          )\\d{3}|\n          (?:\n            2(?:\n              0[0-35]|\n              2\\d\n            )|\n            5[0-24-7]\\d|\n            600|\n            7(?:\n              [07]\\d|\n              55\n            )|\n            88[08]|\n            9(?:\n              12|\n              9[05-9]\n            )\n          )\\d{6}\n        "), possibleLength := [9], example? := some (str% "700123456") },
    tollFree := some { nationalNumber := some (str% "800\\d{6,7}"), possibleLength := [9, 10], example? := some (str% "800123456") },
    id := some (str% "KG"),
    countryCode := some 996,
    internationalPrefix := some (str% "00"),
    nationalPrefix := some (str% "0"),
    formats := [
      { pattern := some (str% "(\\d{4})(\\d{5})"), format := some (str% "$1 $2"), leadingDigits := [str% "\n            3(?:\n              1[346]|\n              [24-79]\n            )\n          "], nationalPrefixFormattingRule := some (str% "$NP$FG") },
      { pattern := some (str% "(\\d{3})(\\d{3})(\\d{3})"), format := some (str% "$1 $2 $3"), leadingDigits := [str% "\n            [235-79]|\n            88\n          "], nationalPrefixFormattingRule := some (str% "$NP$FG") },
      { pattern := some (str% "(\\d{3})(\\d{3})(\\d)(\\d{2,3})"), format := some (str% "$1 $2 $3 $4"), leadingDigits := [str% "8"], nationalPrefixFormattingRule := some (str% "$NP$FG") }],
    internationalFormats := [
      { pattern := some (str% "(\\d{4})(\\d{5})"), format := some (str% "$1 $2"), leadingDigits := [str% "\n            3(?:\n              1[346]|\n              [24-79]\n            )\n          "], nationalPrefixFormattingRule := some (str% "$NP$FG") },
      { pattern := some (str% "(\\d{3})(\\d{3})(\\d{3})"), format := some (str% "$1 $2 $3"), leadingDigits := [str% "\n            [235-79]|\n            88\n          "], nationalPrefixFormattingRule := some (str% "$NP$FG") },
      { pattern := some (str% "(\\d{3})(\\d{3})(\\d)(\\d{2,3})"), format := some (str% "$1 $2 $3 $4"), leadingDigits := [str% "8"], nationalPrefixFormattingRule := some (str% "$NP$FG") }] }

/-- territory id=KH countryCode=855 -/
noncomputable def KH : Loader.Metadata :=
  { general := some { nationalNumber := some (str% "\n          1\\d{9}|\n          [1-9]\\d{7,8}\n        ") },
    fixedLine := some { nationalNumber := some (str% "\n          23(?:\n            4(?:\n              [2-4]|\n              [56]\\d\n            )|\n            [568]\\d\\d\n          )\\d{4}|\n          23[236-9]\\d{5}|\n          (?:\n            2[4-6]|\n            3[2-6]|\n            4[2-4]|\n            [5-7][2-5]\n          )(?:\n            (?:\n              [237-9]|\n              4[56]|\n              5\\d\n            )\\d{5}|\n            6\\d{5,6}\n          )\n        "), possibleLength := [8, 9], possibleLocalLength := [6, 7], example? := some (str% "23756789") },
    mobile := some { nationalNumber := some (str% "\n          (?:\n            (?:\n              1[28]|\n              3[18]|\n              9[67]\n            )\\d|\n            6[016-9]|\n            7(?:\n              [07-9]|\n              [16]\\d\n            )|\n            8(?:\n              [013-79]|\n              8\\d\n            )\n          )\\d{6}|\n          (?:\n            1\\d|\n            9[0-57-9]\n          )\\d{6}|\n          (?:\n            2[3-6]|\n            3[2-6]|\n            4[2-4]|\n            [5-7][2-5]\n          )48\\d{5}\n        "), possibleLength := [8, 9], example? := some (str% "91234567") },
    tollFree := some { nationalNumber := some (str% "\n          1800(?:\n            1\\d|\n            2[019]\n          )\\d{4}\n        "), possibleLength := [10], example? := some (str% "1800123456") },
    premiumRate := some { nationalNumber := some (str% "\n          1900(?:\n            1\\d|\n            2[09]\n          )\\d{4}\n        "), possibleLength := [10], example? := some (str% "1900123456") },
    id := some (str% "KH"),
    countryCode := some 855,
    internationalPrefix := some (str% "00[14-9]"),
    nationalPrefix := some (str% "0"),
    formats := [
      { pattern := some (str% "(\\d{2})(\\d{3})(\\d{3,4})"), format := some (str% "$1 $2 $3"), leadingDigits := [str% "[1-9]"], nationalPrefixFormattingRule := some (str% "$NP$FG") },
      { pattern := some (str% "(\\d{4})(\\d{3})(\\d{3})"), format := some (str% "$1 $2 $3"), leadingDigits := [str% "1"] }],
    internationalFormats := [
      { pattern := some (str% "(\\d{2})(\\d{3})(\\d{3,4})"), format := some (str% "$1 $2 $3"), leadingDigits := [str% "[1-9]"], nationalPrefixFormattingRule := some (str% "$NP$FG") },
      { pattern := some (str% "(\\d{4})(\\d{3})(\\d{3})"), format := some (str% "$1 $2 $3"), leadingDigits := [str% "1"] }] }

/-- territory id=KI countryCode=686 -/
noncomputable def KI : Loader.Metadata :=
  { general := some { nationalNumber := some (str% "\n          (?:\n            [37]\\d|\n            6[0-79]\n          )\\d{6}|\n          (?:\n            [2-48]\\d|\n            50\n          )\\d{3}\n        ") },
    fixedLine := some { nationalNumber := some (str% "\n          (?:\n            [24]\\d|\n            3[1-9]|\n            50|\n            65(?:\n              02[12]|\n              12[56]|\n              22[89]|\n              [3-5]00\n            )|\n            7(?:\n              27\\d\\d|\n              3100|\n              5(?:\n                02[12]|\n                12[56]|\n                22[89]|\n                [34](?:\n                  00|\n                  81\n                )|\n                500\n              )\n            )|\n            8[0-5]\n          )\\d{3}\n        "), possibleLength := [5, 8], example? := some (str% "31234") },
    mobile := some { nationalNumber := some (str% "\n          (?:\n            6200[01]|\n            7(?:\n              310[1-9]|\n              5(?:\n                02[03-9]|\n                12[0-47-9]|\n                22[0-7]|\n                [34](?:\n                  0[1-9]|\n                  8[02-9]\n                )|\n                50[1-9]\n              )\n            )\n          )\\d{3}|\n          (?:\n            63\\d\\d|\n            7(?:\n              (?:\n                [0146-9]\\d|\n                2[0-689]\n              )\\d|\n              3(?:\n                [02-9]\\d|\n                1[1-9]\n              )|\n              5(?:\n                [0-2][013-9]|\n                [34][1-79]|\n                5[1-9]|\n                [6-9]\\d\n              )\n            )\n          )\\d{4}\n        "), possibleLength := [8], example? := some (str% "72001234") },
    voip := some { nationalNumber := some (str% "\n          30(?:\n            0[01]\\d\\d|\n            12(?:\n              11|\n              20\n            )\n          )\\d\\d\n        "), possibleLength := [8], example? := some (str% "30010000") },
    id := some (str% "KI"),
    countryCode := some 686,
    internationalPrefix := some (str% "00"),
    nationalPrefix := some (str% "0") }

/-- territory id=KM countryCode=269 -/
noncomputable def KM : Loader.Metadata :=
  { general := some { nationalNumber := some (str% "[3478]\\d{6}") },
    fixedLine := some { nationalNumber := some (str% "7[4-7]\\d{5}"), possibleLength := [7], possibleLocalLength := [4], example? := some (str% "7712345") },
    mobile := some { nationalNumber := some (str% "[34]\\d{6}"), possibleLength := [7], example? := some (str% "3212345") },
    premiumRate := some { nationalNumber := some (str% "8\\d{6}"), possibleLength := [7], example? := some (str% "8001234") },
    id := some (str% "KM"),
    countryCode := some 269,
    internationalPrefix := some (str% "00"),
    formats := [
      { pattern := some (str% "(\\d{3})(\\d{2})(\\d{2})"), format := some (str% "$1 $2 $3"), leadingDigits := [str% "[3478]"] }],
    internationalFormats := [
      { pattern := some (str% "(\\d{3})(\\d{2})(\\d{2})"), format := some (str% "$1 $2 $3"), leadingDigits := [str% "[3478]"] }] }

/-- territory id=KN countryCode=1 -/
noncomputable def KN : Loader.Metadata :=
  { general := some { nationalNumber := some (str% "\n          (?:\n            [58]\\d\\d|\n            900\n          )\\d{7}\n        ") },
    fixedLine := some { nationalNumber := some (str% "\n          869(?:\n            2(?:\n              29|\n              36\n            )|\n            302|\n            4(?:\n              6[015-9]|\n              70\n            )|\n            56[5-7]\n          )\\d{4}\n        "), possibleLength := [10], possibleLocalLength := [7], example? := some (str% "8692361234") },
    mobile := some { nationalNumber := some (str% "\n          869(?:\n            48[89]|\n            55[6-8]|\n            66\\d|\n            76[02-7]\n          )\\d{4}\n        "), possibleLength := [10], possibleLocalLength := [7], example? := some (str% "8697652917") },
    tollFree := some { nationalNumber := some (str% "\n          8(?:\n            00|\n            33|\n            44|\n            55|\n            66|\n            77|\n            88\n          )[2-9]\\d{6}\n        "), possibleLength := [10], example? := some (str% "8002123456") },
    premiumRate := some { nationalNumber := some (str% "900[2-9]\\d{6}"), possibleLength := [10], example? := some (str% "9002123456") },
    personalNumber := some { nationalNumber := some (str% "\n          52(?:\n            3(?:\n              [2-46-9][02-9]\\d|\n              5(?:\n                [02-46-9]\\d|\n                5[0-46-9]\n              )\n            )|\n            4(?:\n              [2-478][02-9]\\d|\n              5(?:\n                [034]\\d|\n                2[024-9]|\n                5[0-46-9]\n              )|\n              6(?:\n                0[1-9]|\n                [2-9]\\d\n              )|\n              9(?:\n                [05-9]\\d|\n                2[0-5]|\n                49\n              )\n            )\n          )\\d{4}|\n          52[34][2-9]1[02-9]\\d{4}|\n          5(?:\n            00|\n            2[125-9]|\n            3[23]|\n            44|\n            66|\n            77|\n            88\n          )[2-9]\\d{6}\n        "), possibleLength := [10], example? := some (str% "5002345678") },
    id := some (str% "KN"),
    countryCode := some 1,
    internationalPrefix := some (str% "011"),
    nationalPrefix := some (str% "1"),
    nationalPrefixForParsing := some (str% "([2-7]\\d{6})$|1"),
    nationalPrefixTransformRule := some (str% "869$1"),
    leadingDigits := some (str% "869"),
    mobileNumberPortable := true }

/-- territory id=KP countryCode=850 -/
noncomputable def KP : Loader.Metadata :=
  { general := some { nationalNumber := some (str% "\n          85\\d{6}|\n          (?:\n            19\\d|\n            [2-7]\n          )\\d{7}\n        ") },
    fixedLine := some { nationalNumber := some (str% "\n          (?:\n            (?:\n              195|\n              2\n            )\\d|\n            3[19]|\n            4[159]|\n            5[37]|\n            6[17]|\n            7[39]|\n            85\n          )\\d{6}\n        "), possibleLength := [8, 10], possibleLocalLength := [6, 7], example? := some (str% "21234567") },
    mobile := some { nationalNumber := some (str% "19[1-3]\\d{7}"), possibleLength := [10], example? := some (str% "1921234567") },
    noInternational := some { nationalNumber := some (str% "\n          238[02-9]\\d{4}|\n          2(?:\n            [0-24-9]\\d|\n            3[0-79]\n          )\\d{5}\n        "), possibleLength := [8] },
    id := some (str% "KP"),
    countryCode := some 850,
    internationalPrefix := some (str% "00|99"),
    nationalPrefix := some (str% "0"),
    formats := [
      { pattern := some (str% "(\\d{2})(\\d{3})(\\d{3})"), format := some (str% "$1 $2 $3"), leadingDigits := [str% "8"], nationalPrefixFormattingRule := some (str% "$NP$FG") },
      { pattern := some (str% "(\\d)(\\d{3})(\\d{4})"), format := some (str% "$1 $2 $3"), leadingDigits := [str% "[2-7]"], nationalPrefixFormattingRule := some (str% "$NP$FG") },
      { pattern := some (str% "(\\d{3})(\\d{3})(\\d{4})"), format := some (str% "$1 $2 $3"), leadingDigits := [str% "1"], nationalPrefixFormattingRule := some (str% "$NP$FG") }],
    internationalFormats := [
      { pattern := some (str% "(\\d{2})(\\d{3})(\\d{3})"), format := some (str% "$1 $2 $3"), leadingDigits := [str% "8"], nationalPrefixFormattingRule := some (str% "$NP$FG") },
      { pattern := some (str% "(\\d)(\\d{3})(\\d{4})"), format := some (str% "$1 $2 $3"), leadingDigits := [str% "[2-7]"], nationalPrefixFormattingRule := some (str% "$NP$FG") },
      { pattern := some (str% "(\\d{3})(\\d{3})(\\d{4})"), format := some (str% "$1 $2 $3"), leadingDigits := [str% "1"], nationalPrefixFormattingRule := some (str% "$NP$FG") }] }

/-- the territories of this module, in document order -/
noncomputable def chunk08 : List Loader.Metadata :=
  [JM, JO, JP, KE, KG, KH, KI, KM, KN, KP]

end Phone.Data
