import Verif.Model.Database
/-! Territories of `/repo/assets/PhoneNumberMetadata.xml` as `/repo/src/metadata/loader.rs` reads them.
Generated by `tools/gen_data.py`; do not edit. -/

set_option maxRecDepth 100000
namespace Phone.Data

/-- territory id=IN countryCode=91 -/
noncomputable def IN : Loader.Metadata :=
  { general := some { nationalNumber := some (str% "\n          (?:\n            000800|\n            [2-9]\\d\\d\n          )\\d{7}|\n          1\\d{7,12}\n        ") },
    fixedLine := some { nationalNumber := some (str% "\n          (?:\n            2717(?:\n              [2-7]\\d|\n              95\n            )|\n            6828[235-7]\\d\n          )\\d{4}|\n          (?:\n            170[24]|\n            280[13468]|\n            4(?:\n              20[24]|\n              72[2-8]\n            )|\n            552[1-7]\n          )\\d{6}|\n          (?:\n            271[0-689]|\n            682[0-79]|\n            782[0-6]\n          )[2-7]\\d{5}|\n          (?:\n            2(?:\n              [02][2-79]|\n              90\n            )|\n            3(?:\n              23|\n              80\n            )|\n            683|\n            79[1-7]\n          )\\d{7}|\n          (?:\n            11|\n            33|\n            4[04]|\n            80\n          )[2-7]\\d{7}|\n          (?:\n            342|\n            674|\n            788\n          )(?:\n            [0189][2-7]|\n            [2-7]\\d\n          )\\d{5}|\n          (?:\n            1(?:\n              2[0-249]|\n              3[0-25]|\n              4[145]|\n              [59][14]|\n              6[014]|\n              7[1257]|\n              8[01346]\n            )|\n            2(?:\n              1[257]|\n              3[013]|\n              4[01]|\n              5[0137]|\n              6[0158]|\n              78|\n              8[1568]|\n              9[14]\n            )|\n            3(?:\n              26|\n              4[13]|\n              5[34]|\n              6[01489]|\n              7[02-46]|\n              8[159]\n            )|\n            4(?:\n              1[36]|\n              2[1-47]|\n              3[15]|\n              5[12]|\n              6[0-26-9]|\n              7[014-9]|\n              8[013-57]|\n              9[014-7]\n            )|\n            5(?:\n              1[025]|\n              22|\n              [36][25]|\n              4[28]|\n              [578]1|\n              9[15]\n            )|\n            6(?:\n              12|\n              [2-47]1|\n              5[17]|\n              6[13]|\n              80\n            )|\n            7(?:\n              12|\n              2[14]|\n              3[134]|\n              4[47]|\n              5[15]|\n              [67]1\n            )|\n            8(?:\n              16|\n              2[014]|\n              3[126]|\n              6[136]|\n              7[078]|\n              8[34]|\n              91\n            )\n          )[2-7]\\d{6}|\n          (?:\n            1(?:\n              2[35-8]|\n              3[346-9]|\n              4[236-9]|\n              [59][0235-9]|\n              6[235-9]|\n              7[34689]|\n              8[257-9]\n            )|\n            2(?:\n              1[134689]|\n              3[24-8]|\n              4[2-8]|\n              5[25689]|\n              6[2-4679]|\n              7[3-79]|\n              8[2-479]|\n              9[235-9]\n            )|\n            3(?:\n              01|\n              1[79]|\n              2[1245]|\n              4[5-8]|\n              5[125689]|\n              6[235-7]|\n              7[157-9]|\n              8[2-46-8]\n            )|\n            4(?:\n              1[14578]|\n              2[5689]|\n              3[2-467]|\n              5[4-7]|\n              6[35]|\n              73|\n              8[2689]|\n              9[2389]\n            )|\n            5(?:\n              [16][146-9]|\n              2[14-8]|\n              3[1346]|\n              4[14-69]|\n              5[46]|\n              7[2-4]|\n              8[2-8]|\n              9[246]\n            )|\n            6(?:\n              1[1358]|\n              2[2457]|\n              3[2-4]|\n              4[235-7]|\n              5[2-689]|\n              6[24578]|\n              7[235689]|\n              8[14-6]\n            )|\n            7(?:\n              1[013-9]|\n              2[0235-9]|\n              3[2679]|\n              4[1-35689]|\n              5[2-46-9]|\n              [67][02-9]|\n              8[013-7]|\n              9[089]\n            )|\n            8(?:\n              1[1357-9]|\n              2[235-8]|\n              3[03-57-9]|\n              4[0-24-9]|\n              5\\d|\n              6[2457-9]|\n              7[1-6]|\n              8[1256]|\n              9[2-4]\n            )\n          )\\d[2-7]\\d{5}\n        "), possibleLength := [10], possibleLocalLength := [6, 7, 8], example? := some (str% "7410410123") },
    mobile := some { nationalNumber := some (str% "\n          (?:\n            6(?:\n              1279|\n              828[01489]\n            )|\n            7(?:\n              887[02-9]|\n              9(?:\n                313|\n                79[07-9]\n              )\n            )|\n            8(?:\n              079[04-9]|\n              (?:\n                84|\n                91\n              )7[02-8]\n            )\n          )\\d{5}|\n          (?:\n            160[01]|\n            6(?:\n              (?:\n                12|\n                [2-4]1|\n                5[17]|\n                6[13]|\n                80\n              )[0189]|\n              7(?:\n                1[0189]|\n                86\n              )\n            )|\n            7(?:\n              1(?:\n                2[0189]|\n                9[0-5]\n              )|\n              3(?:\n                2[5-8]|\n                [34][017-9]|\n                9[016-9]\n              )|\n              5(?:\n                [15][017-9]|\n                2[04-9]|\n                9[7-9]\n              )|\n              6(?:\n                0[0-47]|\n                1[0-257-9]|\n                2[0-4]|\n                3[19]|\n                5[4589]\n              )|\n              70[0289]|\n              88[089]|\n              97[02-8]\n            )|\n            8(?:\n              0(?:\n                6[67]|\n                7[02-8]\n              )|\n              70[017-9]|\n              84[01489]|\n              91[0-289]\n            )\n          )\\d{6}|\n          (?:\n            731|\n            8(?:\n              16|\n              2[014]|\n              3[126]|\n              6[136]|\n              7[78]|\n              83\n            )\n          )(?:\n            [0189]\\d|\n            7[02-8]\n          )\\d{5}|\n          (?:\n            6(?:\n              (?:\n                1[1358]|\n                2[2457]|\n                3[2-4]|\n                4[235-7]|\n                5[2-689]|\n                6[24578]\n              )\\d|\n              7(?:\n                [23569]\\d|\n                4[0189]|\n                8[0-57-9]\n              )|\n              8(?:\n                [14-6]\\d|\n                2[0-79]\n              )\n            )|\n            7(?:\n              1(?:\n                [013-8]\\d|\n                9[6-9]\n              )|\n              3(?:\n                2[0-49]|\n                9[2-5]\n              )|\n              5(?:\n                2[1-3]|\n                9[0-6]\n              )|\n              6(?:\n                0[5689]|\n                2[5-9]|\n                3[02-8]|\n                4\\d|\n                5[0-367]\n              )|\n              70[13-7]|\n              881\n            )\n          )[0189]\\d{5}|\n          (?:\n            6(?:\n              [09]\\d|\n              1[04679]|\n              2[03689]|\n              3[05-9]|\n              4[0489]|\n              50|\n              6[069]|\n              7[07]|\n              8[7-9]\n            )|\n            7(?:\n              [024]\\d|\n              3[05-8]|\n              5[0346-8]|\n              6[6-9]|\n              7[1-9]|\n              8[0-79]|\n              9[089]\n            )|\n            8(?:\n              0[01589]|\n              1[0-57-9]|\n              2[235-9]|\n              3[03-57-9]|\n              [45]\\d|\n              6[02457-9]|\n              7[1-69]|\n              8[0-25-9]|\n              9[02-9]\n            )|\n            9\\d\\d\n          )\\d{7}\n        "), possibleLength := [10], example? := some (str% "8123456789") },
    tollFree := some { nationalNumber := some (str% "\n          000800\\d{7}|\n          180(?:\n            0\\d{4,9}|\n            3\\d{9}\n          )\n        "), possibleLength := [8, 9, 10, 11, 12, 13], example? := some (str% "1800123456") },
    premiumRate := some { nationalNumber := some (str% "186[12]\\d{9}"), possibleLength := [13], example? := some (str% "1861123456789") },
    sharedCost := some { nationalNumber := some (str% "1860\\d{7}"), possibleLength := [11], example? := some (str% "18603451234") },
    uan := some { nationalNumber := some (str% "140\\d{7}"), possibleLength := [10], example? := some (str% "1409305260") },
    noInternational := some { nationalNumber := some (str% "\n          1800\\d{4,9}|\n          (?:\n            000800|\n            18(?:\n              03\\d\\d|\n              6(?:\n                0|\n                [12]\\d\\d\n              )\n            )\n          )\\d{7}\n        "), possibleLength := [8, 9, 10, 11, 12, 13] },
    id := some (str% "IN"),
    countryCode := some 91,
    internationalPrefix := some (str% "00"),
    nationalPrefix := some (str% "0"),
    formats := [
      { pattern := some (str% "(\\d{7})"), format := some (str% "$1"), leadingDigits := [str% "575"] },
      { pattern := some (str% "(\\d{8})"), format := some (str% "$1"), leadingDigits := [str% "\n            5(?:\n              0|\n              2[23]|\n              3[03]|\n              [67]1|\n              88\n            )\n          ", str% "\n            5(?:\n              0|\n              2(?:\n                21|\n                3\n              )|\n              3(?:\n                0|\n                3[23]\n              )|\n              616|\n              717|\n              888\n            )\n          ", str% "\n            5(?:\n              0|\n              2(?:\n                21|\n                3\n              )|\n              3(?:\n                0|\n                3[23]\n              )|\n              616|\n              717|\n              8888\n            )\n          "], nationalPrefixOptionalWhenFormatting := true },
      { pattern := some (str% "(\\d{4})(\\d{4,5})"), format := some (str% "$1 $2"), leadingDigits := [str% "180", str% "1800"], nationalPrefixOptionalWhenFormatting := true },
      { pattern := some (str% "(\\d{3})(\\d{3})(\\d{4})"), format := some (str% "$1 $2 $3"), leadingDigits := [str% "140"], nationalPrefixOptionalWhenFormatting := true },
      { pattern := some (str% "(\\d{2})(\\d{4})(\\d{4})"), format := some (str% "$1 $2 $3"), leadingDigits := [str% "\n            11|\n            2[02]|\n            33|\n            4[04]|\n            79[1-7]|\n            80[2-46]\n          ", str% "\n            11|\n            2[02]|\n            33|\n            4[04]|\n            79(?:\n              [1-6]|\n              7[19]\n            )|\n            80(?:\n              [2-4]|\n              6[0-589]\n            )\n          ", str% "\n            11|\n            2[02]|\n            33|\n            4[04]|\n            79(?:\n              [124-6]|\n              3(?:\n                [02-9]|\n                1[0-24-9]\n              )|\n              7(?:\n                1|\n                9[1-6]\n              )\n            )|\n            80(?:\n              [2-4]|\n              6[0-589]\n            )\n          "], nationalPrefixFormattingRule := some (str% "$NP$FG"), nationalPrefixOptionalWhenFormatting := true },
      { pattern := some (str% "(\\d{3})(\\d{3})(\\d{4})"), format := some (str% "$1 $2 $3"), leadingDigits := [str% "\n            1(?:\n              2[0-249]|\n              3[0-25]|\n              4[145]|\n              [68]|\n              7[1257]\n            )|\n            2(?:\n              1[257]|\n              3[013]|\n              4[01]|\n              5[0137]|\n              6[0158]|\n              78|\n              8[1568]\n            )|\n            3(?:\n              26|\n              4[1-3]|\n              5[34]|\n              6[01489]|\n              7[02-46]|\n              8[159]\n            )|\n            4(?:\n              1[36]|\n              2[1-47]|\n              5[12]|\n              6[0-26-9]|\n              7[0-24-9]|\n              8[013-57]|\n              9[014-7]\n            )|\n            5(?:\n              1[025]|\n              22|\n              [36][25]|\n              4[28]|\n              5[12]|\n              [78]1\n            )|\n            6(?:\n              12|\n              [2-4]1|\n              5[17]|\n              6[13]|\n              80\n            )|\n            7(?:\n              12|\n              3[134]|\n              61|\n              88\n            )|\n            8(?:\n              16|\n              2[014]|\n              3[126]|\n              6[136]|\n              7[078]|\n              8[34]|\n              91\n            )|\n            (?:\n              43|\n              59|\n              75\n            )[15]|\n            (?:\n              1[59]|\n              29|\n              67\n            )[14]\n          ", str% "\n            1(?:\n              2[0-24]|\n              3[0-25]|\n              4[145]|\n              [59][14]|\n              6[1-9]|\n              7[1257]|\n              8[1-57-9]\n            )|\n            2(?:\n              1[257]|\n              3[013]|\n              4[01]|\n              5[0137]|\n              6[058]|\n              78|\n              8[1568]|\n              9[14]\n            )|\n            3(?:\n              26|\n              4[1-3]|\n              5[34]|\n              6[01489]|\n              7[02-46]|\n              8[159]\n            )|\n            4(?:\n              1[36]|\n              2[1-47]|\n              3[15]|\n              5[12]|\n              6[0-26-9]|\n              7[0-24-9]|\n              8[013-57]|\n              9[014-7]\n            )|\n            5(?:\n              1[025]|\n              22|\n              [36][25]|\n              4[28]|\n              [578]1|\n              9[15]\n            )|\n            674|\n            7(?:\n              (?:\n                3[34]|\n                5[15]\n              )[2-6]|\n              61[346]|\n              88[0-8]\n            )|\n            8(?:\n              70[2-6]|\n              84[235-7]|\n              91[3-7]\n            )|\n            (?:\n              1(?:\n                29|\n                60|\n                8[06]\n              )|\n              261|\n              552|\n              6(?:\n                12|\n                [2-47]1|\n                5[17]|\n                6[13]|\n                80\n              )|\n              7(?:\n                12|\n                31\n              )|\n              8(?:\n                16|\n                2[014]|\n                3[126]|\n                6[136]|\n                7[78]|\n                83\n              )\n            )[2-7]\n          ", str% "\n            1(?:\n              2[0-24]|\n              3[0-25]|\n              4[145]|\n              [59][14]|\n              6[1-9]|\n              7[1257]|\n              8[1-57-9]\n            )|\n            2(?:\n              1[257]|\n              3[013]|\n              4[01]|\n              5[0137]|\n              6[058]|\n              78|\n              8[1568]|\n              9[14]\n            )|\n            3(?:\n              26|\n              4[1-3]|\n              5[34]|\n              6[01489]|\n              7[02-46]|\n              8[159]\n            )|\n            4(?:\n              1[36]|\n              2[1-47]|\n              3[15]|\n              5[12]|\n              6[0-26-9]|\n              7[0-24-9]|\n              8[013-57]|\n              9[014-7]\n            )|\n            5(?:\n              1[025]|\n              22|\n              [36][25]|\n              4[28]|\n              [578]1|\n              9[15]\n            )|\n            6(?:\n              12(?:\n                [2-6]|\n                7[0-8]\n              )|\n              74[2-7]\n            )|\n            7(?:\n              3171|\n              5[15][2-6]|\n              61[346]|\n              88(?:\n                [2-7]|\n                82\n              )\n            )|\n            8(?:\n              70[2-6]|\n              84(?:\n                [2356]|\n                7[19]\n              )|\n              91(?:\n                [3-6]|\n                7[19]\n              )\n            )|\n            73[134][2-6]|\n            8(?:\n              16|\n              2[014]|\n              3[126]|\n              6[136]|\n              7[78]|\n              83\n            )(?:\n              [2-6]|\n              7[19]\n            )|\n            (?:\n              1(?:\n                29|\n                60|\n                8[06]\n              )|\n              261|\n              552|\n              6(?:\n                [2-4]1|\n                5[17]|\n                6[13]|\n                7(?:\n                  1|\n                  4[0189]\n                )|\n                80\n              )|\n              7(?:\n                12|\n                88[01]\n              )\n            )[2-7]\n          "], nationalPrefixFormattingRule := some (str% "$NP$FG"), nationalPrefixOptionalWhenFormatting := true },
      { pattern := some (str% "(\\d{4})(\\d{3})(\\d{3})"), format := some (str% "$1 $2 $3"), leadingDigits := [str% "\n            1(?:\n              [2-479]|\n              5[0235-9]\n            )|\n            [2-5]|\n            6(?:\n              1[1358]|\n              2[2457-9]|\n              3[2-5]|\n              4[235-7]|\n              5[2-689]|\n              6[24578]|\n              7[235689]|\n              8[1-6]\n            )|\n            7(?:\n              1[013-9]|\n              3[129]|\n              5[29]|\n              6[02-5]|\n              70\n            )|\n            807\n          ", str% "\n            1(?:\n              [2-479]|\n              5[0235-9]\n            )|\n            [2-5]|\n            6(?:\n              1[1358]|\n              2(?:\n                [2457]|\n                84|\n                95\n              )|\n              3(?:\n                [2-4]|\n                55\n              )|\n              4[235-7]|\n              5[2-689]|\n              6[24578]|\n              7(?:\n                [23569]|\n                8[0-57-9]\n              )|\n              8[1-6]\n            )|\n            7(?:\n              1(?:\n                [013-8]|\n                9[6-9]\n              )|\n              3(?:\n                17|\n                2[0-49]|\n                9[2-57]\n              )|\n              5(?:\n                2[1-3]|\n                9[0-6]\n              )|\n              6(?:\n                0[5689]|\n                2[5-9]|\n                3[02-8]|\n                4|\n                5[0-367]\n              )|\n              70[13-7]\n            )|\n            807[19]\n          ", str% "\n            1(?:\n              [2-479]|\n              5(?:\n                [0236-9]|\n                5[013-9]\n              )\n            )|\n            [2-5]|\n            6(?:\n              2(?:\n                84|\n                95\n              )|\n              355|\n              8(?:\n                28[235-7]|\n                3\n              )\n            )|\n            73179|\n            807(?:\n              1|\n              9[1-3]\n            )|\n            (?:\n              1552|\n              6(?:\n                (?:\n                  1[1358]|\n                  2[2457]|\n                  3[2-4]|\n                  4[235-7]|\n                  5[2-689]|\n                  6[24578]\n                )\\d|\n                7(?:\n                  [23569]\\d|\n                  8[0-57-9]\n                )|\n                8(?:\n                  [14-6]\\d|\n                  2[0-79]\n                )\n              )|\n              7(?:\n                1(?:\n                  [013-8]\\d|\n                  9[6-9]\n                )|\n                3(?:\n                  2[0-49]|\n                  9[2-57]\n                )|\n                5(?:\n                  2[1-3]|\n                  9[0-6]\n                )|\n                6(?:\n                  0[5689]|\n                  2[5-9]|\n                  3[02-8]|\n                  4\\d|\n                  5[0-367]\n                )|\n                70[13-7]\n              )\n            )[2-7]\n          "], nationalPrefixFormattingRule := some (str% "$NP$FG"), nationalPrefixOptionalWhenFormatting := true },
      { pattern := some (str% "(\\d{5})(\\d{5})"), format := some (str% "$1 $2"), leadingDigits := [str% "\n            16|\n            [6-9]\n          "], nationalPrefixFormattingRule := some (str% "$NP$FG"), nationalPrefixOptionalWhenFormatting := true },
      { pattern := some (str% "(\\d{4})(\\d{2,4})(\\d{4})"), format := some (str% "$1 $2 $3"), leadingDigits := [str% "18[06]", str% "18[06]0"], nationalPrefixOptionalWhenFormatting := true },
      { pattern := some (str% "(\\d{3})(\\d{3})(\\d{3})(\\d{4})"), format := some (str% "$1 $2 $3 $4"), leadingDigits := [str% "0"] },
      { pattern := some (str% "(\\d{4})(\\d{3})(\\d{3})(\\d{3})"), format := some (str% "$1 $2 $3 $4"), leadingDigits := [str% "18"], nationalPrefixOptionalWhenFormatting := true }],
    internationalFormats := [
      { pattern := some (str% "(\\d{8})"), format := some (str% "$1"), leadingDigits := [str% "\n            5(?:\n              0|\n              2[23]|\n              3[03]|\n              [67]1|\n              88\n            )\n          ", str% "\n            5(?:\n              0|\n              2(?:\n                21|\n                3\n              )|\n              3(?:\n                0|\n                3[23]\n              )|\n              616|\n              717|\n              888\n            )\n          ", str% "\n            5(?:\n              0|\n              2(?:\n                21|\n                3\n              )|\n              3(?:\n                0|\n                3[23]\n              )|\n              616|\n              717|\n              8888\n            )\n          "], nationalPrefixOptionalWhenFormatting := true },
      { pattern := some (str% "(\\d{4})(\\d{4,5})"), format := some (str% "$1 $2"), leadingDigits := [str% "180", str% "1800"], nationalPrefixOptionalWhenFormatting := true },
      { pattern := some (str% "(\\d{3})(\\d{3})(\\d{4})"), format := some (str% "$1 $2 $3"), leadingDigits := [str% "140"], nationalPrefixOptionalWhenFormatting := true },
      { pattern := some (str% "(\\d{2})(\\d{4})(\\d{4})"), format := some (str% "$1 $2 $3"), leadingDigits := [str% "\n            11|\n            2[02]|\n            33|\n            4[04]|\n            79[1-7]|\n            80[2-46]\n          ", str% "\n            11|\n            2[02]|\n            33|\n            4[04]|\n            79(?:\n              [1-6]|\n              7[19]\n            )|\n            80(?:\n              [2-4]|\n              6[0-589]\n            )\n          ", str% "\n            11|\n            2[02]|\n            33|\n            4[04]|\n            79(?:\n              [124-6]|\n              3(?:\n                [02-9]|\n                1[0-24-9]\n              )|\n              7(?:\n                1|\n                9[1-6]\n              )\n            )|\n            80(?:\n              [2-4]|\n              6[0-589]\n            )\n          "], nationalPrefixFormattingRule := some (str% "$NP$FG"), nationalPrefixOptionalWhenFormatting := true },
      { pattern := some (str% "(\\d{3})(\\d{3})(\\d{4})"), format := some (str% "$1 $2 $3"), leadingDigits := [str% "\n            1(?:\n              2[0-249]|\n              3[0-25]|\n              4[145]|\n              [68]|\n              7[1257]\n            )|\n            2(?:\n              1[257]|\n              3[013]|\n              4[01]|\n              5[0137]|\n              6[0158]|\n              78|\n              8[1568]\n            )|\n            3(?:\n              26|\n              4[1-3]|\n              5[34]|\n              6[01489]|\n              7[02-46]|\n              8[159]\n            )|\n            4(?:\n              1[36]|\n              2[1-47]|\n              5[12]|\n              6[0-26-9]|\n              7[0-24-9]|\n              8[013-57]|\n              9[014-7]\n            )|\n            5(?:\n              1[025]|\n              22|\n              [36][25]|\n              4[28]|\n              5[12]|\n              [78]1\n            )|\n            6(?:\n              12|\n              [2-4]1|\n              5[17]|\n              6[13]|\n              80\n            )|\n            7(?:\n              12|\n              3[134]|\n              61|\n              88\n            )|\n            8(?:\n              16|\n              2[014]|\n              3[126]|\n              6[136]|\n              7[078]|\n              8[34]|\n              91\n            )|\n            (?:\n              43|\n              59|\n              75\n            )[15]|\n            (?:\n              1[59]|\n              29|\n              67\n            )[14]\n          ", str% "\n            1(?:\n              2[0-24]|\n              3[0-25]|\n              4[145]|\n              [59][14]|\n              6[1-9]|\n              7[1257]|\n              8[1-57-9]\n            )|\n            2(?:\n              1[257]|\n              3[013]|\n              4[01]|\n              5[0137]|\n              6[058]|\n              78|\n              8[1568]|\n              9[14]\n            )|\n            3(?:\n              26|\n              4[1-3]|\n              5[34]|\n              6[01489]|\n              7[02-46]|\n              8[159]\n            )|\n            4(?:\n              1[36]|\n              2[1-47]|\n              3[15]|\n              5[12]|\n              6[0-26-9]|\n              7[0-24-9]|\n              8[013-57]|\n              9[014-7]\n            )|\n            5(?:\n              1[025]|\n              22|\n              [36][25]|\n              4[28]|\n              [578]1|\n              9[15]\n            )|\n            674|\n            7(?:\n              (?:\n                3[34]|\n                5[15]\n              )[2-6]|\n              61[346]|\n              88[0-8]\n            )|\n            8(?:\n              70[2-6]|\n              84[235-7]|\n              91[3-7]\n            )|\n            (?:\n              1(?:\n                29|\n                60|\n                8[06]\n              )|\n              261|\n              552|\n              6(?:\n                12|\n                [2-47]1|\n                5[17]|\n                6[13]|\n                80\n              )|\n              7(?:\n                12|\n                31\n              )|\n              8(?:\n                16|\n                2[014]|\n                3[126]|\n                6[136]|\n                7[78]|\n                83\n              )\n            )[2-7]\n          ", str% "\n            1(?:\n              2[0-24]|\n              3[0-25]|\n              4[145]|\n              [59][14]|\n              6[1-9]|\n              7[1257]|\n              8[1-57-9]\n            )|\n            2(?:\n              1[257]|\n              3[013]|\n              4[01]|\n              5[0137]|\n              6[058]|\n              78|\n              8[1568]|\n              9[14]\n            )|\n            3(?:\n              26|\n              4[1-3]|\n              5[34]|\n              6[01489]|\n              7[02-46]|\n              8[159]\n            )|\n            4(?:\n              1[36]|\n              2[1-47]|\n              3[15]|\n              5[12]|\n              6[0-26-9]|\n              7[0-24-9]|\n              8[013-57]|\n              9[014-7]\n            )|\n            5(?:\n              1[025]|\n              22|\n              [36][25]|\n              4[28]|\n              [578]1|\n              9[15]\n            )|\n            6(?:\n              12(?:\n                [2-6]|\n                7[0-8]\n              )|\n              74[2-7]\n            )|\n            7(?:\n              3171|\n              5[15][2-6]|\n              61[346]|\n              88(?:\n                [2-7]|\n                82\n              )\n            )|\n            8(?:\n              70[2-6]|\n              84(?:\n                [2356]|\n                7[19]\n              )|\n              91(?:\n                [3-6]|\n                7[19]\n              )\n            )|\n            73[134][2-6]|\n            8(?:\n              16|\n              2[014]|\n              3[126]|\n              6[136]|\n              7[78]|\n              83\n            )(?:\n              [2-6]|\n              7[19]\n            )|\n            (?:\n              1(?:\n                29|\n                60|\n                8[06]\n              )|\n              261|\n              552|\n              6(?:\n                [2-4]1|\n                5[17]|\n                6[13]|\n                7(?:\n                  1|\n                  4[0189]\n                )|\n                80\n              )|\n              7(?:\n                12|\n                88[01]\n              )\n            )[2-7]\n          "], nationalPrefixFormattingRule := some (str% "$NP$FG"), nationalPrefixOptionalWhenFormatting := true },
      { pattern := some (str% "(\\d{4})(\\d{3})(\\d{3})"), format := some (str% "$1 $2 $3"), leadingDigits := [str% "\n            1(?:\n              [2-479]|\n              5[0235-9]\n            )|\n            [2-5]|\n            6(?:\n              1[1358]|\n              2[2457-9]|\n              3[2-5]|\n              4[235-7]|\n              5[2-689]|\n              6[24578]|\n              7[235689]|\n              8[1-6]\n            )|\n            7(?:\n              1[013-9]|\n              3[129]|\n              5[29]|\n              6[02-5]|\n              70\n            )|\n            807\n          ", str% "\n            1(?:\n              [2-479]|\n              5[0235-9]\n            )|\n            [2-5]|\n            6(?:\n              1[1358]|\n              2(?:\n                [2457]|\n                84|\n                95\n              )|\n              3(?:\n                [2-4]|\n                55\n              )|\n              4[235-7]|\n              5[2-689]|\n              6[24578]|\n              7(?:\n                [23569]|\n                8[0-57-9]\n              )|\n              8[1-6]\n            )|\n            7(?:\n              1(?:\n                [013-8]|\n                9[6-9]\n              )|\n              3(?:\n                17|\n                2[0-49]|\n                9[2-57]\n              )|\n              5(?:\n                2[1-3]|\n                9[0-6]\n              )|\n              6(?:\n                0[5689]|\n                2[5-9]|\n                3[02-8]|\n                4|\n                5[0-367]\n              )|\n              70[13-7]\n            )|\n            807[19]\n          ", str% "\n            1(?:\n              [2-479]|\n              5(?:\n                [0236-9]|\n                5[013-9]\n              )\n            )|\n            [2-5]|\n            6(?:\n              2(?:\n                84|\n                95\n              )|\n              355|\n              8(?:\n                28[235-7]|\n                3\n              )\n            )|\n            73179|\n            807(?:\n              1|\n              9[1-3]\n            )|\n            (?:\n              1552|\n              6(?:\n                (?:\n                  1[1358]|\n                  2[2457]|\n                  3[2-4]|\n                  4[235-7]|\n                  5[2-689]|\n                  6[24578]\n                )\\d|\n                7(?:\n                  [23569]\\d|\n                  8[0-57-9]\n                )|\n                8(?:\n                  [14-6]\\d|\n                  2[0-79]\n                )\n              )|\n              7(?:\n                1(?:\n                  [013-8]\\d|\n                  9[6-9]\n                )|\n                3(?:\n                  2[0-49]|\n                  9[2-57]\n                )|\n                5(?:\n                  2[1-3]|\n                  9[0-6]\n                )|\n                6(?:\n                  0[5689]|\n                  2[5-9]|\n                  3[02-8]|\n                  4\\d|\n                  5[0-367]\n                )|\n                70[13-7]\n              )\n            )[2-7]\n          "], nationalPrefixFormattingRule := some (str% "$NP$FG"), nationalPrefixOptionalWhenFormatting := true },
      { pattern := some (str% "(\\d{5})(\\d{5})"), format := some (str% "$1 $2"), leadingDigits := [str% "\n            16|\n            [6-9]\n          "], nationalPrefixFormattingRule := some (str% "$NP$FG"), nationalPrefixOptionalWhenFormatting := true },
      { pattern := some (str% "(\\d{4})(\\d{2,4})(\\d{4})"), format := some (str% "$1 $2 $3"), leadingDigits := [str% "18[06]", str% "18[06]0"], nationalPrefixOptionalWhenFormatting := true },
      { pattern := some (str% "(\\d{4})(\\d{3})(\\d{3})(\\d{3})"), format := some (str% "$1 $2 $3 $4"), leadingDigits := [str% "18"], nationalPrefixOptionalWhenFormatting := true }],
    mobileNumberPortable := true }

/-- territory id=IO countryCode=246 -/
noncomputable def IO : Loader.Metadata :=
  { general := some { nationalNumber := some (str% "3\\d{6}") },
    fixedLine := some { nationalNumber := some (str% "37\\d{5}"), possibleLength := [7], example? := some (str% "3709100") },
    mobile := some { nationalNumber := some (str% "38\\d{5}"), possibleLength := [7], example? := some (str% "3801234") },
    id := some (str% "IO"),
    countryCode := some 246,
    internationalPrefix := some (str% "00"),
    formats := [
      { pattern := some (str% "(\\d{3})(\\d{4})"), format := some (str% "$1 $2"), leadingDigits := [str% "3"] }],
    internationalFormats := [
      { pattern := some (str% "(\\d{3})(\\d{4})"), format := some (str% "$1 $2"), leadingDigits := [str% "3"] }] }

/-- territory id=IQ countryCode=964 -/
noncomputable def IQ : Loader.Metadata :=
  { general := some { nationalNumber := some (str% "\n          (?:\n            1|\n            7\\d\\d\n          )\\d{7}|\n          [2-6]\\d{7,8}\n        ") },
    fixedLine := some { nationalNumber := some (str% "\n          1\\d{7}|\n          (?:\n            2[13-5]|\n            3[02367]|\n            4[023]|\n            5[03]|\n            6[026]\n          )\\d{6,7}\n        "), possibleLength := [8, 9], possibleLocalLength := [6, 7], example? := some (str% "12345678") },
    mobile := some { nationalNumber := some (str% "7[3-9]\\d{8}"), possibleLength := [10], example? := some (str% "7912345678") },
    id := some (str% "IQ"),
    countryCode := some 964,
    internationalPrefix := some (str% "00"),
    nationalPrefix := some (str% "0"),
    formats := [
      { pattern := some (str% "(\\d)(\\d{3})(\\d{4})"), format := some (str% "$1 $2 $3"), leadingDigits := [str% "1"], nationalPrefixFormattingRule := some (str% "$NP$FG") },
      { pattern := some (str% "(\\d{2})(\\d{3})(\\d{3,4})"), format := some (str% "$1 $2 $3"), leadingDigits := [str% "[2-6]"], nationalPrefixFormattingRule := some (str% "$NP$FG") },
      { pattern := some (str% "(\\d{3})(\\d{3})(\\d{4})"), format := some (str% "$1 $2 $3"), leadingDigits := [str% "7"], nationalPrefixFormattingRule := some (str% "$NP$FG") }],
    internationalFormats := [
      { pattern := some (str% "(\\d)(\\d{3})(\\d{4})"), format := some (str% "$1 $2 $3"), leadingDigits := [str% "1"], nationalPrefixFormattingRule := some (str% "$NP$FG") },
      { pattern := some (str% "(\\d{2})(\\d{3})(\\d{3,4})"), format := some (str% "$1 $2 $3"), leadingDigits := [str% "[2-6]"], nationalPrefixFormattingRule := some (str% "$NP$FG") },
      { pattern := some (str% "(\\d{3})(\\d{3})(\\d{4})"), format := some (str% "$1 $2 $3"), leadingDigits := [str% "7"], nationalPrefixFormattingRule := some (str% "$NP$FG") }] }

/-- territory id=IR countryCode=98 -/
noncomputable def IR : Loader.Metadata :=
  { general := some { nationalNumber := some (str% "\n          [1-9]\\d{9}|\n          (?:\n            [1-8]\\d\\d|\n            9\n          )\\d{3,4}\n        ") },
    fixedLine := some { nationalNumber := some (str% "\n          (?:\n            1[137]|\n            2[13-68]|\n            3[1458]|\n            4[145]|\n            5[1468]|\n            6[16]|\n            7[1467]|\n            8[13467]\n          )(?:\n            [03-57]\\d{7}|\n            [16]\\d{3}(?:\n              \\d{4}\n            )?|\n            [289]\\d{3}(?:\n              \\d(?:\n                \\d{3}\n              )?\n            )?\n          )|\n          94(?:\n            000[09]|\n            (?:\n              12\\d|\n              30[0-2]\n            )\\d|\n            2(?:\n              [02689]0\\d|\n              121\n            )|\n            4(?:\n              111|\n              40\\d\n            )\n          )\\d{4}\n        "), possibleLength := [6, 7, 10], possibleLocalLength := [4, 5, 8], example? := some (str% "2123456789") },
    mobile := some { nationalNumber := some (str% "\n          9(?:\n            (?:\n              0[0-5]|\n              [13]\\d|\n              2[0-3]\n            )\\d\\d|\n            9(?:\n              [0-46]\\d\\d|\n              5(?:\n                10|\n                5\\d\n              )|\n              8(?:\n                [12]\\d|\n                88\n              )|\n              9(?:\n                [01359]\\d|\n                21|\n                69|\n                77|\n                8[7-9]\n              )\n            )\n          )\\d{5}\n        "), possibleLength := [10], example? := some (str% "9123456789") },
    uan := some { nationalNumber := some (str% "\n          96(?:\n            0[12]|\n            2[16-8]|\n            3(?:\n              08|\n              [14]5|\n              [23]|\n              66\n            )|\n            4(?:\n              0|\n              80\n            )|\n            5[01]|\n            6[89]|\n            86|\n            9[19]\n          )\n        "), possibleLength := [4, 5], example? := some (str% "9601") },
    noInternational := some { nationalNumber := some (str% "\n          9(?:\n            4440\\d{5}|\n            6(?:\n              0[12]|\n              2[16-8]|\n              3(?:\n                08|\n                [14]5|\n                [23]|\n                66\n              )|\n              4(?:\n                0|\n                80\n              )|\n              5[01]|\n              6[89]|\n              86|\n              9[19]\n            )\n          )\n        "), possibleLength := [4, 5, 10] },
    id := some (str% "IR"),
    countryCode := some 98,
    internationalPrefix := some (str% "00"),
    nationalPrefix := some (str% "0"),
    formats := [
      { pattern := some (str% "(\\d{4,5})"), format := some (str% "$1"), leadingDigits := [str% "96"], nationalPrefixFormattingRule := some (str% "$NP$FG") },
      { pattern := some (str% "(\\d{2})(\\d{4,5})"), format := some (str% "$1 $2"), leadingDigits := [str% "\n            (?:\n              1[137]|\n              2[13-68]|\n              3[1458]|\n              4[145]|\n              5[1468]|\n              6[16]|\n              7[1467]|\n              8[13467]\n            )[12689]\n          "], nationalPrefixFormattingRule := some (str% "$NP$FG") },
      { pattern := some (str% "(\\d{3})(\\d{3})(\\d{3,4})"), format := some (str% "$1 $2 $3"), leadingDigits := [str% "9"], nationalPrefixFormattingRule := some (str% "$NP$FG") },
      { pattern := some (str% "(\\d{2})(\\d{4})(\\d{4})"), format := some (str% "$1 $2 $3"), leadingDigits := [str% "[1-8]"], nationalPrefixFormattingRule := some (str% "$NP$FG") }],
    internationalFormats := [
      { pattern := some (str% "(\\d{4,5})"), format := some (str% "$1"), leadingDigits := [str% "96"], nationalPrefixFormattingRule := some (str% "$NP$FG") },
      { pattern := some (str% "(\\d{2})(\\d{4,5})"), format := some (str% "$1 $2"), leadingDigits := [str% "\n            (?:\n              1[137]|\n              2[13-68]|\n              3[1458]|\n              4[145]|\n              5[1468]|\n              6[16]|\n              7[1467]|\n              8[13467]\n            )[12689]\n          "], nationalPrefixFormattingRule := some (str% "$NP$FG") },
      { pattern := some (str% "(\\d{3})(\\d{3})(\\d{3,4})"), format := some (str% "$1 $2 $3"), leadingDigits := [str% "9"], nationalPrefixFormattingRule := some (str% "$NP$FG") },
      { pattern := some (str% "(\\d{2})(\\d{4})(\\d{4})"), format := some (str% "$1 $2 $3"), leadingDigits := [str% "[1-8]"], nationalPrefixFormattingRule := some (str% "$NP$FG") }],
    mobileNumberPortable := true }

/-- territory id=IS countryCode=354 -/
noncomputable def IS : Loader.Metadata :=
  { general := some { nationalNumber := some (str% "\n          (?:\n            38\\d|\n            [4-9]\n          )\\d{6}\n        ") },
    fixedLine := some { nationalNumber := some (str% "\n          (?:\n            4(?:\n              1[0-24-69]|\n              2[0-7]|\n              [37][0-8]|\n              4[0-24589]|\n              5[0-68]|\n              6\\d|\n              8[0-36-8]\n            )|\n            5(?:\n              05|\n              [156]\\d|\n              2[02578]|\n              3[0-579]|\n              4[03-7]|\n              7[0-2578]|\n              8[0-35-9]|\n              9[013-689]\n            )|\n            872\n          )\\d{4}\n        "), possibleLength := [7], example? := some (str% "4101234") },
    mobile := some { nationalNumber := some (str% "\n          (?:\n            38[589]\\d\\d|\n            6(?:\n              1[1-8]|\n              2[0-6]|\n              3[026-9]|\n              4[014679]|\n              5[0159]|\n              6[0-69]|\n              70|\n              8[06-8]|\n              9\\d\n            )|\n            7(?:\n              5[057]|\n              [6-9]\\d\n            )|\n            8(?:\n              2[0-59]|\n              [3-69]\\d|\n              8[238]\n            )\n          )\\d{4}\n        "), possibleLength := [7, 9], example? := some (str% "6111234") },
    tollFree := some { nationalNumber := some (str% "80[0-8]\\d{4}"), possibleLength := [7], example? := some (str% "8001234") },
    premiumRate := some { nationalNumber := some (str% "\n          90(?:\n            0\\d|\n            1[5-79]|\n            2[015-79]|\n            3[135-79]|\n            4[125-7]|\n            5[25-79]|\n            7[1-37]|\n            8[0-35-7]\n          )\\d{3}\n        "), possibleLength := [7], example? := some (str% "9001234") },
    voip := some { nationalNumber := some (str% "49[0-24-79]\\d{4}"), possibleLength := [7], example? := some (str% "4921234") },
    uan := some { nationalNumber := some (str% "809\\d{4}"), possibleLength := [7], example? := some (str% "8091234") },
    voicemail := some { nationalNumber := some (str% "\n          (?:\n            689|\n            8(?:\n              7[18]|\n              80\n            )|\n            95[48]\n          )\\d{4}\n        "), possibleLength := [7], example? := some (str% "6891234") },
    id := some (str% "IS"),
    countryCode := some 354,
    internationalPrefix := some (str% "00|1(?:0(?:01|[12]0)|100)"),
    preferredInternationalPrefix := some (str% "00"),
    formats := [
      { pattern := some (str% "(\\d{3})(\\d{4})"), format := some (str% "$1 $2"), leadingDigits := [str% "[4-9]"] },
      { pattern := some (str% "(\\d{3})(\\d{3})(\\d{3})"), format := some (str% "$1 $2 $3"), leadingDigits := [str% "3"] }],
    internationalFormats := [
      { pattern := some (str% "(\\d{3})(\\d{4})"), format := some (str% "$1 $2"), leadingDigits := [str% "[4-9]"] },
      { pattern := some (str% "(\\d{3})(\\d{3})(\\d{3})"), format := some (str% "$1 $2 $3"), leadingDigits := [str% "3"] }],
    mobileNumberPortable := true }

/-- territory id=IT countryCode=39 -/
noncomputable def IT : Loader.Metadata :=
  { general := some { nationalNumber := some (str% "\n          0\\d{5,11}|\n          1\\d{8,10}|\n          3(?:\n            [0-8]\\d{7,10}|\n            9\\d{7,8}\n          )|\n          (?:\n            43|\n            55|\n            70\n          )\\d{8}|\n          8\\d{5}(?:\n            \\d{2,4}\n          )?\n        ") },
    fixedLine := some { nationalNumber := some (str% "\n          0(?:\n            669[0-79]\\d{1,6}|\n            831\\d{2,8}\n          )|\n          0(?:\n            1(?:\n              [0159]\\d|\n              [27][1-5]|\n              31|\n              4[1-4]|\n              6[1356]|\n              8[2-57]\n            )|\n            2\\d\\d|\n            3(?:\n              [0159]\\d|\n              2[1-4]|\n              3[12]|\n              [48][1-6]|\n              6[2-59]|\n              7[1-7]\n            )|\n            4(?:\n              [0159]\\d|\n              [23][1-9]|\n              4[245]|\n              6[1-5]|\n              7[1-4]|\n              81\n            )|\n            5(?:\n              [0159]\\d|\n              2[1-5]|\n              3[2-6]|\n              4[1-79]|\n              6[4-6]|\n              7[1-578]|\n              8[3-8]\n            )|\n            6(?:\n              [0-57-9]\\d|\n              6[0-8]\n            )|\n            7(?:\n              [0159]\\d|\n              2[12]|\n              3[1-7]|\n              4[2-46]|\n              6[13569]|\n              7[13-6]|\n              8[1-59]\n            )|\n            8(?:\n              [0159]\\d|\n              2[3-578]|\n              3[2356]|\n              [6-8][1-5]\n            )|\n            9(?:\n              [0159]\\d|\n              [238][1-5]|\n              4[12]|\n              6[1-8]|\n              7[1-6]\n            )\n          )\\d{2,7}\n        "), possibleLength := [6, 7, 8, 9, 10, 11, 12], example? := some (str% "0212345678") },
    mobile := some { nationalNumber := some (str% "\n          3[2-9]\\d{7,8}|\n          (?:\n            31|\n            43\n          )\\d{8}\n        "), possibleLength := [9, 10], example? := some (str% "3123456789") },
    tollFree := some { nationalNumber := some (str% "\n          80(?:\n            0\\d{3}|\n            3\n          )\\d{3}\n        "), possibleLength := [6, 9], example? := some (str% "800123456") },
    premiumRate := some { nationalNumber := some (str% "\n          (?:\n            0878\\d{3}|\n            89(?:\n              2\\d|\n              3[04]|\n              4(?:\n                [0-4]|\n                [5-9]\\d\\d\n              )|\n              5[0-4]\n            )\n          )\\d\\d|\n          (?:\n            1(?:\n              44|\n              6[346]\n            )|\n            89(?:\n              38|\n              5[5-9]|\n              9\n            )\n          )\\d{6}\n        "), possibleLength := [6, 8, 9, 10], example? := some (str% "899123456") },
    sharedCost := some { nationalNumber := some (str% "\n          84(?:\n            [08]\\d{3}|\n            [17]\n          )\\d{3}\n        "), possibleLength := [6, 9], example? := some (str% "848123456") },
    personalNumber := some { nationalNumber := some (str% "\n          1(?:\n            78\\d|\n            99\n          )\\d{6}\n        "), possibleLength := [9, 10], example? := some (str% "1781234567") },
    voip := some { nationalNumber := some (str% "55\\d{8}"), possibleLength := [10], example? := some (str% "5512345678") },
    voicemail := some { nationalNumber := some (str% "3[2-8]\\d{9,10}"), possibleLength := [11, 12], example? := some (str% "33101234501") },
    noInternational := some { nationalNumber := some (str% "848\\d{6}"), possibleLength := [9] },
    id := some (str% "IT"),
    countryCode := some 39,
    internationalPrefix := some (str% "00"),
    formats := [
      { pattern := some (str% "(\\d{4,5})"), format := some (str% "$1"), leadingDigits := [str% "\n            1(?:\n              0|\n              9[246]\n            )\n          ", str% "\n            1(?:\n              0|\n              9(?:\n                2[2-9]|\n                [46]\n              )\n            )\n          "] },
      { pattern := some (str% "(\\d{6})"), format := some (str% "$1"), leadingDigits := [str% "\n            1(?:\n              1|\n              92\n            )\n          "] },
      { pattern := some (str% "(\\d{2})(\\d{4,6})"), format := some (str% "$1 $2"), leadingDigits := [str% "0[26]"] },
      { pattern := some (str% "(\\d{3})(\\d{3,6})"), format := some (str% "$1 $2"), leadingDigits := [str% "\n            0[13-57-9][0159]|\n            8(?:\n              03|\n              4[17]|\n              9[2-5]\n            )\n          ", str% "\n            0[13-57-9][0159]|\n            8(?:\n              03|\n              4[17]|\n              9(?:\n                2|\n                3[04]|\n                [45][0-4]\n              )\n            )\n          "] },
      { pattern := some (str% "(\\d{4})(\\d{2,6})"), format := some (str% "$1 $2"), leadingDigits := [str% "\n            0(?:\n              [13-579][2-46-8]|\n              8[236-8]\n            )\n          "] },
      { pattern := some (str% "(\\d{4})(\\d{4})"), format := some (str% "$1 $2"), leadingDigits := [str% "894"] },
      { pattern := some (str% "(\\d{2})(\\d{3,4})(\\d{4})"), format := some (str% "$1 $2 $3"), leadingDigits := [str% "\n            0[26]|\n            5\n          "] },
      { pattern := some (str% "(\\d{3})(\\d{3})(\\d{3,4})"), format := some (str% "$1 $2 $3"), leadingDigits := [str% "\n            1(?:\n              44|\n              [679]\n            )|\n            [378]|\n            43\n          "] },
      { pattern := some (str% "(\\d{3})(\\d{3,4})(\\d{4})"), format := some (str% "$1 $2 $3"), leadingDigits := [str% "\n            0[13-57-9][0159]|\n            14\n          "] },
      { pattern := some (str% "(\\d{2})(\\d{4})(\\d{5})"), format := some (str% "$1 $2 $3"), leadingDigits := [str% "0[26]"] },
      { pattern := some (str% "(\\d{4})(\\d{3})(\\d{4})"), format := some (str% "$1 $2 $3"), leadingDigits := [str% "0"] },
      { pattern := some (str% "(\\d{3})(\\d{4})(\\d{4,5})"), format := some (str% "$1 $2 $3"), leadingDigits := [str% "[03]"] }],
    internationalFormats := [
      { pattern := some (str% "(\\d{2})(\\d{4,6})"), format := some (str% "$1 $2"), leadingDigits := [str% "0[26]"] },
      { pattern := some (str% "(\\d{3})(\\d{3,6})"), format := some (str% "$1 $2"), leadingDigits := [str% "\n            0[13-57-9][0159]|\n            8(?:\n              03|\n              4[17]|\n              9[2-5]\n            )\n          ", str% "\n            0[13-57-9][0159]|\n            8(?:\n              03|\n              4[17]|\n              9(?:\n                2|\n                3[04]|\n                [45][0-4]\n              )\n            )\n          "] },
      { pattern := some (str% "(\\d{4})(\\d{2,6})"), format := some (str% "$1 $2"), leadingDigits := [str% "\n            0(?:\n              [13-579][2-46-8]|\n              8[236-8]\n            )\n          "] },
      { pattern := some (str% "(\\d{4})(\\d{4})"), format := some (str% "$1 $2"), leadingDigits := [str% "894"] },
      { pattern := some (str% "(\\d{2})(\\d{3,4})(\\d{4})"), format := some (str% "$1 $2 $3"), leadingDigits := [str% "\n            0[26]|\n            5\n          "] },
      { pattern := some (str% "(\\d{3})(\\d{3})(\\d{3,4})"), format := some (str% "$1 $2 $3"), leadingDigits := [str% "\n            1(?:\n              44|\n              [679]\n            )|\n            [378]|\n            43\n          "] },
      { pattern := some (str% "(\\d{3})(\\d{3,4})(\\d{4})"), format := some (str% "$1 $2 $3"), leadingDigits := [str% "\n            0[13-57-9][0159]|\n            14\n          "] },
      { pattern := some (str% "(\\d{2})(\\d{4})(\\d{5})"), format := some (str% "$1 $2 $3"), leadingDigits := [str% "0[26]"] },
      { pattern := some (str% "(\\d{4})(\\d{3})(\\d{4})"), format := some (str% "$1 $2 $3"), leadingDigits := [str% "0"] },
      { pattern := some (str% "(\\d{3})(\\d{4})(\\d{4,5})"), format := some (str% "$1 $2 $3"), leadingDigits := [str% "[03]"] }],
    mainCountryForCode := true,
    mobileNumberPortable := true }

/-- territory id=JE countryCode=44 -/
noncomputable def JE : Loader.Metadata :=
  { general := some { nationalNumber := some (str% "\n          1534\\d{6}|\n          (?:\n            [3578]\\d|\n            90\n          )\\d{8}\n        ") },
    fixedLine := some { nationalNumber := some (str% "1534[0-24-8]\\d{5}"), possibleLength := [10], possibleLocalLength := [6], example? := some (str% "1534456789") },
    mobile := some { nationalNumber := some (str% "\n          7(?:\n            (?:\n              (?:\n                50|\n                82\n              )9|\n              937\n            )\\d|\n            7(?:\n              00[378]|\n              97\\d\n            )\n          )\\d{5}\n        "), possibleLength := [10], example? := some (str% "7797712345") },
    tollFree := some { nationalNumber := some (str% "\n          80(?:\n            07(?:\n              35|\n              81\n            )|\n            8901\n          )\\d{4}\n        "), possibleLength := [10], example? := some (str% "8007354567") },
    premiumRate := some { nationalNumber := some (str% "\n          (?:\n            8(?:\n              4(?:\n                4(?:\n                  4(?:\n                    05|\n                    42|\n                    69\n                  )|\n                  703\n                )|\n                5(?:\n                  041|\n                  800\n                )\n              )|\n              7(?:\n                0002|\n                1206\n              )\n            )|\n            90(?:\n              066[59]|\n              1810|\n              71(?:\n                07|\n                55\n              )\n            )\n          )\\d{4}\n        "), possibleLength := [10], example? := some (str% "9018105678") },
    personalNumber := some { nationalNumber := some (str% "701511\\d{4}"), possibleLength := [10], example? := some (str% "7015115678") },
    voip := some { nationalNumber := some (str% "56\\d{8}"), possibleLength := [10], example? := some (str% "5612345678") },
    pager := some { nationalNumber := some (str% "\n          76(?:\n            464|\n            652\n          )\\d{5}|\n          76(?:\n            0[0-28]|\n            2[356]|\n            34|\n            4[01347]|\n            5[49]|\n            6[0-369]|\n            77|\n            8[14]|\n            9[139]\n          )\\d{6}\n        "), possibleLength := [10], example? := some (str% "7640123456") },
    uan := some { nationalNumber := some (str% "\n          (?:\n            3(?:\n              0(?:\n                07(?:\n                  35|\n                  81\n                )|\n                8901\n              )|\n              3\\d{4}|\n              4(?:\n                4(?:\n                  4(?:\n                    05|\n                    42|\n                    69\n                  )|\n                  703\n                )|\n                5(?:\n                  041|\n                  800\n                )\n              )|\n              7(?:\n                0002|\n                1206\n              )\n            )|\n            55\\d{4}\n          )\\d{4}\n        "), possibleLength := [10], example? := some (str% "5512345678") },
    id := some (str% "JE"),
    countryCode := some 44,
    internationalPrefix := some (str% "00"),
    nationalPrefix := some (str% "0"),
    nationalPrefixForParsing := some (str% "([0-24-8]\\d{5})$|0|180020"),
    nationalPrefixTransformRule := some (str% "1534$1") }

/-- the territories of this module, in document order -/
noncomputable def chunk07 : List Loader.Metadata :=
  [IN, IO, IQ, IR, IS, IT, JE]

end Phone.Data
