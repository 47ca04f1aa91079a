import Verif.Model.Database
/-! Territories of `/repo/assets/PhoneNumberMetadata.xml` as `/repo/src/metadata/loader.rs` reads them.
Generated by `tools/gen_data.py`; do not edit. -/

set_option maxRecDepth 100000
namespace Phone.Data

/-- territory id=SD countryCode=249 -/
noncomputable def SD : Loader.Metadata :=
  { general := some { nationalNumber := some (str% "[19]\\d{8}") },
    fixedLine := some { nationalNumber := some (str% "\n          1(?:\n            5\\d|\n            8[35-7]\n          )\\d{6}\n        "), possibleLength := [9], example? := some (str% "153123456") },
    mobile := some { nationalNumber := some (str% "\n          (?:\n            1[0-2]|\n            9[0-3569]\n          )\\d{7}\n        "), possibleLength := [9], example? := some (str% "911231234") },
    id := some (str% "SD"),
    countryCode := some 249,
    internationalPrefix := some (str% "00"),
    nationalPrefix := some (str% "0"),
    formats := [
      { pattern := some (str% "(\\d{2})(\\d{3})(\\d{4})"), format := some (str% "$1 $2 $3"), leadingDigits := [str% "[19]"], nationalPrefixFormattingRule := some (str% "$NP$FG") }],
    internationalFormats := [
      { pattern := some (str% "(\\d{2})(\\d{3})(\\d{4})"), format := some (str% "$1 $2 $3"), leadingDigits := [str% "[19]"], nationalPrefixFormattingRule := some (str% "$NP$FG") }] }

/-- territory id=SE countryCode=46 -/
noncomputable def SE : Loader.Metadata :=
  { general := some { nationalNumber := some (str% "\n          (?:\n            [26]\\d\\d|\n            9\n          )\\d{9}|\n          [1-9]\\d{8}|\n          [1-689]\\d{7}|\n          [1-4689]\\d{6}|\n          2\\d{5}\n        ") },
    fixedLine := some { nationalNumber := some (str% "\n          (?:\n            (?:\n              [12][136]|\n              3[356]|\n              4[0246]|\n              6[03]|\n              8\\d\n            )\\d|\n            90[1-9]\n          )\\d{4,6}|\n          (?:\n            1(?:\n              2[0-35]|\n              4[0-4]|\n              5[0-25-9]|\n              7[13-6]|\n              [89]\\d\n            )|\n            2(?:\n              2[0-7]|\n              4[0136-8]|\n              5[0138]|\n              7[018]|\n              8[01]|\n              9[0-57]\n            )|\n            3(?:\n              0[0-4]|\n              1\\d|\n              2[0-25]|\n              4[056]|\n              7[0-2]|\n              8[0-3]|\n              9[023]\n            )|\n            4(?:\n              1[013-8]|\n              3[0135]|\n              5[14-79]|\n              7[0-246-9]|\n              8[0156]|\n              9[0-689]\n            )|\n            5(?:\n              0[0-6]|\n              [15][0-5]|\n              2[0-68]|\n              3[0-4]|\n              4\\d|\n              6[03-5]|\n              7[013]|\n              8[0-79]|\n              9[01]\n            )|\n            6(?:\n              1[1-3]|\n              2[0-4]|\n              4[02-57]|\n              5[0-37]|\n              6[0-3]|\n              7[0-2]|\n              8[0247]|\n              9[0-356]\n            )|\n            9(?:\n              1[0-68]|\n              2\\d|\n              3[02-5]|\n              4[0-3]|\n              5[0-4]|\n              [68][01]|\n              7[0135-8]\n            )\n          )\\d{5,6}\n        "), possibleLength := [7, 8, 9], example? := some (str% "8123456") },
    mobile := some { nationalNumber := some (str% "7[02369]\\d{7}"), possibleLength := [9], example? := some (str% "701234567") },
    tollFree := some { nationalNumber := some (str% "20\\d{4,7}"), possibleLength := [6, 7, 8, 9], example? := some (str% "20123456") },
    premiumRate := some { nationalNumber := some (str% "\n          649\\d{6}|\n          99[1-59]\\d{4}(?:\n            \\d{3}\n          )?|\n          9(?:\n            00|\n            39|\n            44\n          )[1-8]\\d{3,6}\n        "), possibleLength := [7, 8, 9, 10], example? := some (str% "9001234567") },
    sharedCost := some { nationalNumber := some (str% "77[0-7]\\d{6}"), possibleLength := [9], example? := some (str% "771234567") },
    personalNumber := some { nationalNumber := some (str% "75[1-8]\\d{6}"), possibleLength := [9], example? := some (str% "751234567") },
    pager := some { nationalNumber := some (str% "74[02-9]\\d{6}"), possibleLength := [9], example? := some (str% "740123456") },
    uan := some { nationalNumber := some (str% "10[1-8]\\d{6}"), possibleLength := [9], example? := some (str% "102345678") },
    voicemail := some { nationalNumber := some (str% "\n          (?:\n            25[245]|\n            67[3-68]\n          )\\d{9}\n        "), possibleLength := [12], example? := some (str% "254123456789") },
    id := some (str% "SE"),
    countryCode := some 46,
    internationalPrefix := some (str% "00"),
    nationalPrefix := some (str% "0"),
    formats := [
      { pattern := some (str% "(\\d{2})(\\d{2,3})(\\d{2})"), format := some (str% "$1-$2 $3"), leadingDigits := [str% "20"], nationalPrefixFormattingRule := some (str% "$NP$FG") },
      { pattern := some (str% "(\\d{3})(\\d{4})"), format := some (str% "$1-$2"), leadingDigits := [str% "\n            9(?:\n              00|\n              39|\n              44|\n              9\n            )\n          "], nationalPrefixFormattingRule := some (str% "$NP$FG") },
      { pattern := some (str% "(\\d{2})(\\d{3})(\\d{2})"), format := some (str% "$1-$2 $3"), leadingDigits := [str% "\n            [12][136]|\n            3[356]|\n            4[0246]|\n            6[03]|\n            90[1-9]\n          "], nationalPrefixFormattingRule := some (str% "$NP$FG") },
      { pattern := some (str% "(\\d)(\\d{2,3})(\\d{2})(\\d{2})"), format := some (str% "$1-$2 $3 $4"), leadingDigits := [str% "8"], nationalPrefixFormattingRule := some (str% "$NP$FG") },
      { pattern := some (str% "(\\d{3})(\\d{2,3})(\\d{2})"), format := some (str% "$1-$2 $3"), leadingDigits := [str% "\n            1[2457]|\n            2(?:\n              [247-9]|\n              5[0138]\n            )|\n            3[0247-9]|\n            4[1357-9]|\n            5[0-35-9]|\n            6(?:\n              [125689]|\n              4[02-57]|\n              7[0-2]\n            )|\n            9(?:\n              [125-8]|\n              3[02-5]|\n              4[0-3]\n            )\n          "], nationalPrefixFormattingRule := some (str% "$NP$FG") },
      { pattern := some (str% "(\\d{3})(\\d{2,3})(\\d{3})"), format := some (str% "$1-$2 $3"), leadingDigits := [str% "\n            9(?:\n              00|\n              39|\n              44\n            )\n          "], nationalPrefixFormattingRule := some (str% "$NP$FG") },
      { pattern := some (str% "(\\d{2})(\\d{2,3})(\\d{2})(\\d{2})"), format := some (str% "$1-$2 $3 $4"), leadingDigits := [str% "\n            1[13689]|\n            2[0136]|\n            3[1356]|\n            4[0246]|\n            54|\n            6[03]|\n            90[1-9]\n          "], nationalPrefixFormattingRule := some (str% "$NP$FG") },
      { pattern := some (str% "(\\d{2})(\\d{3})(\\d{2})(\\d{2})"), format := some (str% "$1-$2 $3 $4"), leadingDigits := [str% "\n            10|\n            7\n          "], nationalPrefixFormattingRule := some (str% "$NP$FG") },
      { pattern := some (str% "(\\d)(\\d{3})(\\d{3})(\\d{2})"), format := some (str% "$1-$2 $3 $4"), leadingDigits := [str% "8"], nationalPrefixFormattingRule := some (str% "$NP$FG") },
      { pattern := some (str% "(\\d{3})(\\d{2})(\\d{2})(\\d{2})"), format := some (str% "$1-$2 $3 $4"), leadingDigits := [str% "\n            [13-5]|\n            2(?:\n              [247-9]|\n              5[0138]\n            )|\n            6(?:\n              [124-689]|\n              7[0-2]\n            )|\n            9(?:\n              [125-8]|\n              3[02-5]|\n              4[0-3]\n            )\n          "], nationalPrefixFormattingRule := some (str% "$NP$FG") },
      { pattern := some (str% "(\\d{3})(\\d{2})(\\d{2})(\\d{3})"), format := some (str% "$1-$2 $3 $4"), leadingDigits := [str% "9"], nationalPrefixFormattingRule := some (str% "$NP$FG") },
      { pattern := some (str% "(\\d{3})(\\d{2})(\\d{3})(\\d{2})(\\d{2})"), format := some (str% "$1-$2 $3 $4 $5"), leadingDigits := [str% "[26]"], nationalPrefixFormattingRule := some (str% "$NP$FG") }],
    internationalFormats := [
      { pattern := some (str% "(\\d{2})(\\d{2,3})(\\d{2})"), format := some (str% "$1 $2 $3"), leadingDigits := [str% "20"], nationalPrefixFormattingRule := some (str% "$NP$FG") },
      { pattern := some (str% "(\\d{3})(\\d{4})"), format := some (str% "$1 $2"), leadingDigits := [str% "\n            9(?:\n              00|\n              39|\n              44|\n              9\n            )\n          "], nationalPrefixFormattingRule := some (str% "$NP$FG") },
      { pattern := some (str% "(\\d{2})(\\d{3})(\\d{2})"), format := some (str% "$1 $2 $3"), leadingDigits := [str% "\n            [12][136]|\n            3[356]|\n            4[0246]|\n            6[03]|\n            90[1-9]\n          "], nationalPrefixFormattingRule := some (str% "$NP$FG") },
      { pattern := some (str% "(\\d)(\\d{2,3})(\\d{2})(\\d{2})"), format := some (str% "$1 $2 $3 $4"), leadingDigits := [str% "8"], nationalPrefixFormattingRule := some (str% "$NP$FG") },
      { pattern := some (str% "(\\d{3})(\\d{2,3})(\\d{2})"), format := some (str% "$1 $2 $3"), leadingDigits := [str% "\n            1[2457]|\n            2(?:\n              [247-9]|\n              5[0138]\n            )|\n            3[0247-9]|\n            4[1357-9]|\n            5[0-35-9]|\n            6(?:\n              [125689]|\n              4[02-57]|\n              7[0-2]\n            )|\n            9(?:\n              [125-8]|\n              3[02-5]|\n              4[0-3]\n            )\n          "], nationalPrefixFormattingRule := some (str% "$NP$FG") },
      { pattern := some (str% "(\\d{3})(\\d{2,3})(\\d{3})"), format := some (str% "$1 $2 $3"), leadingDigits := [str% "\n            9(?:\n              00|\n              39|\n              44\n            )\n          "], nationalPrefixFormattingRule := some (str% "$NP$FG") },
      { pattern := some (str% "(\\d{2})(\\d{2,3})(\\d{2})(\\d{2})"), format := some (str% "$1 $2 $3 $4"), leadingDigits := [str% "\n            1[13689]|\n            2[0136]|\n            3[1356]|\n            4[0246]|\n            54|\n            6[03]|\n            90[1-9]\n          "], nationalPrefixFormattingRule := some (str% "$NP$FG") },
      { pattern := some (str% "(\\d{2})(\\d{3})(\\d{2})(\\d{2})"), format := some (str% "$1 $2 $3 $4"), leadingDigits := [str% "\n            10|\n            7\n          "], nationalPrefixFormattingRule := some (str% "$NP$FG") },
      { pattern := some (str% "(\\d)(\\d{3})(\\d{3})(\\d{2})"), format := some (str% "$1 $2 $3 $4"), leadingDigits := [str% "8"], nationalPrefixFormattingRule := some (str% "$NP$FG") },
      { pattern := some (str% "(\\d{3})(\\d{2})(\\d{2})(\\d{2})"), format := some (str% "$1 $2 $3 $4"), leadingDigits := [str% "\n            [13-5]|\n            2(?:\n              [247-9]|\n              5[0138]\n            )|\n            6(?:\n              [124-689]|\n              7[0-2]\n            )|\n            9(?:\n              [125-8]|\n              3[02-5]|\n              4[0-3]\n            )\n          "], nationalPrefixFormattingRule := some (str% "$NP$FG") },
      { pattern := some (str% "(\\d{3})(\\d{2})(\\d{2})(\\d{3})"), format := some (str% "$1 $2 $3 $4"), leadingDigits := [str% "9"], nationalPrefixFormattingRule := some (str% "$NP$FG") },
      { pattern := some (str% "(\\d{3})(\\d{2})(\\d{3})(\\d{2})(\\d{2})"), format := some (str% "$1 $2 $3 $4 $5"), leadingDigits := [str% "[26]"], nationalPrefixFormattingRule := some (str% "$NP$FG") }],
    mobileNumberPortable := true }

/-- territory id=SG countryCode=65 -/
noncomputable def SG : Loader.Metadata :=
  { general := some { nationalNumber := some (str% "\n          (?:\n            (?:\n              1\\d|\n              8\n            )\\d\\d|\n            7000\n          )\\d{7}|\n          [3689]\\d{7}\n        ") },
    fixedLine := some { nationalNumber := some (str% "\n          662[0-24-9]\\d{4}|\n          6(?:\n            [0-578]\\d|\n            6[013-57-9]|\n            9[0-35-9]\n          )\\d{5}\n        "), possibleLength := [8], example? := some (str% "61234567") },
    mobile := some { nationalNumber := some (str% "\n          80[1-9]\\d{5}|\n          (?:\n            8[1-9]|\n            9[0-8]\n          )\\d{6}\n        "), possibleLength := [8], example? := some (str% "81234567") },
    tollFree := some { nationalNumber := some (str% "\n          (?:\n            18|\n            8\n          )00\\d{7}\n        "), possibleLength := [10, 11], example? := some (str% "18001234567") },
    premiumRate := some { nationalNumber := some (str% "1900\\d{7}"), possibleLength := [11], example? := some (str% "19001234567") },
    voip := some { nationalNumber := some (str% "\n          (?:\n            3[12]\\d|\n            666\n          )\\d{5}\n        "), possibleLength := [8], example? := some (str% "31234567") },
    uan := some { nationalNumber := some (str% "7000\\d{7}"), possibleLength := [11], example? := some (str% "70001234567") },
    id := some (str% "SG"),
    countryCode := some 65,
    internationalPrefix := some (str% "0[0-3]\\d"),
    formats := [
      { pattern := some (str% "(\\d{4,5})"), format := some (str% "$1"), leadingDigits := [str% "\n            1[013-9]|\n            77\n          ", str% "\n            1(?:\n              [013-8]|\n              9(?:\n                0[1-9]|\n                [1-9]\n              )\n            )|\n            77\n          "] },
      { pattern := some (str% "(\\d{4})(\\d{4})"), format := some (str% "$1 $2"), leadingDigits := [str% "\n            [369]|\n            8(?:\n              0[1-9]|\n              [1-9]\n            )\n          "] },
      { pattern := some (str% "(\\d{3})(\\d{3})(\\d{4})"), format := some (str% "$1 $2 $3"), leadingDigits := [str% "8"] },
      { pattern := some (str% "(\\d{4})(\\d{4})(\\d{3})"), format := some (str% "$1 $2 $3"), leadingDigits := [str% "7"] },
      { pattern := some (str% "(\\d{4})(\\d{3})(\\d{4})"), format := some (str% "$1 $2 $3"), leadingDigits := [str% "1"] }],
    internationalFormats := [
      { pattern := some (str% "(\\d{4})(\\d{4})"), format := some (str% "$1 $2"), leadingDigits := [str% "\n            [369]|\n            8(?:\n              0[1-9]|\n              [1-9]\n            )\n          "] },
      { pattern := some (str% "(\\d{3})(\\d{3})(\\d{4})"), format := some (str% "$1 $2 $3"), leadingDigits := [str% "8"] },
      { pattern := some (str% "(\\d{4})(\\d{4})(\\d{3})"), format := some (str% "$1 $2 $3"), leadingDigits := [str% "7"] },
      { pattern := some (str% "(\\d{4})(\\d{3})(\\d{4})"), format := some (str% "$1 $2 $3"), leadingDigits := [str% "1"] }],
    mobileNumberPortable := true }

/-- territory id=SH countryCode=290 -/
noncomputable def SH : Loader.Metadata :=
  { general := some { nationalNumber := some (str% "\n          (?:\n            [256]\\d|\n            8\n          )\\d{3}\n        ") },
    fixedLine := some { nationalNumber := some (str% "\n          2(?:\n            [0-57-9]\\d|\n            6[4-9]\n          )\\d\\d\n        "), possibleLength := [4, 5], example? := some (str% "22158") },
    mobile := some { nationalNumber := some (str% "[56]\\d{4}"), possibleLength := [5], example? := some (str% "51234") },
    voip := some { nationalNumber := some (str% "262\\d\\d"), possibleLength := [5], example? := some (str% "26212") },
    id := some (str% "SH"),
    countryCode := some 290,
    internationalPrefix := some (str% "00"),
    mainCountryForCode := true,
    leadingDigits := some (str% "[256]") }

/-- territory id=SI countryCode=386 -/
noncomputable def SI : Loader.Metadata :=
  { general := some { nationalNumber := some (str% "\n          [1-7]\\d{7}|\n          8\\d{4,7}|\n          90\\d{4,6}\n        ") },
    fixedLine := some { nationalNumber := some (str% "\n          (?:\n            [1-357][2-8]|\n            4[24-8]\n          )\\d{6}\n        "), possibleLength := [8], possibleLocalLength := [7], example? := some (str% "12345678") },
    mobile := some { nationalNumber := some (str% "\n          65(?:\n            [178]\\d|\n            5[56]|\n            6[01]\n          )\\d{4}|\n          (?:\n            [37][01]|\n            4[013]|\n            51|\n            6[489]\n          )\\d{6}\n        "), possibleLength := [8], example? := some (str% "31234567") },
    tollFree := some { nationalNumber := some (str% "80\\d{4,6}"), possibleLength := [6, 7, 8], example? := some (str% "80123456") },
    premiumRate := some { nationalNumber := some (str% "\n          89[1-3]\\d{2,5}|\n          90\\d{4,6}\n        "), possibleLength := [5, 6, 7, 8], example? := some (str% "90123456") },
    voip := some { nationalNumber := some (str% "\n          (?:\n            59\\d\\d|\n            8(?:\n              1(?:\n                [67]\\d|\n                8[0-589]\n              )|\n              2(?:\n                0\\d|\n                2[0-37-9]|\n                8[0-2489]\n              )|\n              3[389]\\d\n            )\n          )\\d{4}\n        "), possibleLength := [8], example? := some (str% "59012345") },
    id := some (str% "SI"),
    countryCode := some 386,
    internationalPrefix := some (str% "00|10(?:22|66|88|99)"),
    preferredInternationalPrefix := some (str% "00"),
    nationalPrefix := some (str% "0"),
    formats := [
      { pattern := some (str% "(\\d{2})(\\d{3,6})"), format := some (str% "$1 $2"), leadingDigits := [str% "\n            8[09]|\n            9\n          "], nationalPrefixFormattingRule := some (str% "$NP$FG") },
      { pattern := some (str% "(\\d{3})(\\d{5})"), format := some (str% "$1 $2"), leadingDigits := [str% "\n            59|\n            8\n          "], nationalPrefixFormattingRule := some (str% "$NP$FG") },
      { pattern := some (str% "(\\d{2})(\\d{3})(\\d{3})"), format := some (str% "$1 $2 $3"), leadingDigits := [str% "\n            [37][01]|\n            4[013]|\n            51|\n            6\n          "], nationalPrefixFormattingRule := some (str% "$NP$FG") },
      { pattern := some (str% "(\\d)(\\d{3})(\\d{2})(\\d{2})"), format := some (str% "$1 $2 $3 $4"), leadingDigits := [str% "[1-57]"], nationalPrefixFormattingRule := some (str% "($NP$FG)") }],
    internationalFormats := [
      { pattern := some (str% "(\\d{2})(\\d{3,6})"), format := some (str% "$1 $2"), leadingDigits := [str% "\n            8[09]|\n            9\n          "], nationalPrefixFormattingRule := some (str% "$NP$FG") },
      { pattern := some (str% "(\\d{3})(\\d{5})"), format := some (str% "$1 $2"), leadingDigits := [str% "\n            59|\n            8\n          "], nationalPrefixFormattingRule := some (str% "$NP$FG") },
      { pattern := some (str% "(\\d{2})(\\d{3})(\\d{3})"), format := some (str% "$1 $2 $3"), leadingDigits := [str% "\n            [37][01]|\n            4[013]|\n            51|\n            6\n          "], nationalPrefixFormattingRule := some (str% "$NP$FG") },
      { pattern := some (str% "(\\d)(\\d{3})(\\d{2})(\\d{2})"), format := some (str% "$1 $2 $3 $4"), leadingDigits := [str% "[1-57]"], nationalPrefixFormattingRule := some (str% "($NP$FG)") }],
    mobileNumberPortable := true }

/-- territory id=SJ countryCode=47 -/
noncomputable def SJ : Loader.Metadata :=
  { general := some { nationalNumber := some (str% "\n          0\\d{4}|\n          (?:\n            [489]\\d|\n            79\n          )\\d{6}\n        ") },
    fixedLine := some { nationalNumber := some (str% "79\\d{6}"), possibleLength := [8], example? := some (str% "79123456") },
    mobile := some { nationalNumber := some (str% "[49]\\d{7}"), possibleLength := [8], example? := some (str% "41234567") },
    tollFree := some { nationalNumber := some (str% "80[01]\\d{5}"), possibleLength := [8], example? := some (str% "80012345") },
    premiumRate := some { nationalNumber := some (str% "82[09]\\d{5}"), possibleLength := [8], example? := some (str% "82012345") },
    sharedCost := some { nationalNumber := some (str% "\n          810(?:\n            0[0-6]|\n            [2-8]\\d\n          )\\d{3}\n        "), possibleLength := [8], example? := some (str% "81021234") },
    personalNumber := some { nationalNumber := some (str% "880\\d{5}"), possibleLength := [8], example? := some (str% "88012345") },
    voip := some { nationalNumber := some (str% "85[0-5]\\d{5}"), possibleLength := [8], example? := some (str% "85012345") },
    uan := some { nationalNumber := some (str% "\n          (?:\n            0[235-9]|\n            81(?:\n              0(?:\n                0[7-9]|\n                1\\d\n              )|\n              5\\d\\d\n            )\n          )\\d{3}\n        "), possibleLength := [5, 8], example? := some (str% "02000") },
    voicemail := some { nationalNumber := some (str% "81[23]\\d{5}"), possibleLength := [8], example? := some (str% "81212345") },
    id := some (str% "SJ"),
    countryCode := some 47,
    internationalPrefix := some (str% "00"),
    leadingDigits := some (str% "79") }

/-- territory id=SK countryCode=421 -/
noncomputable def SK : Loader.Metadata :=
  { general := some { nationalNumber := some (str% "\n          [2-689]\\d{8}|\n          [2-59]\\d{6}|\n          [2-5]\\d{5}\n        ") },
    fixedLine := some { nationalNumber := some (str% "\n          (?:\n            2(?:\n              16|\n              [2-9]\\d{3}\n            )|\n            (?:\n              (?:\n                [3-5][1-8]\\d|\n                819\n              )\\d|\n              601[1-5]\n            )\\d\n          )\\d{4}|\n          (?:\n            2|\n            [3-5][1-8]\n          )1[67]\\d{3}|\n          [3-5][1-8]16\\d\\d\n        "), possibleLength := [6, 7, 9], example? := some (str% "221234567") },
    mobile := some { nationalNumber := some (str% "\n          909[1-9]\\d{5}|\n          9(?:\n            0[1-8]|\n            1[0-24-9]|\n            4[03-57-9]|\n            5\\d\n          )\\d{6}\n        "), possibleLength := [9], example? := some (str% "912123456") },
    tollFree := some { nationalNumber := some (str% "800\\d{6}"), possibleLength := [9], example? := some (str% "800123456") },
    premiumRate := some { nationalNumber := some (str% "\n          9(?:\n            00|\n            [78]\\d\n          )\\d{6}\n        "), possibleLength := [9], example? := some (str% "900123456") },
    sharedCost := some { nationalNumber := some (str% "8[5-9]\\d{7}"), possibleLength := [9], example? := some (str% "850123456") },
    voip := some { nationalNumber := some (str% "\n          6(?:\n            02|\n            5[0-4]|\n            9[0-6]\n          )\\d{6}\n        "), possibleLength := [9], example? := some (str% "690123456") },
    pager := some { nationalNumber := some (str% "9090\\d{3}"), possibleLength := [7], example? := some (str% "9090123") },
    uan := some { nationalNumber := some (str% "96\\d{7}"), possibleLength := [9], example? := some (str% "961234567") },
    noInternational := some { nationalNumber := some (str% "\n          9090\\d{3}|\n          (?:\n            602|\n            8(?:\n              00|\n              [5-9]\\d\n            )|\n            9(?:\n              00|\n              [78]\\d\n            )\n          )\\d{6}\n        "), possibleLength := [7, 9] },
    id := some (str% "SK"),
    countryCode := some 421,
    internationalPrefix := some (str% "00"),
    nationalPrefix := some (str% "0"),
    formats := [
      { pattern := some (str% "(\\d)(\\d{2})(\\d{3,4})"), format := some (str% "$1 $2 $3"), leadingDigits := [str% "21"], nationalPrefixFormattingRule := some (str% "$NP$FG") },
      { pattern := some (str% "(\\d{2})(\\d{2})(\\d{2,3})"), format := some (str% "$1 $2 $3"), leadingDigits := [str% "[3-5][1-8]1", str% "[3-5][1-8]1[67]"], nationalPrefixFormattingRule := some (str% "$NP$FG") },
      { pattern := some (str% "(\\d{4})(\\d{3})"), format := some (str% "$1 $2"), leadingDigits := [str% "909", str% "9090"], nationalPrefixFormattingRule := some (str% "$NP$FG") },
      { pattern := some (str% "(\\d)(\\d{3})(\\d{3})(\\d{2})"), format := some (str% "$1 $2 $3 $4"), leadingDigits := [str% "2"], nationalPrefixFormattingRule := some (str% "$NP$FG") },
      { pattern := some (str% "(\\d{3})(\\d{3})(\\d{3})"), format := some (str% "$1 $2 $3"), leadingDigits := [str% "[689]"], nationalPrefixFormattingRule := some (str% "$NP$FG") },
      { pattern := some (str% "(\\d{2})(\\d{3})(\\d{2})(\\d{2})"), format := some (str% "$1 $2 $3 $4"), leadingDigits := [str% "[3-5]"], nationalPrefixFormattingRule := some (str% "$NP$FG") }],
    internationalFormats := [
      { pattern := some (str% "(\\d)(\\d{2})(\\d{3,4})"), format := some (str% "$1 $2 $3"), leadingDigits := [str% "21"], nationalPrefixFormattingRule := some (str% "$NP$FG") },
      { pattern := some (str% "(\\d{2})(\\d{2})(\\d{2,3})"), format := some (str% "$1 $2 $3"), leadingDigits := [str% "[3-5][1-8]1", str% "[3-5][1-8]1[67]"], nationalPrefixFormattingRule := some (str% "$NP$FG") },
      { pattern := some (str% "(\\d)(\\d{3})(\\d{3})(\\d{2})"), format := some (str% "$1 $2 $3 $4"), leadingDigits := [str% "2"], nationalPrefixFormattingRule := some (str% "$NP$FG") },
      { pattern := some (str% "(\\d{3})(\\d{3})(\\d{3})"), format := some (str% "$1 $2 $3"), leadingDigits := [str% "[689]"], nationalPrefixFormattingRule := some (str% "$NP$FG") },
      { pattern := some (str% "(\\d{2})(\\d{3})(\\d{2})(\\d{2})"), format := some (str% "$1 $2 $3 $4"), leadingDigits := [str% "[3-5]"], nationalPrefixFormattingRule := some (str% "$NP$FG") }],
    mobileNumberPortable := true }

/-- territory id=SL countryCode=232 -/
noncomputable def SL : Loader.Metadata :=
  { general := some { nationalNumber := some (str% "\n          (?:\n            [237-9]\\d|\n            66\n          )\\d{6}\n        ") },
    fixedLine := some { nationalNumber := some (str% "22[2-4][2-9]\\d{4}"), possibleLength := [8], possibleLocalLength := [6], example? := some (str% "22221234") },
    mobile := some { nationalNumber := some (str% "\n          (?:\n            25|\n            3[0-5]|\n            66|\n            7\\d|\n            8[08]|\n            9[09]\n          )\\d{6}\n        "), possibleLength := [8], example? := some (str% "25123456") },
    id := some (str% "SL"),
    countryCode := some 232,
    internationalPrefix := some (str% "00"),
    nationalPrefix := some (str% "0"),
    formats := [
      { pattern := some (str% "(\\d{2})(\\d{6})"), format := some (str% "$1 $2"), leadingDigits := [str% "[236-9]"], nationalPrefixFormattingRule := some (str% "($NP$FG)") }],
    internationalFormats := [
      { pattern := some (str% "(\\d{2})(\\d{6})"), format := some (str% "$1 $2"), leadingDigits := [str% "[236-9]"], nationalPrefixFormattingRule := some (str% "($NP$FG)") }] }

/-- territory id=SM countryCode=378 -/
noncomputable def SM : Loader.Metadata :=
  { general := some { nationalNumber := some (str% "\n          (?:\n            0549|\n            [5-7]\\d\n          )\\d{6}\n        ") },
    fixedLine := some { nationalNumber := some (str% "\n          0549(?:\n            8[0157-9]|\n            9\\d\n          )\\d{4}\n        "), possibleLength := [10], possibleLocalLength := [6], example? := some (str% "0549886377") },
    mobile := some { nationalNumber := some (str% "6[16]\\d{6}"), possibleLength := [8], example? := some (str% "66661212") },
    premiumRate := some { nationalNumber := some (str% "7[178]\\d{6}"), possibleLength := [8], example? := some (str% "71123456") },
    voip := some { nationalNumber := some (str% "5[158]\\d{6}"), possibleLength := [8], example? := some (str% "58001110") },
    id := some (str% "SM"),
    countryCode := some 378,
    internationalPrefix := some (str% "00"),
    nationalPrefixForParsing := some (str% "([89]\\d{5})$"),
    nationalPrefixTransformRule := some (str% "0549$1"),
    formats := [
      { pattern := some (str% "(\\d{6})"), format := some (str% "$1"), leadingDigits := [str% "[89]"] },
      { pattern := some (str% "(\\d{2})(\\d{2})(\\d{2})(\\d{2})"), format := some (str% "$1 $2 $3 $4"), leadingDigits := [str% "[5-7]"] },
      { pattern := some (str% "(\\d{4})(\\d{6})"), format := some (str% "$1 $2"), leadingDigits := [str% "0"] }],
    internationalFormats := [
      { pattern := some (str% "(\\d{2})(\\d{2})(\\d{2})(\\d{2})"), format := some (str% "$1 $2 $3 $4"), leadingDigits := [str% "[5-7]"] },
      { pattern := some (str% "(\\d{4})(\\d{6})"), format := some (str% "$1 $2"), leadingDigits := [str% "0"] }] }

/-- territory id=SN countryCode=221 -/
noncomputable def SN : Loader.Metadata :=
  { general := some { nationalNumber := some (str% "\n          (?:\n            [378]\\d|\n            93\n          )\\d{7}\n        ") },
    fixedLine := some { nationalNumber := some (str% "\n          3(?:\n            0(?:\n              1[0-2]|\n              80\n            )|\n            282|\n            3(?:\n              8[1-9]|\n              9[3-9]\n            )|\n            611\n          )\\d{5}\n        "), possibleLength := [9], example? := some (str% "301012345") },
    mobile := some { nationalNumber := some (str% "\n          7(?:\n            [015-8]\\d|\n            21|\n            90\n          )\\d{6}\n        "), possibleLength := [9], example? := some (str% "701234567") },
    tollFree := some { nationalNumber := some (str% "800\\d{6}"), possibleLength := [9], example? := some (str% "800123456") },
    premiumRate := some { nationalNumber := some (str% "88[4689]\\d{6}"), possibleLength := [9], example? := some (str% "884123456") },
    sharedCost := some { nationalNumber := some (str% "81[02468]\\d{6}"), possibleLength := [9], example? := some (str% "810123456") },
    voip := some { nationalNumber := some (str% "\n          (?:\n            3(?:\n              392|\n              9[01]\\d\n            )\\d|\n            93(?:\n              3[13]0|\n              929\n            )\n          )\\d{4}\n        "), possibleLength := [9], example? := some (str% "933301234") },
    id := some (str% "SN"),
    countryCode := some 221,
    internationalPrefix := some (str% "00"),
    formats := [
      { pattern := some (str% "(\\d{3})(\\d{2})(\\d{2})(\\d{2})"), format := some (str% "$1 $2 $3 $4"), leadingDigits := [str% "8"] },
      { pattern := some (str% "(\\d{2})(\\d{3})(\\d{2})(\\d{2})"), format := some (str% "$1 $2 $3 $4"), leadingDigits := [str% "[379]"] }],
    internationalFormats := [
      { pattern := some (str% "(\\d{3})(\\d{2})(\\d{2})(\\d{2})"), format := some (str% "$1 $2 $3 $4"), leadingDigits := [str% "8"] },
      { pattern := some (str% "(\\d{2})(\\d{3})(\\d{2})(\\d{2})"), format := some (str% "$1 $2 $3 $4"), leadingDigits := [str% "[379]"] }] }

/-- territory id=SO countryCode=252 -/
noncomputable def SO : Loader.Metadata :=
  { general := some { nationalNumber := some (str% "\n          [346-9]\\d{8}|\n          [12679]\\d{7}|\n          [1-5]\\d{6}|\n          [1348]\\d{5}\n        ") },
    fixedLine := some { nationalNumber := some (str% "\n          (?:\n            1\\d|\n            2[0-79]|\n            3[0-46-8]|\n            4[0-7]|\n            5[57-9]\n          )\\d{5}|\n          (?:\n            [134]\\d|\n            8[125]\n          )\\d{4}\n        "), possibleLength := [6, 7], example? := some (str% "4012345") },
    mobile := some { nationalNumber := some (str% "\n          (?:\n            (?:\n              15|\n              (?:\n                3[59]|\n                4[89]|\n                6\\d|\n                7[0-35-9]|\n                8[08]\n              )\\d|\n              9(?:\n                0\\d|\n                [2-9]\n              )\n            )\\d|\n            2(?:\n              4\\d|\n              8\n            )\n          )\\d{5}|\n          (?:\n            [67]\\d\\d|\n            904\n          )\\d{5}\n        "), possibleLength := [7, 8, 9], example? := some (str% "71123456") },
    id := some (str% "SO"),
    countryCode := some 252,
    internationalPrefix := some (str% "00"),
    nationalPrefix := some (str% "0"),
    formats := [
      { pattern := some (str% "(\\d{2})(\\d{4})"), format := some (str% "$1 $2"), leadingDigits := [str% "8[125]"] },
      { pattern := some (str% "(\\d{6})"), format := some (str% "$1"), leadingDigits := [str% "[134]"] },
      { pattern := some (str% "(\\d)(\\d{6})"), format := some (str% "$1 $2"), leadingDigits := [str% "\n            [15]|\n            2[0-79]|\n            3[0-46-8]|\n            4[0-7]\n          "] },
      { pattern := some (str% "(\\d{2})(\\d{5,7})"), format := some (str% "$1 $2"), leadingDigits := [str% "\n            1|\n            28|\n            9[2-9]\n          "] },
      { pattern := some (str% "(\\d)(\\d{7})"), format := some (str% "$1 $2"), leadingDigits := [str% "\n            [267]|\n            904\n          "] },
      { pattern := some (str% "(\\d{2})(\\d{3})(\\d{4})"), format := some (str% "$1 $2 $3"), leadingDigits := [str% "[346-9]"] }],
    internationalFormats := [
      { pattern := some (str% "(\\d{2})(\\d{4})"), format := some (str% "$1 $2"), leadingDigits := [str% "8[125]"] },
      { pattern := some (str% "(\\d{6})"), format := some (str% "$1"), leadingDigits := [str% "[134]"] },
      { pattern := some (str% "(\\d)(\\d{6})"), format := some (str% "$1 $2"), leadingDigits := [str% "\n            [15]|\n            2[0-79]|\n            3[0-46-8]|\n            4[0-7]\n          "] },
      { pattern := some (str% "(\\d{2})(\\d{5,7})"), format := some (str% "$1 $2"), leadingDigits := [str% "\n            1|\n            28|\n            9[2-9]\n          "] },
      { pattern := some (str% "(\\d)(\\d{7})"), format := some (str% "$1 $2"), leadingDigits := [str% "\n            [267]|\n            904\n          "] },
      { pattern := some (str% "(\\d{2})(\\d{3})(\\d{4})"), format := some (str% "$1 $2 $3"), leadingDigits := [str% "[346-9]"] }] }

/-- territory id=SR countryCode=597 -/
noncomputable def SR : Loader.Metadata :=
  { general := some { nationalNumber := some (str% "\n          (?:\n            [2-5]|\n            [6-9]\\d\n          )\\d{5}\n        ") },
    fixedLine := some { nationalNumber := some (str% "\n          (?:\n            2[1-3]|\n            3[0-7]|\n            4\\d|\n            5[2-578]\n          )\\d{4}\n        "), possibleLength := [6], example? := some (str% "211234") },
    mobile := some { nationalNumber := some (str% "\n          (?:\n            6[08]|\n            7[124-7]|\n            8[1-9]\n          )\\d{5}\n        "), possibleLength := [7], example? := some (str% "7412345") },
    tollFree := some { nationalNumber := some (str% "80\\d{5}"), possibleLength := [7], example? := some (str% "8012345") },
    premiumRate := some { nationalNumber := some (str% "90\\d{5}"), possibleLength := [7], example? := some (str% "9012345") },
    voip := some { nationalNumber := some (str% "\n          (?:\n            56|\n            91\\d\n          )\\d{4}\n        "), possibleLength := [6, 7], example? := some (str% "561234") },
    id := some (str% "SR"),
    countryCode := some 597,
    internationalPrefix := some (str% "00"),
    formats := [
      { pattern := some (str% "(\\d{2})(\\d{2})(\\d{2})"), format := some (str% "$1-$2-$3"), leadingDigits := [str% "56"] },
      { pattern := some (str% "(\\d{3})(\\d{3})"), format := some (str% "$1-$2"), leadingDigits := [str% "[2-5]"] },
      { pattern := some (str% "(\\d{3})(\\d{4})"), format := some (str% "$1-$2"), leadingDigits := [str% "[6-9]"] }],
    internationalFormats := [
      { pattern := some (str% "(\\d{2})(\\d{2})(\\d{2})"), format := some (str% "$1-$2-$3"), leadingDigits := [str% "56"] },
      { pattern := some (str% "(\\d{3})(\\d{3})"), format := some (str% "$1-$2"), leadingDigits := [str% "[2-5]"] },
      { pattern := some (str% "(\\d{3})(\\d{4})"), format := some (str% "$1-$2"), leadingDigits := [str% "[6-9]"] }] }

/-- territory id=SS countryCode=211 -/
noncomputable def SS : Loader.Metadata :=
  { general := some { nationalNumber := some (str% "[19]\\d{8}") },
    fixedLine := some { nationalNumber := some (str% "1[89]\\d{7}"), possibleLength := [9], example? := some (str% "181234567") },
    mobile := some { nationalNumber := some (str% "\n          (?:\n            12|\n            9[1257-9]\n          )\\d{7}\n        "), possibleLength := [9], example? := some (str% "977123456") },
    id := some (str% "SS"),
    countryCode := some 211,
    internationalPrefix := some (str% "00"),
    nationalPrefix := some (str% "0"),
    formats := [
      { pattern := some (str% "(\\d{3})(\\d{3})(\\d{3})"), format := some (str% "$1 $2 $3"), leadingDigits := [str% "[19]"], nationalPrefixFormattingRule := some (str% "$NP$FG") }],
    internationalFormats := [
      { pattern := some (str% "(\\d{3})(\\d{3})(\\d{3})"), format := some (str% "$1 $2 $3"), leadingDigits := [str% "[19]"], nationalPrefixFormattingRule := some (str% "$NP$FG") }] }

/-- territory id=ST countryCode=239 -/
noncomputable def ST : Loader.Metadata :=
  { general := some { nationalNumber := some (str% "\n          (?:\n            22|\n            9\\d\n          )\\d{5}\n        ") },
    fixedLine := some { nationalNumber := some (str% "22\\d{5}"), possibleLength := [7], example? := some (str% "2221234") },
    mobile := some { nationalNumber := some (str% "\n          900[5-9]\\d{3}|\n          9(?:\n            0[1-9]|\n            [89]\\d\n          )\\d{4}\n        "), possibleLength := [7], example? := some (str% "9812345") },
    id := some (str% "ST"),
    countryCode := some 239,
    internationalPrefix := some (str% "00"),
    formats := [
      { pattern := some (str% "(\\d{3})(\\d{4})"), format := some (str% "$1 $2"), leadingDigits := [str% "[29]"] }],
    internationalFormats := [
      { pattern := some (str% "(\\d{3})(\\d{4})"), format := some (str% "$1 $2"), leadingDigits := [str% "[29]"] }] }

/-- territory id=SV countryCode=503 -/
noncomputable def SV : Loader.Metadata :=
  { general := some { nationalNumber := some (str% "\n          [25-7]\\d{7}|\n          (?:\n            80\\d|\n            900\n          )\\d{4}(?:\n            \\d{4}\n          )?\n        ") },
    fixedLine := some { nationalNumber := some (str% "\n          2(?:\n            79(?:\n              0[0347-9]|\n              [1-9]\\d\n            )|\n            89(?:\n              0[024589]|\n              [1-9]\\d\n            )\n          )\\d{3}|\n          2(?:\n            [1-69]\\d|\n            [78][0-8]\n          )\\d{5}\n        "), possibleLength := [8], example? := some (str% "21234567") },
    mobile := some { nationalNumber := some (str% "[5-7]\\d{7}"), possibleLength := [8], example? := some (str% "70123456") },
    tollFree := some { nationalNumber := some (str% "\n          800\\d{8}|\n          80[01]\\d{4}\n        "), possibleLength := [7, 11], example? := some (str% "8001234") },
    premiumRate := some { nationalNumber := some (str% "\n          900\\d{4}(?:\n            \\d{4}\n          )?\n        "), possibleLength := [7, 11], example? := some (str% "9001234") },
    id := some (str% "SV"),
    countryCode := some 503,
    internationalPrefix := some (str% "00"),
    formats := [
      { pattern := some (str% "(\\d{3})(\\d{4})"), format := some (str% "$1 $2"), leadingDigits := [str% "[89]"] },
      { pattern := some (str% "(\\d{4})(\\d{4})"), format := some (str% "$1 $2"), leadingDigits := [str% "[25-7]"] },
      { pattern := some (str% "(\\d{3})(\\d{4})(\\d{4})"), format := some (str% "$1 $2 $3"), leadingDigits := [str% "[89]"] }],
    internationalFormats := [
      { pattern := some (str% "(\\d{3})(\\d{4})"), format := some (str% "$1 $2"), leadingDigits := [str% "[89]"] },
      { pattern := some (str% "(\\d{4})(\\d{4})"), format := some (str% "$1 $2"), leadingDigits := [str% "[25-7]"] },
      { pattern := some (str% "(\\d{3})(\\d{4})(\\d{4})"), format := some (str% "$1 $2 $3"), leadingDigits := [str% "[89]"] }] }

/-- territory id=SX countryCode=1 -/
noncomputable def SX : Loader.Metadata :=
  { general := some { nationalNumber := some (str% "\n          7215\\d{6}|\n          (?:\n            [58]\\d\\d|\n            900\n          )\\d{7}\n        ") },
    fixedLine := some { nationalNumber := some (str% "\n          7215(?:\n            4[2-8]|\n            8[39]|\n            9[056]\n          )\\d{4}\n        "), possibleLength := [10], possibleLocalLength := [7], example? := some (str% "7215425678") },
    mobile := some { nationalNumber := some (str% "\n          7215(?:\n            1[02]|\n            2\\d|\n            5[034679]|\n            8[0-24-8]\n          )\\d{4}\n        "), possibleLength := [10], possibleLocalLength := [7], example? := some (str% "7215205678") },
    tollFree := some { nationalNumber := some (str% "\n          8(?:\n            00|\n            33|\n            44|\n            55|\n            66|\n            77|\n            88\n          )[2-9]\\d{6}\n        "), possibleLength := [10], example? := some (str% "8002123456") },
    premiumRate := some { nationalNumber := some (str% "900[2-9]\\d{6}"), possibleLength := [10], example? := some (str% "9002123456") },
    personalNumber := some { nationalNumber := some (str% "\n          52(?:\n            3(?:\n              [2-46-9][02-9]\\d|\n              5(?:\n                [02-46-9]\\d|\n                5[0-46-9]\n              )\n            )|\n            4(?:\n              [2-478][02-9]\\d|\n              5(?:\n                [034]\\d|\n                2[024-9]|\n                5[0-46-9]\n              )|\n              6(?:\n                0[1-9]|\n                [2-9]\\d\n              )|\n              9(?:\n                [05-9]\\d|\n                2[0-5]|\n                49\n              )\n            )\n          )\\d{4}|\n          52[34][2-9]1[02-9]\\d{4}|\n          5(?:\n            00|\n            2[125-9]|\n            3[23]|\n            44|\n            66|\n            77|\n            88\n          )[2-9]\\d{6}\n        "), possibleLength := [10], example? := some (str% "5002345678") },
    id := some (str% "SX"),
    countryCode := some 1,
    internationalPrefix := some (str% "011"),
    nationalPrefix := some (str% "1"),
    nationalPrefixForParsing := some (str% "(5\\d{6})$|1"),
    nationalPrefixTransformRule := some (str% "721$1"),
    leadingDigits := some (str% "721"),
    mobileNumberPortable := true }

/-- territory id=SY countryCode=963 -/
noncomputable def SY : Loader.Metadata :=
  { general := some { nationalNumber := some (str% "\n          [1-359]\\d{8}|\n          [1-5]\\d{7}\n        ") },
    fixedLine := some { nationalNumber := some (str% "\n          21\\d{6,7}|\n          (?:\n            1(?:\n              [14]\\d|\n              [2356]\n            )|\n            2[235]|\n            3(?:\n              [13]\\d|\n              4\n            )|\n            4[134]|\n            5[1-3]\n          )\\d{6}\n        "), possibleLength := [8, 9], possibleLocalLength := [6, 7], example? := some (str% "112345678") },
    mobile := some { nationalNumber := some (str% "\n          (?:\n            50|\n            9[1-9]\n          )\\d{7}\n        "), possibleLength := [9], example? := some (str% "944567890") },
    id := some (str% "SY"),
    countryCode := some 963,
    internationalPrefix := some (str% "00"),
    nationalPrefix := some (str% "0"),
    formats := [
      { pattern := some (str% "(\\d{2})(\\d{3})(\\d{3,4})"), format := some (str% "$1 $2 $3"), leadingDigits := [str% "\n            [1-4]|\n            5[1-3]\n          "], nationalPrefixFormattingRule := some (str% "$NP$FG"), nationalPrefixOptionalWhenFormatting := true },
      { pattern := some (str% "(\\d{3})(\\d{3})(\\d{3})"), format := some (str% "$1 $2 $3"), leadingDigits := [str% "[59]"], nationalPrefixFormattingRule := some (str% "$NP$FG"), nationalPrefixOptionalWhenFormatting := true }],
    internationalFormats := [
      { pattern := some (str% "(\\d{2})(\\d{3})(\\d{3,4})"), format := some (str% "$1 $2 $3"), leadingDigits := [str% "\n            [1-4]|\n            5[1-3]\n          "], nationalPrefixFormattingRule := some (str% "$NP$FG"), nationalPrefixOptionalWhenFormatting := true },
      { pattern := some (str% "(\\d{3})(\\d{3})(\\d{3})"), format := some (str% "$1 $2 $3"), leadingDigits := [str% "[59]"], nationalPrefixFormattingRule := some (str% "$NP$FG"), nationalPrefixOptionalWhenFormatting := true }] }

/-- territory id=SZ countryCode=268 -/
noncomputable def SZ : Loader.Metadata :=
  { general := some { nationalNumber := some (str% "\n          0800\\d{4}|\n          (?:\n            [237]\\d|\n            900\n          )\\d{6}\n        ") },
    fixedLine := some { nationalNumber := some (str% "[23][2-5]\\d{6}"), possibleLength := [8], example? := some (str% "22171234") },
    mobile := some { nationalNumber := some (str% "7[5-9]\\d{6}"), possibleLength := [8], example? := some (str% "76123456") },
    tollFree := some { nationalNumber := some (str% "0800\\d{4}"), possibleLength := [8], example? := some (str% "08001234") },
    premiumRate := some { nationalNumber := some (str% "900\\d{6}"), possibleLength := [9], example? := some (str% "900012345") },
    voip := some { nationalNumber := some (str% "70\\d{6}"), possibleLength := [8], example? := some (str% "70012345") },
    noInternational := some { nationalNumber := some (str% "0800\\d{4}"), possibleLength := [8] },
    id := some (str% "SZ"),
    countryCode := some 268,
    internationalPrefix := some (str% "00"),
    formats := [
      { pattern := some (str% "(\\d{4})(\\d{4})"), format := some (str% "$1 $2"), leadingDigits := [str% "[0237]"] },
      { pattern := some (str% "(\\d{5})(\\d{4})"), format := some (str% "$1 $2"), leadingDigits := [str% "9"] }],
    internationalFormats := [
      { pattern := some (str% "(\\d{4})(\\d{4})"), format := some (str% "$1 $2"), leadingDigits := [str% "[0237]"] },
      { pattern := some (str% "(\\d{5})(\\d{4})"), format := some (str% "$1 $2"), leadingDigits := [str% "9"] }] }

/-- territory id=TA countryCode=290 -/
noncomputable def TA : Loader.Metadata :=
  { general := some { nationalNumber := some (str% "8\\d{3}") },
    fixedLine := some { nationalNumber := some (str% "8\\d{3}"), possibleLength := [4], example? := some (str% "8999") },
    id := some (str% "TA"),
    countryCode := some 290,
    internationalPrefix := some (str% "00"),
    leadingDigits := some (str% "8") }

/-- territory id=TC countryCode=1 -/
noncomputable def TC : Loader.Metadata :=
  { general := some { nationalNumber := some (str% "\n          (?:\n            [58]\\d\\d|\n            649|\n            900\n          )\\d{7}\n        ") },
    fixedLine := some { nationalNumber := some (str% "\n          649(?:\n            266|\n            712|\n            9(?:\n              4\\d|\n              50\n            )\n          )\\d{4}\n        "), possibleLength := [10], possibleLocalLength := [7], example? := some (str% "6497121234") },
    mobile := some { nationalNumber := some (str% "\n          649(?:\n            2(?:\n              3[129]|\n              4[1-79]\n            )|\n            3\\d\\d|\n            4[34][1-3]\n          )\\d{4}\n        "), possibleLength := [10], possibleLocalLength := [7], example? := some (str% "6492311234") },
    tollFree := some { nationalNumber := some (str% "\n          8(?:\n            00|\n            33|\n            44|\n            55|\n            66|\n            77|\n            88\n          )[2-9]\\d{6}\n        "), possibleLength := [10], example? := some (str% "8002345678") },
    premiumRate := some { nationalNumber := some (str% "900[2-9]\\d{6}"), possibleLength := [10], example? := some (str% "9002345678") },
    personalNumber := some { nationalNumber := some (str% "\n          52(?:\n            3(?:\n              [2-46-9][02-9]\\d|\n              5(?:\n                [02-46-9]\\d|\n                5[0-46-9]\n              )\n            )|\n            4(?:\n              [2-478][02-9]\\d|\n              5(?:\n                [034]\\d|\n                2[024-9]|\n                5[0-46-9]\n              )|\n              6(?:\n                0[1-9]|\n                [2-9]\\d\n              )|\n              9(?:\n                [05-9]\\d|\n                2[0-5]|\n                49\n              )\n            )\n          )\\d{4}|\n          52[34][2-9]1[02-9]\\d{4}|\n          5(?:\n            00|\n            2[125-9]|\n            3[23]|\n            44|\n            66|\n            77|\n            88\n          )[2-9]\\d{6}\n        "), possibleLength := [10], example? := some (str% "5002345678") },
    voip := some { nationalNumber := some (str% "\n          649(?:\n            71[01]|\n            966\n          )\\d{4}\n        "), possibleLength := [10], possibleLocalLength := [7], example? := some (str% "6497101234") },
    id := some (str% "TC"),
    countryCode := some 1,
    internationalPrefix := some (str% "011"),
    nationalPrefix := some (str% "1"),
    nationalPrefixForParsing := some (str% "([2-479]\\d{6})$|1"),
    nationalPrefixTransformRule := some (str% "649$1"),
    leadingDigits := some (str% "649"),
    mobileNumberPortable := true }

/-- territory id=TD countryCode=235 -/
noncomputable def TD : Loader.Metadata :=
  { general := some { nationalNumber := some (str% "\n          (?:\n            22|\n            [3689]\\d|\n            77\n          )\\d{6}\n        ") },
    fixedLine := some { nationalNumber := some (str% "\n          22(?:\n            [37-9]0|\n            5[0-5]|\n            6[89]\n          )\\d{4}\n        "), possibleLength := [8], example? := some (str% "22501234") },
    mobile := some { nationalNumber := some (str% "\n          (?:\n            3[01]|\n            [69]\\d|\n            77|\n            8[5-7]\n          )\\d{6}\n        "), possibleLength := [8], example? := some (str% "63012345") },
    id := some (str% "TD"),
    countryCode := some 235,
    internationalPrefix := some (str% "00|16"),
    preferredInternationalPrefix := some (str% "00"),
    formats := [
      { pattern := some (str% "(\\d{2})(\\d{2})(\\d{2})(\\d{2})"), format := some (str% "$1 $2 $3 $4"), leadingDigits := [str% "[236-9]"] }],
    internationalFormats := [
      { pattern := some (str% "(\\d{2})(\\d{2})(\\d{2})(\\d{2})"), format := some (str% "$1 $2 $3 $4"), leadingDigits := [str% "[236-9]"] }] }

/-- territory id=TG countryCode=228 -/
noncomputable def TG : Loader.Metadata :=
  { general := some { nationalNumber := some (str% "[279]\\d{7}") },
    fixedLine := some { nationalNumber := some (str% "\n          2(?:\n            2[2-7]|\n            3[23]|\n            4[45]|\n            55|\n            6[67]|\n            77\n          )\\d{5}\n        "), possibleLength := [8], example? := some (str% "22212345") },
    mobile := some { nationalNumber := some (str% "\n          (?:\n            7[0-289]|\n            9[0-36-9]\n          )\\d{6}\n        "), possibleLength := [8], example? := some (str% "90112345") },
    id := some (str% "TG"),
    countryCode := some 228,
    internationalPrefix := some (str% "00"),
    formats := [
      { pattern := some (str% "(\\d{2})(\\d{2})(\\d{2})(\\d{2})"), format := some (str% "$1 $2 $3 $4"), leadingDigits := [str% "[279]"] }],
    internationalFormats := [
      { pattern := some (str% "(\\d{2})(\\d{2})(\\d{2})(\\d{2})"), format := some (str% "$1 $2 $3 $4"), leadingDigits := [str% "[279]"] }] }

/-- territory id=TH countryCode=66 -/
noncomputable def TH : Loader.Metadata :=
  { general := some { nationalNumber := some (str% "\n          (?:\n            001800|\n            [2-57]|\n            [689]\\d\n          )\\d{7}|\n          1\\d{7,9}\n        ") },
    fixedLine := some { nationalNumber := some (str% "\n          (?:\n            1[0689]|\n            2\\d|\n            3[2-9]|\n            4[2-5]|\n            5[2-6]|\n            7[3-7]\n          )\\d{6}\n        "), possibleLength := [8], example? := some (str% "21234567") },
    mobile := some { nationalNumber := some (str% "\n          (?:\n            (?:\n              14|\n              [89]\\d\n            )\\d\\d|\n            6(?:\n              [1-6]\\d\\d|\n              7(?:\n                1[0-8]|\n                2[4-7]|\n                3[1-6]\n              )\n            )\n          )\\d{5}\n        "), possibleLength := [9], example? := some (str% "812345678") },
    tollFree := some { nationalNumber := some (str% "\n          (?:\n            001800\\d|\n            1800\n          )\\d{6}\n        "), possibleLength := [10, 13], example? := some (str% "1800123456") },
    premiumRate := some { nationalNumber := some (str% "1900\\d{6}"), possibleLength := [10], example? := some (str% "1900123456") },
    voip := some { nationalNumber := some (str% "6[08]\\d{7}"), possibleLength := [9], example? := some (str% "601234567") },
    id := some (str% "TH"),
    countryCode := some 66,
    internationalPrefix := some (str% "00[1-9]"),
    nationalPrefix := some (str% "0"),
    formats := [
      { pattern := some (str% "(\\d)(\\d{3})(\\d{4})"), format := some (str% "$1 $2 $3"), leadingDigits := [str% "2"], nationalPrefixFormattingRule := some (str% "$NP$FG") },
      { pattern := some (str% "(\\d{2})(\\d{3})(\\d{3,4})"), format := some (str% "$1 $2 $3"), leadingDigits := [str% "[13-9]"], nationalPrefixFormattingRule := some (str% "$NP$FG") },
      { pattern := some (str% "(\\d{4})(\\d{3})(\\d{3})"), format := some (str% "$1 $2 $3"), leadingDigits := [str% "1"] }],
    internationalFormats := [
      { pattern := some (str% "(\\d)(\\d{3})(\\d{4})"), format := some (str% "$1 $2 $3"), leadingDigits := [str% "2"], nationalPrefixFormattingRule := some (str% "$NP$FG") },
      { pattern := some (str% "(\\d{2})(\\d{3})(\\d{3,4})"), format := some (str% "$1 $2 $3"), leadingDigits := [str% "[13-9]"], nationalPrefixFormattingRule := some (str% "$NP$FG") },
      { pattern := some (str% "(\\d{4})(\\d{3})(\\d{3})"), format := some (str% "$1 $2 $3"), leadingDigits := [str% "1"] }],
    mobileNumberPortable := true }

/-- territory id=TJ countryCode=992 -/
noncomputable def TJ : Loader.Metadata :=
  { general := some { nationalNumber := some (str% "\n          (?:\n            [0-57-9]\\d|\n            66\n          )\\d{7}\n        ") },
    fixedLine := some { nationalNumber := some (str% "\n          (?:\n            3(?:\n              1[3-5]|\n              2[245]|\n              3[12]|\n              4[24-7]|\n              5[25]|\n              72\n            )|\n            4(?:\n              46|\n              74|\n              87\n            )\n          )\\d{6}\n        "), possibleLength := [9], possibleLocalLength := [3, 5, 6, 7], example? := some (str% "372123456") },
    mobile := some { nationalNumber := some (str% "\n          (?:\n            33[03-9]|\n            4(?:\n              1[18]|\n              4[02-479]\n            )|\n            81[1-9]\n          )\\d{6}|\n          (?:\n            [09]\\d|\n            1[0-27-9]|\n            2[0-27]|\n            3[08]|\n            40|\n            5[05]|\n            66|\n            7[0157-9]|\n            8[07-9]\n          )\\d{7}\n        "), possibleLength := [9], example? := some (str% "917123456") },
    id := some (str% "TJ"),
    countryCode := some 992,
    internationalPrefix := some (str% "810"),
    preferredInternationalPrefix := some (str% "8~10"),
    formats := [
      { pattern := some (str% "(\\d{6})(\\d)(\\d{2})"), format := some (str% "$1 $2 $3"), leadingDigits := [str% "331", str% "3317"] },
      { pattern := some (str% "(\\d{3})(\\d{2})(\\d{4})"), format := some (str% "$1 $2 $3"), leadingDigits := [str% "\n            44[02-479]|\n            [34]7\n          "] },
      { pattern := some (str% "(\\d{4})(\\d)(\\d{4})"), format := some (str% "$1 $2 $3"), leadingDigits := [str% "\n            3(?:\n              [1245]|\n              3[12]\n            )\n          "] },
      { pattern := some (str% "(\\d{2})(\\d{3})(\\d{4})"), format := some (str% "$1 $2 $3"), leadingDigits := [str% "\\d"] }],
    internationalFormats := [
      { pattern := some (str% "(\\d{6})(\\d)(\\d{2})"), format := some (str% "$1 $2 $3"), leadingDigits := [str% "331", str% "3317"] },
      { pattern := some (str% "(\\d{3})(\\d{2})(\\d{4})"), format := some (str% "$1 $2 $3"), leadingDigits := [str% "\n            44[02-479]|\n            [34]7\n          "] },
      { pattern := some (str% "(\\d{4})(\\d)(\\d{4})"), format := some (str% "$1 $2 $3"), leadingDigits := [str% "\n            3(?:\n              [1245]|\n              3[12]\n            )\n          "] },
      { pattern := some (str% "(\\d{2})(\\d{3})(\\d{4})"), format := some (str% "$1 $2 $3"), leadingDigits := [str% "\\d"] }] }

/-- territory id=TK countryCode=690 -/
noncomputable def TK : Loader.Metadata :=
  { general := some { nationalNumber := some (str% "[2-47]\\d{3,6}") },
    fixedLine := some { nationalNumber := some (str% "\n          (?:\n            2[2-4]|\n            [34]\\d\n          )\\d{2,5}\n        "), possibleLength := [4, 5, 6, 7], example? := some (str% "3101") },
    mobile := some { nationalNumber := some (str% "7[2-4]\\d{2,5}"), possibleLength := [4, 5, 6, 7], example? := some (str% "7290") },
    id := some (str% "TK"),
    countryCode := some 690,
    internationalPrefix := some (str% "00") }

/-- territory id=TL countryCode=670 -/
noncomputable def TL : Loader.Metadata :=
  { general := some { nationalNumber := some (str% "\n          7\\d{7}|\n          (?:\n            [2-47]\\d|\n            [89]0\n          )\\d{5}\n        ") },
    fixedLine := some { nationalNumber := some (str% "\n          (?:\n            2[1-5]|\n            3[1-9]|\n            4[1-4]\n          )\\d{5}\n        "), possibleLength := [7], example? := some (str% "2112345") },
    mobile := some { nationalNumber := some (str% "7[2-8]\\d{6}"), possibleLength := [8], example? := some (str% "77212345") },
    tollFree := some { nationalNumber := some (str% "80\\d{5}"), possibleLength := [7], example? := some (str% "8012345") },
    premiumRate := some { nationalNumber := some (str% "90\\d{5}"), possibleLength := [7], example? := some (str% "9012345") },
    personalNumber := some { nationalNumber := some (str% "70\\d{5}"), possibleLength := [7], example? := some (str% "7012345") },
    id := some (str% "TL"),
    countryCode := some 670,
    internationalPrefix := some (str% "00"),
    formats := [
      { pattern := some (str% "(\\d{3})(\\d{4})"), format := some (str% "$1 $2"), leadingDigits := [str% "\n            [2-489]|\n            70\n          "] },
      { pattern := some (str% "(\\d{4})(\\d{4})"), format := some (str% "$1 $2"), leadingDigits := [str% "7"] }],
    internationalFormats := [
      { pattern := some (str% "(\\d{3})(\\d{4})"), format := some (str% "$1 $2"), leadingDigits := [str% "\n            [2-489]|\n            70\n          "] },
      { pattern := some (str% "(\\d{4})(\\d{4})"), format := some (str% "$1 $2"), leadingDigits := [str% "7"] }] }

/-- the territories of this module, in document order -/
noncomputable def chunk13 : List Loader.Metadata :=
  [SD, SE, SG, SH, SI, SJ, SK, SL, SM, SN, SO, SR, SS, ST, SV, SX, SY, SZ, TA, TC, TD, TG, TH, TJ, TK, TL]

end Phone.Data
