import Verif.Model.Database
/-! Territories of `/repo/assets/PhoneNumberMetadata.xml` as `/repo/src/metadata/loader.rs` reads them.
Generated by `tools/gen_data.py`; do not edit. -/

set_option maxRecDepth 100000
namespace Phone.Data

/-- territory id=VG countryCode=1 -/
noncomputable def VG : Loader.Metadata :=
  { general := some { nationalNumber := some (str% "\n          (?:\n            284|\n            [58]\\d\\d|\n            900\n          )\\d{7}\n        ") },
    fixedLine := some { nationalNumber := some (str% "\n          284(?:\n            229|\n            4(?:\n              22|\n              9[45]\n            )|\n            774|\n            8(?:\n              52|\n              6[459]\n            )\n          )\\d{4}\n        "), possibleLength := [10], possibleLocalLength := [7], example? := some (str% "2842291234") },
    mobile := some { nationalNumber := some (str% "\n          284(?:\n            245|\n            3(?:\n              0[0-3]|\n              4[0-7]|\n              68|\n              9[34]\n            )|\n            4(?:\n              4[0-6]|\n              68|\n              9[69]\n            )|\n            5(?:\n              4[0-7]|\n              68|\n              9[69]\n            )\n          )\\d{4}\n        "), possibleLength := [10], possibleLocalLength := [7], example? := some (str% "2843001234") },
    tollFree := some { nationalNumber := some (str% "\n          8(?:\n            00|\n            33|\n            44|\n            55|\n            66|\n            77|\n            88\n          )[2-9]\\d{6}\n        "), possibleLength := [10], example? := some (str% "8002345678") },
    premiumRate := some { nationalNumber := some (str% "900[2-9]\\d{6}"), possibleLength := [10], example? := some (str% "9002345678") },
    personalNumber := some { nationalNumber := some (str% "\n          52(?:\n            3(?:\n              [2-46-9][02-9]\\d|\n              5(?:\n                [02-46-9]\\d|\n                5[0-46-9]\n              )\n            )|\n            4(?:\n              [2-478][02-9]\\d|\n              5(?:\n                [034]\\d|\n                2[024-9]|\n                5[0-46-9]\n              )|\n              6(?:\n                0[1-9]|\n                [2-9]\\d\n              )|\n              9(?:\n                [05-9]\\d|\n                2[0-5]|\n                49\n              )\n            )\n          )\\d{4}|\n          52[34][2-9]1[02-9]\\d{4}|\n          5(?:\n            00|\n            2[125-9]|\n            3[23]|\n            44|\n            66|\n            77|\n            88\n          )[2-9]\\d{6}\n        "), possibleLength := [10], example? := some (str% "5002345678") },
    id := some (str% "VG"),
    countryCode := some 1,
    internationalPrefix := some (str% "011"),
    nationalPrefix := some (str% "1"),
    nationalPrefixForParsing := some (str% "([2-578]\\d{6})$|1"),
    nationalPrefixTransformRule := some (str% "284$1"),
    leadingDigits := some (str% "284"),
    mobileNumberPortable := true }

/-- territory id=VI countryCode=1 -/
noncomputable def VI : Loader.Metadata :=
  { general := some { nationalNumber := some (str% "\n          [58]\\d{9}|\n          (?:\n            34|\n            90\n          )0\\d{7}\n        ") },
    fixedLine := some { nationalNumber := some (str% "\n          340(?:\n            2(?:\n              0\\d|\n              10|\n              2[06-8]|\n              4[49]|\n              77\n            )|\n            3(?:\n              32|\n              44\n            )|\n            4(?:\n              2[23]|\n              44|\n              7[34]|\n              89\n            )|\n            5(?:\n              1[34]|\n              55\n            )|\n            6(?:\n              2[56]|\n              4[23]|\n              77|\n              9[023]\n            )|\n            7(?:\n              1[2-57-9]|\n              2[57]|\n              7\\d\n            )|\n            884|\n            998\n          )\\d{4}\n        "), possibleLength := [10], possibleLocalLength := [7], example? := some (str% "3406421234") },
    mobile := some { nationalNumber := some (str% "\n          340(?:\n            2(?:\n              0\\d|\n              10|\n              2[06-8]|\n              4[49]|\n              77\n            )|\n            3(?:\n              32|\n              44\n            )|\n            4(?:\n              2[23]|\n              44|\n              7[34]|\n              89\n            )|\n            5(?:\n              1[34]|\n              55\n            )|\n            6(?:\n              2[56]|\n              4[23]|\n              77|\n              9[023]\n            )|\n            7(?:\n              1[2-57-9]|\n              2[57]|\n              7\\d\n            )|\n            884|\n            998\n          )\\d{4}\n        "), possibleLength := [10], possibleLocalLength := [7], example? := some (str% "3406421234") },
    tollFree := some { nationalNumber := some (str% "\n          8(?:\n            00|\n            33|\n            44|\n            55|\n            66|\n            77|\n            88\n          )[2-9]\\d{6}\n        "), possibleLength := [10], example? := some (str% "8002345678") },
    premiumRate := some { nationalNumber := some (str% "900[2-9]\\d{6}"), possibleLength := [10], example? := some (str% "9002345678") },
    personalNumber := some { nationalNumber := some (str% "\n          52(?:\n            3(?:\n              [2-46-9][02-9]\\d|\n              5(?:\n                [02-46-9]\\d|\n                5[0-46-9]\n              )\n            )|\n            4(?:\n              [2-478][02-9]\\d|\n              5(?:\n                [034]\\d|\n                2[024-9]|\n                5[0-46-9]\n              )|\n              6(?:\n                0[1-9]|\n                [2-9]\\d\n              )|\n              9(?:\n                [05-9]\\d|\n                2[0-5]|\n                49\n              )\n            )\n          )\\d{4}|\n          52[34][2-9]1[02-9]\\d{4}|\n          5(?:\n            00|\n            2[125-9]|\n            3[23]|\n            44|\n            66|\n            77|\n            88\n          )[2-9]\\d{6}\n        "), possibleLength := [10], example? := some (str% "5002345678") },
    id := some (str% "VI"),
    countryCode := some 1,
    internationalPrefix := some (str% "011"),
    nationalPrefix := some (str% "1"),
    nationalPrefixForParsing := some (str% "([2-9]\\d{6})$|1"),
    nationalPrefixTransformRule := some (str% "340$1"),
    leadingDigits := some (str% "340") }

/-- territory id=VN countryCode=84 -/
noncomputable def VN : Loader.Metadata :=
  { general := some { nationalNumber := some (str% "\n          [12]\\d{9}|\n          [135-9]\\d{8}|\n          [16]\\d{6,7}|\n          7\\d{6}\n        ") },
    fixedLine := some { nationalNumber := some (str% "\n          2(?:\n            0[3-9]|\n            1[0-689]|\n            2[0-25-9]|\n            [38][2-9]|\n            4[2-8]|\n            5[124-9]|\n            6[0-39]|\n            7[0-7]|\n            9[0-4679]\n          )\\d{7}\n        "), possibleLength := [10], example? := some (str% "2101234567") },
    mobile := some { nationalNumber := some (str% "\n          121[0-3]\\d{5}|\n          (?:\n            160|\n            (?:\n              3\\d|\n              7[06-9]\n            )\\d|\n            5(?:\n              [1689]\\d|\n              2[238]|\n              59\n            )|\n            8(?:\n              [1-8]\\d|\n              9[6-9]\n            )|\n            9(?:\n              [0-8]\\d|\n              9[013-9]\n            )\n          )\\d{6}\n        "), possibleLength := [9], example? := some (str% "912345678") },
    tollFree := some { nationalNumber := some (str% "\n          1800\\d{4,6}|\n          12(?:\n            0[13]|\n            28\n          )\\d{4}\n        "), possibleLength := [8, 9, 10], example? := some (str% "1800123456") },
    premiumRate := some { nationalNumber := some (str% "1900\\d{4,6}"), possibleLength := [8, 9, 10], example? := some (str% "1900123456") },
    voip := some { nationalNumber := some (str% "672\\d{6}"), possibleLength := [9], example? := some (str% "672012345") },
    uan := some { nationalNumber := some (str% "\n          [17]99\\d{4}|\n          69\\d{5,6}\n        "), possibleLength := [7, 8], example? := some (str% "1992000") },
    noInternational := some { nationalNumber := some (str% "\n          [17]99\\d{4}|\n          69\\d{5,6}\n        "), possibleLength := [7, 8] },
    id := some (str% "VN"),
    countryCode := some 84,
    internationalPrefix := some (str% "00"),
    nationalPrefix := some (str% "0"),
    formats := [
      { pattern := some (str% "(\\d{3})(\\d{4})"), format := some (str% "$1 $2"), leadingDigits := [str% "[17]99"], nationalPrefixFormattingRule := some (str% "$NP$FG"), nationalPrefixOptionalWhenFormatting := true },
      { pattern := some (str% "(\\d{3})(\\d{4,5})"), format := some (str% "$1 $2"), leadingDigits := [str% "69"], nationalPrefixFormattingRule := some (str% "$NP$FG"), nationalPrefixOptionalWhenFormatting := true },
      { pattern := some (str% "(\\d{4})(\\d{4,6})"), format := some (str% "$1 $2"), leadingDigits := [str% "\n            1(?:\n              2[02]|\n              [89]\n            )\n          "], nationalPrefixOptionalWhenFormatting := true },
      { pattern := some (str% "(\\d{2})(\\d{3})(\\d{2})(\\d{2})"), format := some (str% "$1 $2 $3 $4"), leadingDigits := [str% "\n            1[26]|\n            6\n          "], nationalPrefixFormattingRule := some (str% "$NP$FG"), nationalPrefixOptionalWhenFormatting := true },
      { pattern := some (str% "(\\d{3})(\\d{3})(\\d{3})"), format := some (str% "$1 $2 $3"), leadingDigits := [str% "[357-9]"], nationalPrefixFormattingRule := some (str% "$NP$FG"), nationalPrefixOptionalWhenFormatting := true },
      { pattern := some (str% "(\\d{2})(\\d{4})(\\d{4})"), format := some (str% "$1 $2 $3"), leadingDigits := [str% "2[48]"], nationalPrefixFormattingRule := some (str% "$NP$FG"), nationalPrefixOptionalWhenFormatting := true },
      { pattern := some (str% "(\\d{3})(\\d{4})(\\d{3})"), format := some (str% "$1 $2 $3"), leadingDigits := [str% "2"], nationalPrefixFormattingRule := some (str% "$NP$FG"), nationalPrefixOptionalWhenFormatting := true }],
    internationalFormats := [
      { pattern := some (str% "(\\d{4})(\\d{4,6})"), format := some (str% "$1 $2"), leadingDigits := [str% "\n            1(?:\n              2[02]|\n              [89]\n            )\n          "], nationalPrefixOptionalWhenFormatting := true },
      { pattern := some (str% "(\\d{2})(\\d{3})(\\d{2})(\\d{2})"), format := some (str% "$1 $2 $3 $4"), leadingDigits := [str% "\n            1[26]|\n            6\n          "], nationalPrefixFormattingRule := some (str% "$NP$FG"), nationalPrefixOptionalWhenFormatting := true },
      { pattern := some (str% "(\\d{3})(\\d{3})(\\d{3})"), format := some (str% "$1 $2 $3"), leadingDigits := [str% "[357-9]"], nationalPrefixFormattingRule := some (str% "$NP$FG"), nationalPrefixOptionalWhenFormatting := true },
      { pattern := some (str% "(\\d{2})(\\d{4})(\\d{4})"), format := some (str% "$1 $2 $3"), leadingDigits := [str% "2[48]"], nationalPrefixFormattingRule := some (str% "$NP$FG"), nationalPrefixOptionalWhenFormatting := true },
      { pattern := some (str% "(\\d{3})(\\d{4})(\\d{3})"), format := some (str% "$1 $2 $3"), leadingDigits := [str% "2"], nationalPrefixFormattingRule := some (str% "$NP$FG"), nationalPrefixOptionalWhenFormatting := true }] }

/-- territory id=VU countryCode=678 -/
noncomputable def VU : Loader.Metadata :=
  { general := some { nationalNumber := some (str% "\n          [57-9]\\d{6}|\n          (?:\n            [238]\\d|\n            48\n          )\\d{3}\n        ") },
    fixedLine := some { nationalNumber := some (str% "\n          (?:\n            38[0-8]|\n            48[4-9]\n          )\\d\\d|\n          (?:\n            2[02-9]|\n            3[4-7]|\n            88\n          )\\d{3}\n        "), possibleLength := [5], example? := some (str% "22123") },
    mobile := some { nationalNumber := some (str% "\n          (?:\n            [58]\\d|\n            7[0-7]\n          )\\d{5}\n        "), possibleLength := [7], example? := some (str% "5912345") },
    tollFree := some { nationalNumber := some (str% "81[18]\\d\\d"), possibleLength := [5], example? := some (str% "81123") },
    voip := some { nationalNumber := some (str% "\n          9(?:\n            0[1-9]|\n            1[01]\n          )\\d{4}\n        "), possibleLength := [7], example? := some (str% "9010123") },
    uan := some { nationalNumber := some (str% "\n          (?:\n            3[03]|\n            900\\d\n          )\\d{3}\n        "), possibleLength := [5, 7], example? := some (str% "30123") },
    id := some (str% "VU"),
    countryCode := some 678,
    internationalPrefix := some (str% "00"),
    formats := [
      { pattern := some (str% "(\\d{3})(\\d{4})"), format := some (str% "$1 $2"), leadingDigits := [str% "[57-9]"] }],
    internationalFormats := [
      { pattern := some (str% "(\\d{3})(\\d{4})"), format := some (str% "$1 $2"), leadingDigits := [str% "[57-9]"] }] }

/-- territory id=WF countryCode=681 -/
noncomputable def WF : Loader.Metadata :=
  { general := some { nationalNumber := some (str% "\n          (?:\n            40|\n            72|\n            8\\d{4}\n          )\\d{4}|\n          [89]\\d{5}\n        ") },
    fixedLine := some { nationalNumber := some (str% "72\\d{4}"), possibleLength := [6], example? := some (str% "721234") },
    mobile := some { nationalNumber := some (str% "\n          (?:\n            72|\n            8[23]\n          )\\d{4}\n        "), possibleLength := [6], example? := some (str% "821234") },
    tollFree := some { nationalNumber := some (str% "80[0-5]\\d{6}"), possibleLength := [9], example? := some (str% "800012345") },
    voip := some { nationalNumber := some (str% "9[23]\\d{4}"), possibleLength := [6], example? := some (str% "921234") },
    voicemail := some { nationalNumber := some (str% "[48]0\\d{4}"), possibleLength := [6], example? := some (str% "401234") },
    id := some (str% "WF"),
    countryCode := some 681,
    internationalPrefix := some (str% "00"),
    formats := [
      { pattern := some (str% "(\\d{2})(\\d{2})(\\d{2})"), format := some (str% "$1 $2 $3"), leadingDigits := [str% "[47-9]"] },
      { pattern := some (str% "(\\d{3})(\\d{2})(\\d{2})(\\d{2})"), format := some (str% "$1 $2 $3 $4"), leadingDigits := [str% "8"] }],
    internationalFormats := [
      { pattern := some (str% "(\\d{2})(\\d{2})(\\d{2})"), format := some (str% "$1 $2 $3"), leadingDigits := [str% "[47-9]"] },
      { pattern := some (str% "(\\d{3})(\\d{2})(\\d{2})(\\d{2})"), format := some (str% "$1 $2 $3 $4"), leadingDigits := [str% "8"] }] }

/-- territory id=WS countryCode=685 -/
noncomputable def WS : Loader.Metadata :=
  { general := some { nationalNumber := some (str% "\n          (?:\n            [2-6]|\n            8\\d{5}\n          )\\d{4}|\n          [78]\\d{6}|\n          [68]\\d{5}\n        ") },
    fixedLine := some { nationalNumber := some (str% "\n          6[1-9]\\d{3}|\n          (?:\n            [2-5]|\n            60\n          )\\d{4}\n        "), possibleLength := [5, 6], example? := some (str% "22123") },
    mobile := some { nationalNumber := some (str% "\n          (?:\n            7[1-35-8]|\n            8(?:\n              [3-7]|\n              9\\d{3}\n            )\n          )\\d{5}\n        "), possibleLength := [7, 10], example? := some (str% "7212345") },
    tollFree := some { nationalNumber := some (str% "800\\d{3}"), possibleLength := [6], example? := some (str% "800123") },
    id := some (str% "WS"),
    countryCode := some 685,
    internationalPrefix := some (str% "0"),
    formats := [
      { pattern := some (str% "(\\d{5})"), format := some (str% "$1"), leadingDigits := [str% "\n            [2-5]|\n            6[1-9]\n          "] },
      { pattern := some (str% "(\\d{3})(\\d{3,7})"), format := some (str% "$1 $2"), leadingDigits := [str% "[68]"] },
      { pattern := some (str% "(\\d{2})(\\d{5})"), format := some (str% "$1 $2"), leadingDigits := [str% "7"] }],
    internationalFormats := [
      { pattern := some (str% "(\\d{5})"), format := some (str% "$1"), leadingDigits := [str% "\n            [2-5]|\n            6[1-9]\n          "] },
      { pattern := some (str% "(\\d{3})(\\d{3,7})"), format := some (str% "$1 $2"), leadingDigits := [str% "[68]"] },
      { pattern := some (str% "(\\d{2})(\\d{5})"), format := some (str% "$1 $2"), leadingDigits := [str% "7"] }] }

/-- territory id=XK countryCode=383 -/
noncomputable def XK : Loader.Metadata :=
  { general := some { nationalNumber := some (str% "\n          2\\d{7,8}|\n          3\\d{7,11}|\n          (?:\n            4\\d\\d|\n            [89]00\n          )\\d{5}\n        ") },
    fixedLine := some { nationalNumber := some (str% "\n          38\\d{6,10}|\n          (?:\n            2[89]|\n            39\n          )(?:\n            0\\d{5,6}|\n            [1-9]\\d{5}\n          )\n        "), possibleLength := [8, 9, 10, 11, 12], example? := some (str% "28012345") },
    mobile := some { nationalNumber := some (str% "4[3-9]\\d{6}"), possibleLength := [8], example? := some (str% "43201234") },
    tollFree := some { nationalNumber := some (str% "800\\d{5}"), possibleLength := [8], example? := some (str% "80001234") },
    premiumRate := some { nationalNumber := some (str% "900\\d{5}"), possibleLength := [8], example? := some (str% "90001234") },
    id := some (str% "XK"),
    countryCode := some 383,
    internationalPrefix := some (str% "00"),
    nationalPrefix := some (str% "0"),
    formats := [
      { pattern := some (str% "(\\d{3})(\\d{5})"), format := some (str% "$1 $2"), leadingDigits := [str% "[89]"], nationalPrefixFormattingRule := some (str% "$NP$FG") },
      { pattern := some (str% "(\\d{2})(\\d{3})(\\d{3})"), format := some (str% "$1 $2 $3"), leadingDigits := [str% "[2-4]"], nationalPrefixFormattingRule := some (str% "$NP$FG") },
      { pattern := some (str% "(\\d{3})(\\d{3})(\\d{3})"), format := some (str% "$1 $2 $3"), leadingDigits := [str% "\n            2|\n            39\n          "], nationalPrefixFormattingRule := some (str% "$NP$FG") },
      { pattern := some (str% "(\\d{2})(\\d{7,10})"), format := some (str% "$1 $2"), leadingDigits := [str% "3"], nationalPrefixFormattingRule := some (str% "$NP$FG") }],
    internationalFormats := [
      { pattern := some (str% "(\\d{3})(\\d{5})"), format := some (str% "$1 $2"), leadingDigits := [str% "[89]"], nationalPrefixFormattingRule := some (str% "$NP$FG") },
      { pattern := some (str% "(\\d{2})(\\d{3})(\\d{3})"), format := some (str% "$1 $2 $3"), leadingDigits := [str% "[2-4]"], nationalPrefixFormattingRule := some (str% "$NP$FG") },
      { pattern := some (str% "(\\d{3})(\\d{3})(\\d{3})"), format := some (str% "$1 $2 $3"), leadingDigits := [str% "\n            2|\n            39\n          "], nationalPrefixFormattingRule := some (str% "$NP$FG") },
      { pattern := some (str% "(\\d{2})(\\d{7,10})"), format := some (str% "$1 $2"), leadingDigits := [str% "3"], nationalPrefixFormattingRule := some (str% "$NP$FG") }] }

/-- territory id=YE countryCode=967 -/
noncomputable def YE : Loader.Metadata :=
  { general := some { nationalNumber := some (str% "\n          (?:\n            1|\n            7\\d\n          )\\d{7}|\n          [1-7]\\d{6}\n        ") },
    fixedLine := some { nationalNumber := some (str% "\n          78[0-7]\\d{4}|\n          17\\d{6}|\n          (?:\n            [12][2-68]|\n            3[2358]|\n            4[2-58]|\n            5[2-6]|\n            6[3-58]|\n            7[24-6]\n          )\\d{5}\n        "), possibleLength := [7, 8], possibleLocalLength := [6], example? := some (str% "1234567") },
    mobile := some { nationalNumber := some (str% "7[01378]\\d{7}"), possibleLength := [9], example? := some (str% "712345678") },
    id := some (str% "YE"),
    countryCode := some 967,
    internationalPrefix := some (str% "00"),
    nationalPrefix := some (str% "0"),
    formats := [
      { pattern := some (str% "(\\d)(\\d{3})(\\d{3,4})"), format := some (str% "$1 $2 $3"), leadingDigits := [str% "\n            [1-6]|\n            7(?:\n              [24-6]|\n              8[0-7]\n            )\n          "], nationalPrefixFormattingRule := some (str% "$NP$FG") },
      { pattern := some (str% "(\\d{3})(\\d{3})(\\d{3})"), format := some (str% "$1 $2 $3"), leadingDigits := [str% "7"], nationalPrefixFormattingRule := some (str% "$NP$FG") }],
    internationalFormats := [
      { pattern := some (str% "(\\d)(\\d{3})(\\d{3,4})"), format := some (str% "$1 $2 $3"), leadingDigits := [str% "\n            [1-6]|\n            7(?:\n              [24-6]|\n              8[0-7]\n            )\n          "], nationalPrefixFormattingRule := some (str% "$NP$FG") },
      { pattern := some (str% "(\\d{3})(\\d{3})(\\d{3})"), format := some (str% "$1 $2 $3"), leadingDigits := [str% "7"], nationalPrefixFormattingRule := some (str% "$NP$FG") }] }

/-- territory id=YT countryCode=262 -/
noncomputable def YT : Loader.Metadata :=
  { general := some { nationalNumber := some (str% "\n          (?:\n            639\\d|\n            7093\n          )\\d{5}|\n          (?:\n            26|\n            80|\n            9\\d\n          )\\d{7}\n        ") },
    fixedLine := some { nationalNumber := some (str% "\n          26(?:\n            89\\d|\n            9(?:\n              0[0-467]|\n              15|\n              5[0-4]|\n              6\\d|\n              [78]0\n            )\n          )\\d{4}\n        "), possibleLength := [9], example? := some (str% "269601234") },
    mobile := some { nationalNumber := some (str% "\n          (?:\n            639(?:\n              0[0-79]|\n              1[019]|\n              [267]\\d|\n              3[09]|\n              40|\n              5[05-9]|\n              9[04-79]\n            )|\n            7093[5-7]\n          )\\d{4}\n        "), possibleLength := [9], example? := some (str% "639012345") },
    tollFree := some { nationalNumber := some (str% "80\\d{7}"), possibleLength := [9], example? := some (str% "801234567") },
    voip := some { nationalNumber := some (str% "\n          9(?:\n            (?:\n              39|\n              47\n            )8[01]|\n            769\\d\n          )\\d{4}\n        "), possibleLength := [9], example? := some (str% "939801234") },
    id := some (str% "YT"),
    countryCode := some 262,
    internationalPrefix := some (str% "00"),
    nationalPrefix := some (str% "0") }

/-- territory id=ZA countryCode=27 -/
noncomputable def ZA : Loader.Metadata :=
  { general := some { nationalNumber := some (str% "\n          [1-79]\\d{8}|\n          8\\d{4,9}\n        ") },
    fixedLine := some { nationalNumber := some (str% "\n          (?:\n            2(?:\n              0330|\n              4302\n            )|\n            52087\n          )0\\d{3}|\n          (?:\n            1[0-8]|\n            2[1-378]|\n            3[1-69]|\n            4\\d|\n            5[1346-8]\n          )\\d{7}\n        "), possibleLength := [9], example? := some (str% "101234567") },
    mobile := some { nationalNumber := some (str% "\n          (?:\n            1(?:\n              3492[0-25]|\n              4495[0235]|\n              549(?:\n                20|\n                5[01]\n              )\n            )|\n            4[34]492[01]\n          )\\d{3}|\n          8[1-4]\\d{3,7}|\n          (?:\n            2[27]|\n            47|\n            54\n          )4950\\d{3}|\n          (?:\n            1(?:\n              049[2-4]|\n              9[12]\\d\\d\n            )|\n            (?:\n              50[0-2]|\n              [67]\\d\\d\n            )\\d\\d|\n            8(?:\n              5\\d{3}|\n              7(?:\n                08[67]|\n                158|\n                28[5-9]|\n                310\n              )\n            )\n          )\\d{4}|\n          (?:\n            1[6-8]|\n            28|\n            3[2-69]|\n            4[025689]|\n            5[36-8]\n          )4920\\d{3}|\n          (?:\n            12|\n            [2-5]1\n          )492\\d{4}\n        "), possibleLength := [5, 6, 7, 8, 9], example? := some (str% "711234567") },
    tollFree := some { nationalNumber := some (str% "80\\d{7}"), possibleLength := [9], example? := some (str% "801234567") },
    premiumRate := some { nationalNumber := some (str% "\n          (?:\n            86[2-9]|\n            9[0-2]\\d\n          )\\d{6}\n        "), possibleLength := [9], example? := some (str% "862345678") },
    sharedCost := some { nationalNumber := some (str% "860\\d{6}"), possibleLength := [9], example? := some (str% "860123456") },
    voip := some { nationalNumber := some (str% "\n          87(?:\n            08[0-589]|\n            15[0-79]|\n            28[0-4]|\n            31[1-9]\n          )\\d{4}|\n          87(?:\n            [02][0-79]|\n            1[0-46-9]|\n            3[02-9]|\n            [4-9]\\d\n          )\\d{5}\n        "), possibleLength := [9], example? := some (str% "871234567") },
    uan := some { nationalNumber := some (str% "861\\d{6,7}"), possibleLength := [9, 10], example? := some (str% "861123456") },
    id := some (str% "ZA"),
    countryCode := some 27,
    internationalPrefix := some (str% "00"),
    nationalPrefix := some (str% "0"),
    formats := [
      { pattern := some (str% "(\\d{2})(\\d{3,4})"), format := some (str% "$1 $2"), leadingDigits := [str% "8[1-4]"], nationalPrefixFormattingRule := some (str% "$NP$FG") },
      { pattern := some (str% "(\\d{2})(\\d{3})(\\d{2,3})"), format := some (str% "$1 $2 $3"), leadingDigits := [str% "8[1-4]"], nationalPrefixFormattingRule := some (str% "$NP$FG") },
      { pattern := some (str% "(\\d{3})(\\d{3})(\\d{3})"), format := some (str% "$1 $2 $3"), leadingDigits := [str% "860"], nationalPrefixFormattingRule := some (str% "$NP$FG") },
      { pattern := some (str% "(\\d{2})(\\d{3})(\\d{4})"), format := some (str% "$1 $2 $3"), leadingDigits := [str% "[1-9]"], nationalPrefixFormattingRule := some (str% "$NP$FG") },
      { pattern := some (str% "(\\d{3})(\\d{3})(\\d{4})"), format := some (str% "$1 $2 $3"), leadingDigits := [str% "8"], nationalPrefixFormattingRule := some (str% "$NP$FG") }],
    internationalFormats := [
      { pattern := some (str% "(\\d{2})(\\d{3,4})"), format := some (str% "$1 $2"), leadingDigits := [str% "8[1-4]"], nationalPrefixFormattingRule := some (str% "$NP$FG") },
      { pattern := some (str% "(\\d{2})(\\d{3})(\\d{2,3})"), format := some (str% "$1 $2 $3"), leadingDigits := [str% "8[1-4]"], nationalPrefixFormattingRule := some (str% "$NP$FG") },
      { pattern := some (str% "(\\d{3})(\\d{3})(\\d{3})"), format := some (str% "$1 $2 $3"), leadingDigits := [str% "860"], nationalPrefixFormattingRule := some (str% "$NP$FG") },
      { pattern := some (str% "(\\d{2})(\\d{3})(\\d{4})"), format := some (str% "$1 $2 $3"), leadingDigits := [str% "[1-9]"], nationalPrefixFormattingRule := some (str% "$NP$FG") },
      { pattern := some (str% "(\\d{3})(\\d{3})(\\d{4})"), format := some (str% "$1 $2 $3"), leadingDigits := [str% "8"], nationalPrefixFormattingRule := some (str% "$NP$FG") }],
    mobileNumberPortable := true }

/-- territory id=ZM countryCode=260 -/
noncomputable def ZM : Loader.Metadata :=
  { general := some { nationalNumber := some (str% "\n          800\\d{6}|\n          (?:\n            21|\n            [579]\\d|\n            63\n          )\\d{7}\n        ") },
    fixedLine := some { nationalNumber := some (str% "21[1-8]\\d{6}"), possibleLength := [9], possibleLocalLength := [6], example? := some (str% "211234567") },
    mobile := some { nationalNumber := some (str% "\n          (?:\n            [59][5-8]|\n            7[5-9]\n          )\\d{7}\n        "), possibleLength := [9], example? := some (str% "955123456") },
    tollFree := some { nationalNumber := some (str% "800\\d{6}"), possibleLength := [9], example? := some (str% "800123456") },
    voip := some { nationalNumber := some (str% "63\\d{7}"), possibleLength := [9], example? := some (str% "630123456") },
    id := some (str% "ZM"),
    countryCode := some 260,
    internationalPrefix := some (str% "00"),
    nationalPrefix := some (str% "0"),
    formats := [
      { pattern := some (str% "(\\d{3})(\\d{3})"), format := some (str% "$1 $2"), leadingDigits := [str% "[1-9]"] },
      { pattern := some (str% "(\\d{3})(\\d{3})(\\d{3})"), format := some (str% "$1 $2 $3"), leadingDigits := [str% "[28]"], nationalPrefixFormattingRule := some (str% "$NP$FG") },
      { pattern := some (str% "(\\d{2})(\\d{7})"), format := some (str% "$1 $2"), leadingDigits := [str% "[579]"], nationalPrefixFormattingRule := some (str% "$NP$FG") }],
    internationalFormats := [
      { pattern := some (str% "(\\d{3})(\\d{3})(\\d{3})"), format := some (str% "$1 $2 $3"), leadingDigits := [str% "[28]"], nationalPrefixFormattingRule := some (str% "$NP$FG") },
      { pattern := some (str% "(\\d{2})(\\d{7})"), format := some (str% "$1 $2"), leadingDigits := [str% "[579]"], nationalPrefixFormattingRule := some (str% "$NP$FG") }] }

/-- territory id=ZW countryCode=263 -/
noncomputable def ZW : Loader.Metadata :=
  { general := some { nationalNumber := some (str% "\n          2(?:\n            [0-57-9]\\d{6,8}|\n            6[0-24-9]\\d{6,7}\n          )|\n          [38]\\d{9}|\n          [35-8]\\d{8}|\n          [3-6]\\d{7}|\n          [1-689]\\d{6}|\n          [1-3569]\\d{5}|\n          [1356]\\d{4}\n        ") },
    fixedLine := some { nationalNumber := some (str% "\n          (?:\n            1(?:\n              (?:\n                3\\d|\n                9\n              )\\d|\n              [4-8]\n            )|\n            2(?:\n              (?:\n                (?:\n                  0(?:\n                    2[014]|\n                    5\n                  )|\n                  (?:\n                    2[0157]|\n                    31|\n                    84|\n                    9\n                  )\\d\\d|\n                  [56](?:\n                    [14]\\d\\d|\n                    20\n                  )|\n                  7(?:\n                    [089]|\n                    2[03]|\n                    [35]\\d\\d\n                  )\n                )\\d|\n                4(?:\n                  2\\d\\d|\n                  8\n                )\n              )\\d|\n              1(?:\n                2|\n                [39]\\d{4}\n              )\n            )|\n            3(?:\n              (?:\n                123|\n                (?:\n                  29\\d|\n                  92\n                )\\d\n              )\\d\\d|\n              7(?:\n                [19]|\n                [56]\\d\n              )\n            )|\n            5(?:\n              0|\n              1[2-478]|\n              26|\n              [37]2|\n              4(?:\n                2\\d{3}|\n                83\n              )|\n              5(?:\n                25\\d\\d|\n                [78]\n              )|\n              [689]\\d\n            )|\n            6(?:\n              (?:\n                [16-8]21|\n                28|\n                52[013]\n              )\\d\\d|\n              [39]\n            )|\n            8(?:\n              [1349]28|\n              523\n            )\\d\\d\n          )\\d{3}|\n          (?:\n            4\\d\\d|\n            9[2-9]\n          )\\d{4,5}|\n          (?:\n            (?:\n              2(?:\n                (?:\n                  (?:\n                    0|\n                    8[146]\n                  )\\d|\n                  7[1-7]\n                )\\d|\n                2(?:\n                  [278]\\d|\n                  92\n                )|\n                58(?:\n                  2\\d|\n                  3\n                )\n              )|\n              3(?:\n                [26]|\n                9\\d{3}\n              )|\n              5(?:\n                4\\d|\n                5\n              )\\d\\d\n            )\\d|\n            6(?:\n              (?:\n                (?:\n                  [0-246]|\n                  [78]\\d\n                )\\d|\n                37\n              )\\d|\n              5[2-8]\n            )\n          )\\d\\d|\n          (?:\n            2(?:\n              [569]\\d|\n              8[2-57-9]\n            )|\n            3(?:\n              [013-59]\\d|\n              8[37]\n            )|\n            6[89]8\n          )\\d{3}\n        "), possibleLength := [5, 6, 7, 8, 9, 10], possibleLocalLength := [3, 4], example? := some (str% "1312345") },
    mobile := some { nationalNumber := some (str% "\n          7(?:\n            [1278]\\d|\n            3[1-9]\n          )\\d{6}\n        "), possibleLength := [9], example? := some (str% "712345678") },
    tollFree := some { nationalNumber := some (str% "\n          80(?:\n            [01]\\d|\n            20|\n            8[0-8]\n          )\\d{3}\n        "), possibleLength := [7], example? := some (str% "8001234") },
    voip := some { nationalNumber := some (str% "\n          86(?:\n            1[12]|\n            22|\n            30|\n            44|\n            55|\n            77|\n            8[368]\n          )\\d{6}\n        "), possibleLength := [10], example? := some (str% "8686123456") },
    id := some (str% "ZW"),
    countryCode := some 263,
    internationalPrefix := some (str% "00"),
    nationalPrefix := some (str% "0"),
    formats := [
      { pattern := some (str% "(\\d{3})(\\d{3,5})"), format := some (str% "$1 $2"), leadingDigits := [str% "\n            2(?:\n              0[45]|\n              2[278]|\n              [49]8\n            )|\n            3(?:\n              [09]8|\n              17\n            )|\n            6(?:\n              [29]8|\n              37|\n              75\n            )|\n            [23][78]|\n            (?:\n              33|\n              5[15]|\n              6[68]\n            )[78]\n          "], nationalPrefixFormattingRule := some (str% "$NP$FG") },
      { pattern := some (str% "(\\d)(\\d{3})(\\d{2,4})"), format := some (str% "$1 $2 $3"), leadingDigits := [str% "[49]"], nationalPrefixFormattingRule := some (str% "$NP$FG") },
      { pattern := some (str% "(\\d{3})(\\d{4})"), format := some (str% "$1 $2"), leadingDigits := [str% "80"], nationalPrefixFormattingRule := some (str% "$NP$FG") },
      { pattern := some (str% "(\\d{2})(\\d{7})"), format := some (str% "$1 $2"), leadingDigits := [str% "\n            24|\n            8[13-59]|\n            (?:\n              2[05-79]|\n              39|\n              5[45]|\n              6[15-8]\n            )2\n          ", str% "\n            2(?:\n              02[014]|\n              4|\n              [56]20|\n              [79]2\n            )|\n            392|\n            5(?:\n              42|\n              525\n            )|\n            6(?:\n              [16-8]21|\n              52[013]\n            )|\n            8[13-59]\n          "], nationalPrefixFormattingRule := some (str% "($NP$FG)") },
      { pattern := some (str% "(\\d{2})(\\d{3})(\\d{4})"), format := some (str% "$1 $2 $3"), leadingDigits := [str% "7"], nationalPrefixFormattingRule := some (str% "$NP$FG") },
      { pattern := some (str% "(\\d{3})(\\d{3})(\\d{3,4})"), format := some (str% "$1 $2 $3"), leadingDigits := [str% "\n            2(?:\n              1[39]|\n              2[0157]|\n              [378]|\n              [56][14]\n            )|\n            3(?:\n              12|\n              29\n            )\n          ", str% "\n            2(?:\n              1[39]|\n              2[0157]|\n              [378]|\n              [56][14]\n            )|\n            3(?:\n              123|\n              29\n            )\n          "], nationalPrefixFormattingRule := some (str% "$NP$FG") },
      { pattern := some (str% "(\\d{4})(\\d{6})"), format := some (str% "$1 $2"), leadingDigits := [str% "8"], nationalPrefixFormattingRule := some (str% "$NP$FG") },
      { pattern := some (str% "(\\d{2})(\\d{3,5})"), format := some (str% "$1 $2"), leadingDigits := [str% "\n            1|\n            2(?:\n              0[0-36-9]|\n              12|\n              29|\n              [56]\n            )|\n            3(?:\n              1[0-689]|\n              [24-6]\n            )|\n            5(?:\n              [0236-9]|\n              1[2-4]\n            )|\n            6(?:\n              [013-59]|\n              7[0-46-9]\n            )|\n            (?:\n              33|\n              55|\n              6[68]\n            )[0-69]|\n            (?:\n              29|\n              3[09]|\n              62\n            )[0-79]\n          "], nationalPrefixFormattingRule := some (str% "$NP$FG") },
      { pattern := some (str% "(\\d{2})(\\d{3})(\\d{3,4})"), format := some (str% "$1 $2 $3"), leadingDigits := [str% "\n            29[013-9]|\n            39|\n            54\n          "], nationalPrefixFormattingRule := some (str% "$NP$FG") },
      { pattern := some (str% "(\\d{4})(\\d{3,5})"), format := some (str% "$1 $2"), leadingDigits := [str% "\n            (?:\n              25|\n              54\n            )8\n          ", str% "\n            258|\n            5483\n          "], nationalPrefixFormattingRule := some (str% "$NP$FG") }],
    internationalFormats := [
      { pattern := some (str% "(\\d{3})(\\d{3,5})"), format := some (str% "$1 $2"), leadingDigits := [str% "\n            2(?:\n              0[45]|\n              2[278]|\n              [49]8\n            )|\n            3(?:\n              [09]8|\n              17\n            )|\n            6(?:\n              [29]8|\n              37|\n              75\n            )|\n            [23][78]|\n            (?:\n              33|\n              5[15]|\n              6[68]\n            )[78]\n          "], nationalPrefixFormattingRule := some (str% "$NP$FG") },
      { pattern := some (str% "(\\d)(\\d{3})(\\d{2,4})"), format := some (str% "$1 $2 $3"), leadingDigits := [str% "[49]"], nationalPrefixFormattingRule := some (str% "$NP$FG") },
      { pattern := some (str% "(\\d{3})(\\d{4})"), format := some (str% "$1 $2"), leadingDigits := [str% "80"], nationalPrefixFormattingRule := some (str% "$NP$FG") },
      { pattern := some (str% "(\\d{2})(\\d{7})"), format := some (str% "$1 $2"), leadingDigits := [str% "\n            24|\n            8[13-59]|\n            (?:\n              2[05-79]|\n              39|\n              5[45]|\n              6[15-8]\n            )2\n          ", str% "\n            2(?:\n              02[014]|\n              4|\n              [56]20|\n              [79]2\n            )|\n            392|\n            5(?:\n              42|\n              525\n            )|\n            6(?:\n              [16-8]21|\n              52[013]\n            )|\n            8[13-59]\n          "], nationalPrefixFormattingRule := some (str% "($NP$FG)") },
      { pattern := some (str% "(\\d{2})(\\d{3})(\\d{4})"), format := some (str% "$1 $2 $3"), leadingDigits := [str% "7"], nationalPrefixFormattingRule := some (str% "$NP$FG") },
      { pattern := some (str% "(\\d{3})(\\d{3})(\\d{3,4})"), format := some (str% "$1 $2 $3"), leadingDigits := [str% "\n            2(?:\n              1[39]|\n              2[0157]|\n              [378]|\n              [56][14]\n            )|\n            3(?:\n              12|\n              29\n            )\n          ", str% "\n            2(?:\n              1[39]|\n              2[0157]|\n              [378]|\n              [56][14]\n            )|\n            3(?:\n              123|\n              29\n            )\n          "], nationalPrefixFormattingRule := some (str% "$NP$FG") },
      { pattern := some (str% "(\\d{4})(\\d{6})"), format := some (str% "$1 $2"), leadingDigits := [str% "8"], nationalPrefixFormattingRule := some (str% "$NP$FG") },
      { pattern := some (str% "(\\d{2})(\\d{3,5})"), format := some (str% "$1 $2"), leadingDigits := [str% "\n            1|\n            2(?:\n              0[0-36-9]|\n              12|\n              29|\n              [56]\n            )|\n            3(?:\n              1[0-689]|\n              [24-6]\n            )|\n            5(?:\n              [0236-9]|\n              1[2-4]\n            )|\n            6(?:\n              [013-59]|\n              7[0-46-9]\n            )|\n            (?:\n              33|\n              55|\n              6[68]\n            )[0-69]|\n            (?:\n              29|\n              3[09]|\n              62\n            )[0-79]\n          "], nationalPrefixFormattingRule := some (str% "$NP$FG") },
      { pattern := some (str% "(\\d{2})(\\d{3})(\\d{3,4})"), format := some (str% "$1 $2 $3"), leadingDigits := [str% "\n            29[013-9]|\n            39|\n            54\n          "], nationalPrefixFormattingRule := some (str% "$NP$FG") },
      { pattern := some (str% "(\\d{4})(\\d{3,5})"), format := some (str% "$1 $2"), leadingDigits := [str% "\n            (?:\n              25|\n              54\n            )8\n          ", str% "\n            258|\n            5483\n          "], nationalPrefixFormattingRule := some (str% "$NP$FG") }] }

/-- territory id=001 countryCode=800 -/
noncomputable def W800 : Loader.Metadata :=
  { general := some { nationalNumber := some (str% "\n          (?:\n            00|\n            [1-9]\\d\n          )\\d{6}\n        ") },
    tollFree := some { nationalNumber := some (str% "\n          (?:\n            00|\n            [1-9]\\d\n          )\\d{6}\n        "), possibleLength := [8], example? := some (str% "12345678") },
    id := some (str% "001"),
    countryCode := some 800,
    formats := [
      { pattern := some (str% "(\\d{4})(\\d{4})"), format := some (str% "$1 $2"), leadingDigits := [str% "\\d"] }],
    internationalFormats := [
      { pattern := some (str% "(\\d{4})(\\d{4})"), format := some (str% "$1 $2"), leadingDigits := [str% "\\d"] }] }

/-- territory id=001 countryCode=808 -/
noncomputable def W808 : Loader.Metadata :=
  { general := some { nationalNumber := some (str% "[1-9]\\d{7}") },
    sharedCost := some { nationalNumber := some (str% "[1-9]\\d{7}"), possibleLength := [8], example? := some (str% "12345678") },
    id := some (str% "001"),
    countryCode := some 808,
    formats := [
      { pattern := some (str% "(\\d{4})(\\d{4})"), format := some (str% "$1 $2"), leadingDigits := [str% "[1-9]"] }],
    internationalFormats := [
      { pattern := some (str% "(\\d{4})(\\d{4})"), format := some (str% "$1 $2"), leadingDigits := [str% "[1-9]"] }] }

/-- territory id=001 countryCode=870 -/
noncomputable def W870 : Loader.Metadata :=
  { general := some { nationalNumber := some (str% "\n          7\\d{11}|\n          [235-7]\\d{8}\n        ") },
    mobile := some { nationalNumber := some (str% "\n          (?:\n            [356]|\n            774[45]\n          )\\d{8}|\n          7[6-8]\\d{7}\n        "), possibleLength := [9, 12], example? := some (str% "301234567") },
    voip := some { nationalNumber := some (str% "2\\d{8}"), possibleLength := [9], example? := some (str% "201234567") },
    id := some (str% "001"),
    countryCode := some 870,
    formats := [
      { pattern := some (str% "(\\d{3})(\\d{3})(\\d{3})"), format := some (str% "$1 $2 $3"), leadingDigits := [str% "[235-7]"] }],
    internationalFormats := [
      { pattern := some (str% "(\\d{3})(\\d{3})(\\d{3})"), format := some (str% "$1 $2 $3"), leadingDigits := [str% "[235-7]"] }] }

/-- territory id=001 countryCode=878 -/
noncomputable def W878 : Loader.Metadata :=
  { general := some { nationalNumber := some (str% "10\\d{10}") },
    voip := some { nationalNumber := some (str% "10\\d{10}"), possibleLength := [12], example? := some (str% "101234567890") },
    id := some (str% "001"),
    countryCode := some 878,
    formats := [
      { pattern := some (str% "(\\d{2})(\\d{5})(\\d{5})"), format := some (str% "$1 $2 $3"), leadingDigits := [str% "1"] }],
    internationalFormats := [
      { pattern := some (str% "(\\d{2})(\\d{5})(\\d{5})"), format := some (str% "$1 $2 $3"), leadingDigits := [str% "1"] }] }

/-- territory id=001 countryCode=881 -/
noncomputable def W881 : Loader.Metadata :=
  { general := some { nationalNumber := some (str% "\n          6\\d{9}|\n          [0-36-9]\\d{8}\n        ") },
    mobile := some { nationalNumber := some (str% "\n          6\\d{9}|\n          [0-36-9]\\d{8}\n        "), possibleLength := [9, 10], example? := some (str% "612345678") },
    id := some (str% "001"),
    countryCode := some 881,
    formats := [
      { pattern := some (str% "(\\d)(\\d{3})(\\d{5})"), format := some (str% "$1 $2 $3"), leadingDigits := [str% "[0-37-9]"] },
      { pattern := some (str% "(\\d)(\\d{3})(\\d{5,6})"), format := some (str% "$1 $2 $3"), leadingDigits := [str% "6"] }],
    internationalFormats := [
      { pattern := some (str% "(\\d)(\\d{3})(\\d{5})"), format := some (str% "$1 $2 $3"), leadingDigits := [str% "[0-37-9]"] },
      { pattern := some (str% "(\\d)(\\d{3})(\\d{5,6})"), format := some (str% "$1 $2 $3"), leadingDigits := [str% "6"] }] }

/-- territory id=001 countryCode=882 -/
noncomputable def W882 : Loader.Metadata :=
  { general := some { nationalNumber := some (str% "\n          [13]\\d{6}(?:\n            \\d{2,5}\n          )?|\n          [19]\\d{7}|\n          (?:\n            [25]\\d\\d|\n            4\n          )\\d{7}(?:\n            \\d{2}\n          )?\n        ") },
    mobile := some { nationalNumber := some (str% "\n          342\\d{4}|\n          (?:\n            337|\n            49\n          )\\d{6}|\n          (?:\n            3(?:\n              2|\n              47|\n              7\\d{3}\n            )|\n            5(?:\n              0\\d{3}|\n              2[0-2]\n            )\n          )\\d{7}\n        "), possibleLength := [7, 8, 9, 10, 12], example? := some (str% "3421234") },
    voip := some { nationalNumber := some (str% "\n          1(?:\n            3(?:\n              0[0347]|\n              [13][0139]|\n              2[035]|\n              4[013568]|\n              6[0459]|\n              7[06]|\n              8[15-8]|\n              9[0689]\n            )\\d{4}|\n            6\\d{5,10}\n          )|\n          (?:\n            345\\d|\n            9[89]\n          )\\d{6}|\n          (?:\n            10|\n            2(?:\n              3|\n              85\\d\n            )|\n            3(?:\n              [15]|\n              [69]\\d\\d\n            )|\n            4[15-8]|\n            51\n          )\\d{8}\n        "), possibleLength := [7, 8, 9, 10, 11, 12], example? := some (str% "390123456789") },
    voicemail := some { nationalNumber := some (str% "348[57]\\d{7}"), possibleLength := [11], example? := some (str% "34851234567") },
    id := some (str% "001"),
    countryCode := some 882,
    formats := [
      { pattern := some (str% "(\\d{2})(\\d{5})"), format := some (str% "$1 $2"), leadingDigits := [str% "\n            16|\n            342\n          "] },
      { pattern := some (str% "(\\d{2})(\\d{6})"), format := some (str% "$1 $2"), leadingDigits := [str% "49"] },
      { pattern := some (str% "(\\d{2})(\\d{2})(\\d{4})"), format := some (str% "$1 $2 $3"), leadingDigits := [str% "\n            1[36]|\n            9\n          "] },
      { pattern := some (str% "(\\d{2})(\\d{4})(\\d{3})"), format := some (str% "$1 $2 $3"), leadingDigits := [str% "3[23]"] },
      { pattern := some (str% "(\\d{2})(\\d{3,4})(\\d{4})"), format := some (str% "$1 $2 $3"), leadingDigits := [str% "16"] },
      { pattern := some (str% "(\\d{2})(\\d{4})(\\d{4})"), format := some (str% "$1 $2 $3"), leadingDigits := [str% "\n            10|\n            23|\n            3(?:\n              [15]|\n              4[57]\n            )|\n            4|\n            5[12]\n          "] },
      { pattern := some (str% "(\\d{3})(\\d{4})(\\d{4})"), format := some (str% "$1 $2 $3"), leadingDigits := [str% "34"] },
      { pattern := some (str% "(\\d{2})(\\d{4,5})(\\d{5})"), format := some (str% "$1 $2 $3"), leadingDigits := [str% "[1-35]"] }],
    internationalFormats := [
      { pattern := some (str% "(\\d{2})(\\d{5})"), format := some (str% "$1 $2"), leadingDigits := [str% "\n            16|\n            342\n          "] },
      { pattern := some (str% "(\\d{2})(\\d{6})"), format := some (str% "$1 $2"), leadingDigits := [str% "49"] },
      { pattern := some (str% "(\\d{2})(\\d{2})(\\d{4})"), format := some (str% "$1 $2 $3"), leadingDigits := [str% "\n            1[36]|\n            9\n          "] },
      { pattern := some (str% "(\\d{2})(\\d{4})(\\d{3})"), format := some (str% "$1 $2 $3"), leadingDigits := [str% "3[23]"] },
      { pattern := some (str% "(\\d{2})(\\d{3,4})(\\d{4})"), format := some (str% "$1 $2 $3"), leadingDigits := [str% "16"] },
      { pattern := some (str% "(\\d{2})(\\d{4})(\\d{4})"), format := some (str% "$1 $2 $3"), leadingDigits := [str% "\n            10|\n            23|\n            3(?:\n              [15]|\n              4[57]\n            )|\n            4|\n            5[12]\n          "] },
      { pattern := some (str% "(\\d{3})(\\d{4})(\\d{4})"), format := some (str% "$1 $2 $3"), leadingDigits := [str% "34"] },
      { pattern := some (str% "(\\d{2})(\\d{4,5})(\\d{5})"), format := some (str% "$1 $2 $3"), leadingDigits := [str% "[1-35]"] }] }

/-- territory id=001 countryCode=883 -/
noncomputable def W883 : Loader.Metadata :=
  { general := some { nationalNumber := some (str% "\n          (?:\n            [1-4]\\d|\n            51\n          )\\d{6,10}\n        ") },
    voip := some { nationalNumber := some (str% "\n          (?:\n            2(?:\n              00\\d\\d|\n              10\n            )|\n            (?:\n              370[1-9]|\n              51\\d0\n            )\\d\n          )\\d{7}|\n          51(?:\n            00\\d{5}|\n            [24-9]0\\d{4,7}\n          )|\n          (?:\n            1[0-79]|\n            2[24-689]|\n            3[02-689]|\n            4[0-4]\n          )0\\d{5,9}\n        "), possibleLength := [8, 9, 10, 11, 12], example? := some (str% "510012345") },
    id := some (str% "001"),
    countryCode := some 883,
    formats := [
      { pattern := some (str% "(\\d{3})(\\d{3})(\\d{2,8})"), format := some (str% "$1 $2 $3"), leadingDigits := [str% "\n            [14]|\n            2[24-689]|\n            3[02-689]|\n            51[24-9]\n          "] },
      { pattern := some (str% "(\\d{3})(\\d{3})(\\d{3})"), format := some (str% "$1 $2 $3"), leadingDigits := [str% "510"] },
      { pattern := some (str% "(\\d{3})(\\d{3})(\\d{4})"), format := some (str% "$1 $2 $3"), leadingDigits := [str% "21"] },
      { pattern := some (str% "(\\d{4})(\\d{4})(\\d{4})"), format := some (str% "$1 $2 $3"), leadingDigits := [str% "51[13]"] },
      { pattern := some (str% "(\\d{3})(\\d{3})(\\d{3})(\\d{3})"), format := some (str% "$1 $2 $3 $4"), leadingDigits := [str% "[235]"] }],
    internationalFormats := [
      { pattern := some (str% "(\\d{3})(\\d{3})(\\d{2,8})"), format := some (str% "$1 $2 $3"), leadingDigits := [str% "\n            [14]|\n            2[24-689]|\n            3[02-689]|\n            51[24-9]\n          "] },
      { pattern := some (str% "(\\d{3})(\\d{3})(\\d{3})"), format := some (str% "$1 $2 $3"), leadingDigits := [str% "510"] },
      { pattern := some (str% "(\\d{3})(\\d{3})(\\d{4})"), format := some (str% "$1 $2 $3"), leadingDigits := [str% "21"] },
      { pattern := some (str% "(\\d{4})(\\d{4})(\\d{4})"), format := some (str% "$1 $2 $3"), leadingDigits := [str% "51[13]"] },
      { pattern := some (str% "(\\d{3})(\\d{3})(\\d{3})(\\d{3})"), format := some (str% "$1 $2 $3 $4"), leadingDigits := [str% "[235]"] }] }

/-- territory id=001 countryCode=888 -/
noncomputable def W888 : Loader.Metadata :=
  { general := some { nationalNumber := some (str% "\\d{11}") },
    uan := some { nationalNumber := some (str% "\\d{11}"), possibleLength := [11], example? := some (str% "12345678901") },
    id := some (str% "001"),
    countryCode := some 888,
    formats := [
      { pattern := some (str% "(\\d{3})(\\d{3})(\\d{5})"), format := some (str% "$1 $2 $3") }],
    internationalFormats := [
      { pattern := some (str% "(\\d{3})(\\d{3})(\\d{5})"), format := some (str% "$1 $2 $3") }] }

/-- territory id=001 countryCode=979 -/
noncomputable def W979 : Loader.Metadata :=
  { general := some { nationalNumber := some (str% "[1359]\\d{8}") },
    premiumRate := some { nationalNumber := some (str% "[1359]\\d{8}"), possibleLength := [9], possibleLocalLength := [8], example? := some (str% "123456789") },
    id := some (str% "001"),
    countryCode := some 979,
    formats := [
      { pattern := some (str% "(\\d)(\\d{4})(\\d{4})"), format := some (str% "$1 $2 $3"), leadingDigits := [str% "[1359]"] }],
    internationalFormats := [
      { pattern := some (str% "(\\d)(\\d{4})(\\d{4})"), format := some (str% "$1 $2 $3"), leadingDigits := [str% "[1359]"] }] }

/-- the territories of this module, in document order -/
noncomputable def chunk15 : List Loader.Metadata :=
  [VG, VI, VN, VU, WF, WS, XK, YE, YT, ZA, ZM, ZW, W800, W808, W870, W878, W881, W882, W883, W888, W979]

end Phone.Data
