import Verif.Model.Database
/-! Territories of `/repo/assets/PhoneNumberMetadata.xml` as `/repo/src/metadata/loader.rs` reads them.
Generated by `tools/gen_data.py`; do not edit. -/

set_option maxRecDepth 100000
namespace Phone.Data

/-- territory id=TM countryCode=993 -/
noncomputable def TM : Loader.Metadata :=
  { general := some { nationalNumber := some (str% "\n          (?:\n            [1-6]\\d|\n            71\n          )\\d{6}\n        ") },
    fixedLine := some { nationalNumber := some (str% "\n          (?:\n            1(?:\n              2\\d|\n              3[1-9]\n            )|\n            2(?:\n              22|\n              4[0-35-8]\n            )|\n            3(?:\n              22|\n              4[03-9]\n            )|\n            4(?:\n              22|\n              3[128]|\n              4\\d|\n              6[15]\n            )|\n            5(?:\n              22|\n              5[7-9]|\n              6[014-689]\n            )\n          )\\d{5}\n        "), possibleLength := [8], example? := some (str% "12345678") },
    mobile := some { nationalNumber := some (str% "\n          (?:\n            6\\d|\n            71\n          )\\d{6}\n        "), possibleLength := [8], example? := some (str% "66123456") },
    id := some (str% "TM"),
    countryCode := some 993,
    internationalPrefix := some (str% "810"),
    preferredInternationalPrefix := some (str% "8~10"),
    nationalPrefix := some (str% "8"),
    formats := [
      { pattern := some (str% "(\\d{2})(\\d{2})(\\d{2})(\\d{2})"), format := some (str% "$1 $2-$3-$4"), leadingDigits := [str% "12"], nationalPrefixFormattingRule := some (str% "($NP $FG)") },
      { pattern := some (str% "(\\d{3})(\\d)(\\d{2})(\\d{2})"), format := some (str% "$1 $2-$3-$4"), leadingDigits := [str% "[1-5]"], nationalPrefixFormattingRule := some (str% "($NP $FG)") },
      { pattern := some (str% "(\\d{2})(\\d{6})"), format := some (str% "$1 $2"), leadingDigits := [str% "[67]"], nationalPrefixFormattingRule := some (str% "$NP $FG") }],
    internationalFormats := [
      { pattern := some (str% "(\\d{2})(\\d{2})(\\d{2})(\\d{2})"), format := some (str% "$1 $2-$3-$4"), leadingDigits := [str% "12"], nationalPrefixFormattingRule := some (str% "($NP $FG)") },
      { pattern := some (str% "(\\d{3})(\\d)(\\d{2})(\\d{2})"), format := some (str% "$1 $2-$3-$4"), leadingDigits := [str% "[1-5]"], nationalPrefixFormattingRule := some (str% "($NP $FG)") },
      { pattern := some (str% "(\\d{2})(\\d{6})"), format := some (str% "$1 $2"), leadingDigits := [str% "[67]"], nationalPrefixFormattingRule := some (str% "$NP $FG") }] }

/-- territory id=TN countryCode=216 -/
noncomputable def TN : Loader.Metadata :=
  { general := some { nationalNumber := some (str% "[2-57-9]\\d{7}") },
    fixedLine := some { nationalNumber := some (str% "\n          81200\\d{3}|\n          (?:\n            3[0-2]|\n            7\\d\n          )\\d{6}\n        "), possibleLength := [8], example? := some (str% "30010123") },
    mobile := some { nationalNumber := some (str% "\n          3(?:\n            001|\n            [12]40\n          )\\d{4}|\n          (?:\n            (?:\n              [259]\\d|\n              4[0-8]\n            )\\d|\n            3(?:\n              1[1-35]|\n              6[0-4]|\n              91\n            )\n          )\\d{5}\n        "), possibleLength := [8], example? := some (str% "20123456") },
    tollFree := some { nationalNumber := some (str% "8010\\d{4}"), possibleLength := [8], example? := some (str% "80101234") },
    premiumRate := some { nationalNumber := some (str% "88\\d{6}"), possibleLength := [8], example? := some (str% "88123456") },
    sharedCost := some { nationalNumber := some (str% "8[12]10\\d{4}"), possibleLength := [8], example? := some (str% "81101234") },
    id := some (str% "TN"),
    countryCode := some 216,
    internationalPrefix := some (str% "00"),
    formats := [
      { pattern := some (str% "(\\d{2})(\\d{3})(\\d{3})"), format := some (str% "$1 $2 $3"), leadingDigits := [str% "[2-57-9]"] }],
    internationalFormats := [
      { pattern := some (str% "(\\d{2})(\\d{3})(\\d{3})"), format := some (str% "$1 $2 $3"), leadingDigits := [str% "[2-57-9]"] }] }

/-- territory id=TO countryCode=676 -/
noncomputable def TO : Loader.Metadata :=
  { general := some { nationalNumber := some (str% "\n          (?:\n            0800|\n            (?:\n              [5-8]\\d\\d|\n              999\n            )\\d\n          )\\d{3}|\n          [2-8]\\d{4}\n        ") },
    fixedLine := some { nationalNumber := some (str% "\n          (?:\n            2\\d|\n            3[0-8]|\n            4[0-4]|\n            50|\n            6[09]|\n            7[0-24-69]|\n            8[05]\n          )\\d{3}\n        "), possibleLength := [5], example? := some (str% "20123") },
    mobile := some { nationalNumber := some (str% "\n          (?:\n            5(?:\n              4[0-5]|\n              5[4-6]\n            )|\n            6(?:\n              [09]\\d|\n              3[02]|\n              8[15-9]\n            )|\n            (?:\n              7\\d|\n              8[46-9]\n            )\\d|\n            999\n          )\\d{4}\n        "), possibleLength := [7], example? := some (str% "7715123") },
    tollFree := some { nationalNumber := some (str% "0800\\d{3}"), possibleLength := [7], example? := some (str% "0800222") },
    voip := some { nationalNumber := some (str% "55[0-37-9]\\d{4}"), possibleLength := [7], example? := some (str% "5510123") },
    id := some (str% "TO"),
    countryCode := some 676,
    internationalPrefix := some (str% "00"),
    formats := [
      { pattern := some (str% "(\\d{2})(\\d{3})"), format := some (str% "$1-$2"), leadingDigits := [str% "\n            [2-4]|\n            50|\n            6[09]|\n            7[0-24-69]|\n            8[05]\n          "] },
      { pattern := some (str% "(\\d{4})(\\d{3})"), format := some (str% "$1 $2"), leadingDigits := [str% "0"] },
      { pattern := some (str% "(\\d{3})(\\d{4})"), format := some (str% "$1 $2"), leadingDigits := [str% "[5-9]"] }],
    internationalFormats := [
      { pattern := some (str% "(\\d{2})(\\d{3})"), format := some (str% "$1-$2"), leadingDigits := [str% "\n            [2-4]|\n            50|\n            6[09]|\n            7[0-24-69]|\n            8[05]\n          "] },
      { pattern := some (str% "(\\d{4})(\\d{3})"), format := some (str% "$1 $2"), leadingDigits := [str% "0"] },
      { pattern := some (str% "(\\d{3})(\\d{4})"), format := some (str% "$1 $2"), leadingDigits := [str% "[5-9]"] }] }

/-- territory id=TR countryCode=90 -/
noncomputable def TR : Loader.Metadata :=
  { general := some { nationalNumber := some (str% "\n          4\\d{6}|\n          8\\d{11,12}|\n          (?:\n            [2-58]\\d\\d|\n            900\n          )\\d{7}\n        ") },
    fixedLine := some { nationalNumber := some (str% "\n          (?:\n            2(?:\n              1[26]|\n              [28][2468]|\n              [3-5][268]|\n              [67][246]\n            )|\n            3(?:\n              [13][28]|\n              [24-6][2468]|\n              [78][02468]|\n              92\n            )|\n            4(?:\n              [16][246]|\n              [23578][2468]|\n              4[26]\n            )\n          )\\d{7}\n        "), possibleLength := [10], example? := some (str% "2123456789") },
    mobile := some { nationalNumber := some (str% "\n          561(?:\n            011|\n            61\\d\n          )\\d{4}|\n          5(?:\n            [03-5]\\d|\n            1[06]|\n            24|\n            6[24]|\n            7[245]|\n            9[46]\n          )\\d{7}\n        "), possibleLength := [10], example? := some (str% "5012345678") },
    tollFree := some { nationalNumber := some (str% "\n          8(?:\n            00\\d{7}(?:\n              \\d{2,3}\n            )?|\n            11\\d{7}\n          )\n        "), possibleLength := [10, 12, 13], example? := some (str% "8001234567") },
    premiumRate := some { nationalNumber := some (str% "\n          (?:\n            8[89]8|\n            900\n          )\\d{7}\n        "), possibleLength := [10], example? := some (str% "9001234567") },
    personalNumber := some { nationalNumber := some (str% "\n          592(?:\n            21[12]|\n            461\n          )\\d{4}\n        "), possibleLength := [10], example? := some (str% "5922121234") },
    voip := some { nationalNumber := some (str% "850\\d{7}"), possibleLength := [10], example? := some (str% "8500123456") },
    pager := some { nationalNumber := some (str% "512\\d{7}"), possibleLength := [10], example? := some (str% "5123456789") },
    uan := some { nationalNumber := some (str% "444\\d{4}"), possibleLength := [7], example? := some (str% "4441444") },
    noInternational := some { nationalNumber := some (str% "\n          (?:\n            444|\n            811\\d{3}\n          )\\d{4}\n        "), possibleLength := [7, 10] },
    id := some (str% "TR"),
    countryCode := some 90,
    internationalPrefix := some (str% "00"),
    nationalPrefix := some (str% "0"),
    formats := [
      { pattern := some (str% "(\\d{3})(\\d)(\\d{3})"), format := some (str% "$1 $2 $3"), leadingDigits := [str% "444"], nationalPrefixOptionalWhenFormatting := true },
      { pattern := some (str% "(\\d{3})(\\d{3})(\\d{4})"), format := some (str% "$1 $2 $3"), leadingDigits := [str% "\n            512|\n            8[01589]|\n            90\n          "], nationalPrefixFormattingRule := some (str% "$NP$FG"), nationalPrefixOptionalWhenFormatting := true },
      { pattern := some (str% "(\\d{3})(\\d{3})(\\d{2})(\\d{2})"), format := some (str% "$1 $2 $3 $4"), leadingDigits := [str% "5[0-79]"], nationalPrefixFormattingRule := some (str% "$NP$FG"), nationalPrefixOptionalWhenFormatting := true },
      { pattern := some (str% "(\\d{3})(\\d{3})(\\d{2})(\\d{2})"), format := some (str% "$1 $2 $3 $4"), leadingDigits := [str% "\n            [24][1-8]|\n            3[1-9]\n          "], nationalPrefixFormattingRule := some (str% "($NP$FG)"), nationalPrefixOptionalWhenFormatting := true },
      { pattern := some (str% "(\\d{3})(\\d{3})(\\d{6,7})"), format := some (str% "$1 $2 $3"), leadingDigits := [str% "80"], nationalPrefixFormattingRule := some (str% "$NP$FG"), nationalPrefixOptionalWhenFormatting := true }],
    internationalFormats := [
      { pattern := some (str% "(\\d{3})(\\d{3})(\\d{4})"), format := some (str% "$1 $2 $3"), leadingDigits := [str% "\n            512|\n            8[01589]|\n            90\n          "], nationalPrefixFormattingRule := some (str% "$NP$FG"), nationalPrefixOptionalWhenFormatting := true },
      { pattern := some (str% "(\\d{3})(\\d{3})(\\d{2})(\\d{2})"), format := some (str% "$1 $2 $3 $4"), leadingDigits := [str% "5[0-79]"], nationalPrefixFormattingRule := some (str% "$NP$FG"), nationalPrefixOptionalWhenFormatting := true },
      { pattern := some (str% "(\\d{3})(\\d{3})(\\d{2})(\\d{2})"), format := some (str% "$1 $2 $3 $4"), leadingDigits := [str% "\n            [24][1-8]|\n            3[1-9]\n          "], nationalPrefixFormattingRule := some (str% "($NP$FG)"), nationalPrefixOptionalWhenFormatting := true },
      { pattern := some (str% "(\\d{3})(\\d{3})(\\d{6,7})"), format := some (str% "$1 $2 $3"), leadingDigits := [str% "80"], nationalPrefixFormattingRule := some (str% "$NP$FG"), nationalPrefixOptionalWhenFormatting := true }],
    mobileNumberPortable := true }

/-- territory id=TT countryCode=1 -/
noncomputable def TT : Loader.Metadata :=
  { general := some { nationalNumber := some (str% "\n          (?:\n            [58]\\d\\d|\n            900\n          )\\d{7}\n        ") },
    fixedLine := some { nationalNumber := some (str% "\n          868(?:\n            2(?:\n              01|\n              1[5-9]|\n              [23]\\d|\n              4[0-2]\n            )|\n            6(?:\n              0[7-9]|\n              1[02-8]|\n              2[1-9]|\n              [3-69]\\d|\n              7[0-79]\n            )|\n            82[124]\n          )\\d{4}\n        "), possibleLength := [10], possibleLocalLength := [7], example? := some (str% "8682211234") },
    mobile := some { nationalNumber := some (str% "\n          868(?:\n            (?:\n              2[5-9]|\n              3\\d\n            )\\d|\n            4(?:\n              3[0-6]|\n              [6-9]\\d\n            )|\n            6(?:\n              20|\n              78|\n              8\\d\n            )|\n            7(?:\n              0[1-9]|\n              1[02-9]|\n              [2-9]\\d\n            )\n          )\\d{4}\n        "), possibleLength := [10], possibleLocalLength := [7], example? := some (str% "8682911234") },
    tollFree := some { nationalNumber := some (str% "\n          868800\\d{4}|\n          8(?:\n            00|\n            33|\n            44|\n            55|\n            66|\n            77|\n            88\n          )[2-9]\\d{6}\n        "), possibleLength := [10], example? := some (str% "8002345678") },
    premiumRate := some { nationalNumber := some (str% "900[2-9]\\d{6}"), possibleLength := [10], example? := some (str% "9002345678") },
    personalNumber := some { nationalNumber := some (str% "\n          52(?:\n            3(?:\n              [2-46-9][02-9]\\d|\n              5(?:\n                [02-46-9]\\d|\n                5[0-46-9]\n              )\n            )|\n            4(?:\n              [2-478][02-9]\\d|\n              5(?:\n                [034]\\d|\n                2[024-9]|\n                5[0-46-9]\n              )|\n              6(?:\n                0[1-9]|\n                [2-9]\\d\n              )|\n              9(?:\n                [05-9]\\d|\n                2[0-5]|\n                49\n              )\n            )\n          )\\d{4}|\n          52[34][2-9]1[02-9]\\d{4}|\n          5(?:\n            00|\n            2[125-9]|\n            3[23]|\n            44|\n            66|\n            77|\n            88\n          )[2-9]\\d{6}\n        "), possibleLength := [10], example? := some (str% "5002345678") },
    voicemail := some { nationalNumber := some (str% "868619\\d{4}"), possibleLength := [10], possibleLocalLength := [7], example? := some (str% "8686191234") },
    id := some (str% "TT"),
    countryCode := some 1,
    internationalPrefix := some (str% "011"),
    nationalPrefix := some (str% "1"),
    nationalPrefixForParsing := some (str% "([2-46-8]\\d{6})$|1"),
    nationalPrefixTransformRule := some (str% "868$1"),
    leadingDigits := some (str% "868"),
    mobileNumberPortable := true }

/-- territory id=TV countryCode=688 -/
noncomputable def TV : Loader.Metadata :=
  { general := some { nationalNumber := some (str% "\n          (?:\n            2|\n            7\\d\\d|\n            90\n          )\\d{4}\n        ") },
    fixedLine := some { nationalNumber := some (str% "2[02-9]\\d{3}"), possibleLength := [5], example? := some (str% "20123") },
    mobile := some { nationalNumber := some (str% "\n          (?:\n            7[01]\\d|\n            90\n          )\\d{4}\n        "), possibleLength := [6, 7], example? := some (str% "901234") },
    id := some (str% "TV"),
    countryCode := some 688,
    internationalPrefix := some (str% "00"),
    formats := [
      { pattern := some (str% "(\\d{2})(\\d{3})"), format := some (str% "$1 $2"), leadingDigits := [str% "2"] },
      { pattern := some (str% "(\\d{2})(\\d{4})"), format := some (str% "$1 $2"), leadingDigits := [str% "90"] },
      { pattern := some (str% "(\\d{2})(\\d{5})"), format := some (str% "$1 $2"), leadingDigits := [str% "7"] }],
    internationalFormats := [
      { pattern := some (str% "(\\d{2})(\\d{3})"), format := some (str% "$1 $2"), leadingDigits := [str% "2"] },
      { pattern := some (str% "(\\d{2})(\\d{4})"), format := some (str% "$1 $2"), leadingDigits := [str% "90"] },
      { pattern := some (str% "(\\d{2})(\\d{5})"), format := some (str% "$1 $2"), leadingDigits := [str% "7"] }] }

/-- territory id=TW countryCode=886 -/
noncomputable def TW : Loader.Metadata :=
  { general := some { nationalNumber := some (str% "\n          [2-689]\\d{8}|\n          7\\d{9,10}|\n          [2-8]\\d{7}|\n          2\\d{6}\n        ") },
    fixedLine := some { nationalNumber := some (str% "\n          (?:\n            2[2-8]\\d|\n            370|\n            55[01]|\n            7[1-9]\n          )\\d{6}|\n          4(?:\n            (?:\n              0(?:\n                0[1-9]|\n                [2-48]\\d\n              )|\n              1[023]\\d\n            )\\d{4,5}|\n            (?:\n              [239]\\d\\d|\n              4(?:\n                0[56]|\n                12|\n                49\n              )\n            )\\d{5}\n          )|\n          6(?:\n            [01]\\d{7}|\n            4(?:\n              0[56]|\n              12|\n              24|\n              4[09]\n            )\\d{4,5}\n          )|\n          8(?:\n            (?:\n              2(?:\n                3\\d|\n                4[0-269]|\n                [578]0|\n                66\n              )|\n              36[24-9]|\n              90\\d\\d\n            )\\d{4}|\n            4(?:\n              0[56]|\n              12|\n              24|\n              4[09]\n            )\\d{4,5}\n          )|\n          (?:\n            2(?:\n              2(?:\n                0\\d\\d|\n                4(?:\n                  0[68]|\n                  [249]0|\n                  3[0-467]|\n                  5[0-25-9]|\n                  6[0235689]\n                )\n              )|\n              (?:\n                3(?:\n                  [09]\\d|\n                  1[0-4]\n                )|\n                (?:\n                  4\\d|\n                  5[0-49]|\n                  6[0-29]|\n                  7[0-5]\n                )\\d\n              )\\d\n            )|\n            (?:\n              (?:\n                3[2-9]|\n                5[2-8]|\n                6[0-35-79]|\n                8[7-9]\n              )\\d\\d|\n              4(?:\n                2(?:\n                  [089]\\d|\n                  7[1-9]\n                )|\n                (?:\n                  3[0-4]|\n                  [78]\\d|\n                  9[01]\n                )\\d\n              )\n            )\\d\n          )\\d{3}\n        "), possibleLength := [8, 9], example? := some (str% "221234567") },
    mobile := some { nationalNumber := some (str% "\n          (?:\n            40001[0-2]|\n            9[0-8]\\d{4}\n          )\\d{3}\n        "), possibleLength := [9], example? := some (str% "912345678") },
    tollFree := some { nationalNumber := some (str% "\n          80[0-79]\\d{6}|\n          800\\d{5}\n        "), possibleLength := [8, 9], example? := some (str% "800123456") },
    premiumRate := some { nationalNumber := some (str% "\n          20(?:\n            [013-9]\\d\\d|\n            2\n          )\\d{4}\n        "), possibleLength := [7, 9], example? := some (str% "203123456") },
    personalNumber := some { nationalNumber := some (str% "99\\d{7}"), possibleLength := [9], example? := some (str% "990123456") },
    voip := some { nationalNumber := some (str% "\n          7010(?:\n            [0-2679]\\d|\n            3[0-7]|\n            8[0-5]\n          )\\d{5}|\n          70\\d{8}\n        "), possibleLength := [10, 11], example? := some (str% "7012345678") },
    uan := some { nationalNumber := some (str% "50[0-46-9]\\d{6}"), possibleLength := [9], example? := some (str% "500123456") },
    id := some (str% "TW"),
    countryCode := some 886,
    internationalPrefix := some (str% "0(?:0[25-79]|19)"),
    nationalPrefix := some (str% "0"),
    preferredExtensionPrefix := some (str% "#"),
    formats := [
      { pattern := some (str% "(\\d{2})(\\d)(\\d{4})"), format := some (str% "$1 $2 $3"), leadingDigits := [str% "202"], nationalPrefixFormattingRule := some (str% "$NP$FG") },
      { pattern := some (str% "(\\d{3})(\\d{5})"), format := some (str% "$1 $2"), leadingDigits := [str% "826"], nationalPrefixFormattingRule := some (str% "$NP$FG") },
      { pattern := some (str% "(\\d{3})(\\d{2})(\\d{3})"), format := some (str% "$1 $2 $3"), leadingDigits := [str% "83"], nationalPrefixFormattingRule := some (str% "$NP$FG") },
      { pattern := some (str% "(\\d{2})(\\d{2})(\\d{4})"), format := some (str% "$1 $2 $3"), leadingDigits := [str% "82"], nationalPrefixFormattingRule := some (str% "$NP$FG") },
      { pattern := some (str% "(\\d{2})(\\d{3})(\\d{3,4})"), format := some (str% "$1 $2 $3"), leadingDigits := [str% "\n            [25]0|\n            37|\n            49|\n            8[09]\n          "], nationalPrefixFormattingRule := some (str% "$NP$FG") },
      { pattern := some (str% "(\\d)(\\d{3,4})(\\d{4})"), format := some (str% "$1 $2 $3"), leadingDigits := [str% "\n            [23568]|\n            4(?:\n              0[02-48]|\n              [1-478]\n            )|\n            7[1-9]\n          ", str% "\n            [23568]|\n            4(?:\n              0[2-48]|\n              [1-478]\n            )|\n            (?:\n              400|\n              7\n            )[1-9]\n          "], nationalPrefixFormattingRule := some (str% "$NP$FG") },
      { pattern := some (str% "(\\d{3})(\\d{3})(\\d{3})"), format := some (str% "$1 $2 $3"), leadingDigits := [str% "[49]"], nationalPrefixFormattingRule := some (str% "$NP$FG") },
      { pattern := some (str% "(\\d{2})(\\d{4})(\\d{4,5})"), format := some (str% "$1 $2 $3"), leadingDigits := [str% "7"], nationalPrefixFormattingRule := some (str% "$NP$FG") }],
    internationalFormats := [
      { pattern := some (str% "(\\d{2})(\\d)(\\d{4})"), format := some (str% "$1 $2 $3"), leadingDigits := [str% "202"], nationalPrefixFormattingRule := some (str% "$NP$FG") },
      { pattern := some (str% "(\\d{3})(\\d{5})"), format := some (str% "$1 $2"), leadingDigits := [str% "826"], nationalPrefixFormattingRule := some (str% "$NP$FG") },
      { pattern := some (str% "(\\d{3})(\\d{2})(\\d{3})"), format := some (str% "$1 $2 $3"), leadingDigits := [str% "83"], nationalPrefixFormattingRule := some (str% "$NP$FG") },
      { pattern := some (str% "(\\d{2})(\\d{2})(\\d{4})"), format := some (str% "$1 $2 $3"), leadingDigits := [str% "82"], nationalPrefixFormattingRule := some (str% "$NP$FG") },
      { pattern := some (str% "(\\d{2})(\\d{3})(\\d{3,4})"), format := some (str% "$1 $2 $3"), leadingDigits := [str% "\n            [25]0|\n            37|\n            49|\n            8[09]\n          "], nationalPrefixFormattingRule := some (str% "$NP$FG") },
      { pattern := some (str% "(\\d)(\\d{3,4})(\\d{4})"), format := some (str% "$1 $2 $3"), leadingDigits := [str% "\n            [23568]|\n            4(?:\n              0[02-48]|\n              [1-478]\n            )|\n            7[1-9]\n          ", str% "\n            [23568]|\n            4(?:\n              0[2-48]|\n              [1-478]\n            )|\n            (?:\n              400|\n              7\n            )[1-9]\n          "], nationalPrefixFormattingRule := some (str% "$NP$FG") },
      { pattern := some (str% "(\\d{3})(\\d{3})(\\d{3})"), format := some (str% "$1 $2 $3"), leadingDigits := [str% "[49]"], nationalPrefixFormattingRule := some (str% "$NP$FG") },
      { pattern := some (str% "(\\d{2})(\\d{4})(\\d{4,5})"), format := some (str% "$1 $2 $3"), leadingDigits := [str% "7"], nationalPrefixFormattingRule := some (str% "$NP$FG") }],
    mobileNumberPortable := true }

/-- territory id=TZ countryCode=255 -/
noncomputable def TZ : Loader.Metadata :=
  { general := some { nationalNumber := some (str% "\n          (?:\n            [25-8]\\d|\n            41|\n            90\n          )\\d{7}\n        ") },
    fixedLine := some { nationalNumber := some (str% "2[2-8]\\d{7}"), possibleLength := [9], example? := some (str% "222345678") },
    mobile := some { nationalNumber := some (str% "\n          (?:\n            6[1-35-9]|\n            7[013-9]\n          )\\d{7}\n        "), possibleLength := [9], example? := some (str% "621234567") },
    tollFree := some { nationalNumber := some (str% "80[08]\\d{6}"), possibleLength := [9], example? := some (str% "800123456") },
    premiumRate := some { nationalNumber := some (str% "90\\d{7}"), possibleLength := [9], example? := some (str% "900123456") },
    sharedCost := some { nationalNumber := some (str% "\n          8(?:\n            40|\n            6[01]\n          )\\d{6}\n        "), possibleLength := [9], example? := some (str% "840123456") },
    voip := some { nationalNumber := some (str% "41\\d{7}"), possibleLength := [9], example? := some (str% "412345678") },
    noInternational := some { nationalNumber := some (str% "\n          (?:\n            8(?:\n              [04]0|\n              6[01]\n            )|\n            90\\d\n          )\\d{6}\n        "), possibleLength := [9] },
    id := some (str% "TZ"),
    countryCode := some 255,
    internationalPrefix := some (str% "00[056]"),
    nationalPrefix := some (str% "0"),
    formats := [
      { pattern := some (str% "(\\d{3})(\\d{2})(\\d{4})"), format := some (str% "$1 $2 $3"), leadingDigits := [str% "[89]"], nationalPrefixFormattingRule := some (str% "$NP$FG") },
      { pattern := some (str% "(\\d{2})(\\d{3})(\\d{4})"), format := some (str% "$1 $2 $3"), leadingDigits := [str% "[24]"], nationalPrefixFormattingRule := some (str% "$NP$FG") },
      { pattern := some (str% "(\\d{2})(\\d{7})"), format := some (str% "$1 $2"), leadingDigits := [str% "5"] },
      { pattern := some (str% "(\\d{3})(\\d{3})(\\d{3})"), format := some (str% "$1 $2 $3"), leadingDigits := [str% "[67]"], nationalPrefixFormattingRule := some (str% "$NP$FG") }],
    internationalFormats := [
      { pattern := some (str% "(\\d{3})(\\d{2})(\\d{4})"), format := some (str% "$1 $2 $3"), leadingDigits := [str% "[89]"], nationalPrefixFormattingRule := some (str% "$NP$FG") },
      { pattern := some (str% "(\\d{2})(\\d{3})(\\d{4})"), format := some (str% "$1 $2 $3"), leadingDigits := [str% "[24]"], nationalPrefixFormattingRule := some (str% "$NP$FG") },
      { pattern := some (str% "(\\d{2})(\\d{7})"), format := some (str% "$1 $2"), leadingDigits := [str% "5"] },
      { pattern := some (str% "(\\d{3})(\\d{3})(\\d{3})"), format := some (str% "$1 $2 $3"), leadingDigits := [str% "[67]"], nationalPrefixFormattingRule := some (str% "$NP$FG") }] }

/-- territory id=UA countryCode=380 -/
noncomputable def UA : Loader.Metadata :=
  { general := some { nationalNumber := some (str% "\n          [89]\\d{9}|\n          [3-9]\\d{8}\n        ") },
    fixedLine := some { nationalNumber := some (str% "\n          (?:\n            3[1-8]|\n            4[13-8]|\n            5[1-7]|\n            6[12459]\n          )\\d{7}\n        "), possibleLength := [9], possibleLocalLength := [5, 6, 7], example? := some (str% "311234567") },
    mobile := some { nationalNumber := some (str% "\n          790\\d{6}|\n          (?:\n            39|\n            50|\n            6[36-8]|\n            7[1-357]|\n            9[1-9]\n          )\\d{7}\n        "), possibleLength := [9], example? := some (str% "501234567") },
    tollFree := some { nationalNumber := some (str% "800[1-8]\\d{5,6}"), possibleLength := [9, 10], example? := some (str% "800123456") },
    premiumRate := some { nationalNumber := some (str% "900[239]\\d{5,6}"), possibleLength := [9, 10], example? := some (str% "900212345") },
    voip := some { nationalNumber := some (str% "89[1-579]\\d{6}"), possibleLength := [9], example? := some (str% "891234567") },
    id := some (str% "UA"),
    countryCode := some 380,
    internationalPrefix := some (str% "00"),
    preferredInternationalPrefix := some (str% "0~0"),
    nationalPrefix := some (str% "0"),
    formats := [
      { pattern := some (str% "(\\d{3})(\\d{3})(\\d{3})"), format := some (str% "$1 $2 $3"), leadingDigits := [str% "\n            6[12][29]|\n            (?:\n              3[1-8]|\n              4[136-8]|\n              5[12457]|\n              6[49]\n            )2|\n            (?:\n              56|\n              65\n            )[24]\n          ", str% "\n            6[12][29]|\n            (?:\n              35|\n              4[1378]|\n              5[12457]|\n              6[49]\n            )2|\n            (?:\n              56|\n              65\n            )[24]|\n            (?:\n              3[1-46-8]|\n              46\n            )2[013-9]\n          "], nationalPrefixFormattingRule := some (str% "$NP$FG") },
      { pattern := some (str% "(\\d{4})(\\d{5})"), format := some (str% "$1 $2"), leadingDigits := [str% "\n            3[1-8]|\n            4(?:\n              [1367]|\n              [45][6-9]|\n              8[4-6]\n            )|\n            5(?:\n              [1-5]|\n              6[0135689]|\n              7[4-6]\n            )|\n            6(?:\n              [12][3-7]|\n              [459]\n            )\n          ", str% "\n            3[1-8]|\n            4(?:\n              [1367]|\n              [45][6-9]|\n              8[4-6]\n            )|\n            5(?:\n              [1-5]|\n              6(?:\n                [015689]|\n                3[02389]\n              )|\n              7[4-6]\n            )|\n            6(?:\n              [12][3-7]|\n              [459]\n            )\n          "], nationalPrefixFormattingRule := some (str% "$NP$FG") },
      { pattern := some (str% "(\\d{2})(\\d{3})(\\d{4})"), format := some (str% "$1 $2 $3"), leadingDigits := [str% "\n            [3-7]|\n            89|\n            9[1-9]\n          "], nationalPrefixFormattingRule := some (str% "$NP$FG") },
      { pattern := some (str% "(\\d{3})(\\d{3})(\\d{3,4})"), format := some (str% "$1 $2 $3"), leadingDigits := [str% "[89]"], nationalPrefixFormattingRule := some (str% "$NP$FG") }],
    internationalFormats := [
      { pattern := some (str% "(\\d{3})(\\d{3})(\\d{3})"), format := some (str% "$1 $2 $3"), leadingDigits := [str% "\n            6[12][29]|\n            (?:\n              3[1-8]|\n              4[136-8]|\n              5[12457]|\n              6[49]\n            )2|\n            (?:\n              56|\n              65\n            )[24]\n          ", str% "\n            6[12][29]|\n            (?:\n              35|\n              4[1378]|\n              5[12457]|\n              6[49]\n            )2|\n            (?:\n              56|\n              65\n            )[24]|\n            (?:\n              3[1-46-8]|\n              46\n            )2[013-9]\n          "], nationalPrefixFormattingRule := some (str% "$NP$FG") },
      { pattern := some (str% "(\\d{4})(\\d{5})"), format := some (str% "$1 $2"), leadingDigits := [str% "\n            3[1-8]|\n            4(?:\n              [1367]|\n              [45][6-9]|\n              8[4-6]\n            )|\n            5(?:\n              [1-5]|\n              6[0135689]|\n              7[4-6]\n            )|\n            6(?:\n              [12][3-7]|\n              [459]\n            )\n          ", str% "\n            3[1-8]|\n            4(?:\n              [1367]|\n              [45][6-9]|\n              8[4-6]\n            )|\n            5(?:\n              [1-5]|\n              6(?:\n                [015689]|\n                3[02389]\n              )|\n              7[4-6]\n            )|\n            6(?:\n              [12][3-7]|\n              [459]\n            )\n          "], nationalPrefixFormattingRule := some (str% "$NP$FG") },
      { pattern := some (str% "(\\d{2})(\\d{3})(\\d{4})"), format := some (str% "$1 $2 $3"), leadingDigits := [str% "\n            [3-7]|\n            89|\n            9[1-9]\n          "], nationalPrefixFormattingRule := some (str% "$NP$FG") },
      { pattern := some (str% "(\\d{3})(\\d{3})(\\d{3,4})"), format := some (str% "$1 $2 $3"), leadingDigits := [str% "[89]"], nationalPrefixFormattingRule := some (str% "$NP$FG") }] }

/-- territory id=UG countryCode=256 -/
noncomputable def UG : Loader.Metadata :=
  { general := some { nationalNumber := some (str% "\n          800\\d{6}|\n          (?:\n            [29]0|\n            [347]\\d\n          )\\d{7}\n        ") },
    fixedLine := some { nationalNumber := some (str% "\n          20(?:\n            (?:\n              240|\n              30[67]\n            )\\d|\n            6(?:\n              00[0-2]|\n              30[0-4]\n            )\n          )\\d{3}|\n          (?:\n            20(?:\n              [017]\\d|\n              2[5-9]|\n              3[1-4]|\n              5[0-4]|\n              6[15-9]\n            )|\n            [34]\\d{3}\n          )\\d{5}\n        "), possibleLength := [9], possibleLocalLength := [5, 6, 7], example? := some (str% "312345678") },
    mobile := some { nationalNumber := some (str% "\n          7280\\d{5}|\n          7(?:\n            [014-8]\\d|\n            2[01467]|\n            3[016]|\n            9[0-589]\n          )\\d{6}\n        "), possibleLength := [9], example? := some (str% "712345678") },
    tollFree := some { nationalNumber := some (str% "800[1-3]\\d{5}"), possibleLength := [9], example? := some (str% "800123456") },
    premiumRate := some { nationalNumber := some (str% "90[1-3]\\d{6}"), possibleLength := [9], example? := some (str% "901123456") },
    id := some (str% "UG"),
    countryCode := some 256,
    internationalPrefix := some (str% "00[057]"),
    nationalPrefix := some (str% "0"),
    formats := [
      { pattern := some (str% "(\\d{4})(\\d{5})"), format := some (str% "$1 $2"), leadingDigits := [str% "202", str% "2024"], nationalPrefixFormattingRule := some (str% "$NP$FG") },
      { pattern := some (str% "(\\d{3})(\\d{6})"), format := some (str% "$1 $2"), leadingDigits := [str% "\n            [27-9]|\n            4(?:\n              6[45]|\n              [7-9]\n            )\n          "], nationalPrefixFormattingRule := some (str% "$NP$FG") },
      { pattern := some (str% "(\\d{2})(\\d{7})"), format := some (str% "$1 $2"), leadingDigits := [str% "[34]"], nationalPrefixFormattingRule := some (str% "$NP$FG") }],
    internationalFormats := [
      { pattern := some (str% "(\\d{4})(\\d{5})"), format := some (str% "$1 $2"), leadingDigits := [str% "202", str% "2024"], nationalPrefixFormattingRule := some (str% "$NP$FG") },
      { pattern := some (str% "(\\d{3})(\\d{6})"), format := some (str% "$1 $2"), leadingDigits := [str% "\n            [27-9]|\n            4(?:\n              6[45]|\n              [7-9]\n            )\n          "], nationalPrefixFormattingRule := some (str% "$NP$FG") },
      { pattern := some (str% "(\\d{2})(\\d{7})"), format := some (str% "$1 $2"), leadingDigits := [str% "[34]"], nationalPrefixFormattingRule := some (str% "$NP$FG") }] }

/-- territory id=US countryCode=1 -/
noncomputable def US : Loader.Metadata :=
  { general := some { nationalNumber := some (str% "\n          [2-9]\\d{9}|\n          3\\d{6}\n        ") },
    fixedLine := some { nationalNumber := some (str% "\n          (?:\n            274[27]|\n            (?:\n              472|\n              983\n            )[2-47-9]\n          )\\d{6}|\n          (?:\n            2(?:\n              0[1-35-9]|\n              1[02-9]|\n              2[03-57-9]|\n              3[1459]|\n              4[08]|\n              5[1-46]|\n              6[0279]|\n              7[0269]|\n              8[13]\n            )|\n            3(?:\n              0[1-57-9]|\n              1[02-9]|\n              2[013-79]|\n              3[0-24679]|\n              4[167]|\n              5[0-3]|\n              6[01349]|\n              8[056]\n            )|\n            4(?:\n              0[124-9]|\n              1[02-579]|\n              2[3-5]|\n              3[0245]|\n              4[023578]|\n              58|\n              6[349]|\n              7[0589]|\n              8[04]\n            )|\n            5(?:\n              0[1-57-9]|\n              1[0235-8]|\n              20|\n              3[0149]|\n              4[01]|\n              5[179]|\n              6[1-47]|\n              7[0-5]|\n              8[0256]\n            )|\n            6(?:\n              0[1-35-9]|\n              1[024-9]|\n              2[03689]|\n              3[016]|\n              4[0156]|\n              5[01679]|\n              6[0-279]|\n              78|\n              8[0-269]\n            )|\n            7(?:\n              0[1-46-8]|\n              1[2-9]|\n              2[04-8]|\n              3[0-2478]|\n              4[0378]|\n              5[47]|\n              6[02359]|\n              7[0-59]|\n              8[156]\n            )|\n            8(?:\n              0[1-68]|\n              1[02-8]|\n              2[0168]|\n              3[0-2589]|\n              4[03578]|\n              5[046-9]|\n              6[02-5]|\n              7[028]\n            )|\n            9(?:\n              0[1346-9]|\n              1[02-9]|\n              2[0589]|\n              3[0146-8]|\n              4[01357-9]|\n              5[12469]|\n              7[0-3589]|\n              8[04-69]\n            )\n          )[2-9]\\d{6}\n        "), possibleLength := [10], possibleLocalLength := [7], example? := some (str% "2015550123") },
    mobile := some { nationalNumber := some (str% "\n          (?:\n            274[27]|\n            (?:\n              472|\n              983\n            )[2-47-9]\n          )\\d{6}|\n          (?:\n            2(?:\n              0[1-35-9]|\n              1[02-9]|\n              2[03-57-9]|\n              3[1459]|\n              4[08]|\n              5[1-46]|\n              6[0279]|\n              7[0269]|\n              8[13]\n            )|\n            3(?:\n              0[1-57-9]|\n              1[02-9]|\n              2[013-79]|\n              3[0-24679]|\n              4[167]|\n              5[0-3]|\n              6[01349]|\n              8[056]\n            )|\n            4(?:\n              0[124-9]|\n              1[02-579]|\n              2[3-5]|\n              3[0245]|\n              4[023578]|\n              58|\n              6[349]|\n              7[0589]|\n              8[04]\n            )|\n            5(?:\n              0[1-57-9]|\n              1[0235-8]|\n              20|\n              3[0149]|\n              4[01]|\n              5[179]|\n              6[1-47]|\n              7[0-5]|\n              8[0256]\n            )|\n            6(?:\n              0[1-35-9]|\n              1[024-9]|\n              2[03689]|\n              3[016]|\n              4[0156]|\n              5[01679]|\n              6[0-279]|\n              78|\n              8[0-269]\n            )|\n            7(?:\n              0[1-46-8]|\n              1[2-9]|\n              2[04-8]|\n              3[0-2478]|\n              4[0378]|\n              5[47]|\n              6[02359]|\n              7[0-59]|\n              8[156]\n            )|\n            8(?:\n              0[1-68]|\n              1[02-8]|\n              2[0168]|\n              3[0-2589]|\n              4[03578]|\n              5[046-9]|\n              6[02-5]|\n              7[028]\n            )|\n            9(?:\n              0[1346-9]|\n              1[02-9]|\n              2[0589]|\n              3[0146-8]|\n              4[01357-9]|\n              5[12469]|\n              7[0-3589]|\n              8[04-69]\n            )\n          )[2-9]\\d{6}\n        "), possibleLength := [10], possibleLocalLength := [7], example? := some (str% "2015550123") },
    tollFree := some { nationalNumber := some (str% "\n          8(?:\n            00|\n            33|\n            44|\n            55|\n            66|\n            77|\n            88\n          )[2-9]\\d{6}\n        "), possibleLength := [10], example? := some (str% "8002345678") },
    premiumRate := some { nationalNumber := some (str% "900[2-9]\\d{6}"), possibleLength := [10], example? := some (str% "9002345678") },
    personalNumber := some { nationalNumber := some (str% "\n          52(?:\n            3(?:\n              [2-46-9][02-9]\\d|\n              5(?:\n                [02-46-9]\\d|\n                5[0-46-9]\n              )\n            )|\n            4(?:\n              [2-478][02-9]\\d|\n              5(?:\n                [034]\\d|\n                2[024-9]|\n                5[0-46-9]\n              )|\n              6(?:\n                0[1-9]|\n                [2-9]\\d\n              )|\n              9(?:\n                [05-9]\\d|\n                2[0-5]|\n                49\n              )\n            )\n          )\\d{4}|\n          52[34][2-9]1[02-9]\\d{4}|\n          5(?:\n            00|\n            2[125-9]|\n            3[23]|\n            44|\n            66|\n            77|\n            88\n          )[2-9]\\d{6}\n        "), possibleLength := [10], example? := some (str% "5002345678") },
    id := some (str% "US"),
    countryCode := some 1,
    internationalPrefix := some (str% "011"),
    nationalPrefix := some (str% "1"),
    formats := [
      { pattern := some (str% "(\\d{3})(\\d{4})"), format := some (str% "$1-$2"), leadingDigits := [str% "310"], nationalPrefixOptionalWhenFormatting := true },
      { pattern := some (str% "(\\d{3})(\\d{4})"), format := some (str% "$1-$2"), leadingDigits := [str% "\n            [24-9]|\n            3(?:\n              [02-9]|\n              1[1-9]\n            )\n          "] },
      { pattern := some (str% "(\\d{3})(\\d{3})(\\d{4})"), format := some (str% "($1) $2-$3"), leadingDigits := [str% "[2-9]"], nationalPrefixOptionalWhenFormatting := true }],
    internationalFormats := [
      { pattern := some (str% "(\\d{3})(\\d{4})"), format := some (str% "$1-$2"), leadingDigits := [str% "310"], nationalPrefixOptionalWhenFormatting := true },
      { pattern := some (str% "(\\d{3})(\\d{3})(\\d{4})"), format := some (str% "$1-$2-$3"), leadingDigits := [str% "[2-9]"], nationalPrefixOptionalWhenFormatting := true }],
    mainCountryForCode := true,
    mobileNumberPortable := true }

/-- territory id=UY countryCode=598 -/
noncomputable def UY : Loader.Metadata :=
  { general := some { nationalNumber := some (str% "\n          0004\\d{2,9}|\n          [1249]\\d{7}|\n          2\\d{3,4}|\n          (?:\n            [49]\\d|\n            80\n          )\\d{5}\n        ") },
    fixedLine := some { nationalNumber := some (str% "\n          (?:\n            1(?:\n              770|\n              9(?:\n                20|\n                [89]7\n              )\n            )|\n            (?:\n              2\\d|\n              4[2-7]\n            )\\d\\d\n          )\\d{4}\n        "), possibleLength := [8], possibleLocalLength := [7], example? := some (str% "21231234") },
    mobile := some { nationalNumber := some (str% "9[1-9]\\d{6}"), possibleLength := [8], example? := some (str% "94231234") },
    tollFree := some { nationalNumber := some (str% "\n          0004\\d{2,9}|\n          (?:\n            405|\n            80[05]\n          )\\d{4}\n        "), possibleLength := [6, 7, 8, 9, 10, 11, 12, 13], example? := some (str% "8001234") },
    premiumRate := some { nationalNumber := some (str% "90[0-8]\\d{4}"), possibleLength := [7], example? := some (str% "9001234") },
    uan := some { nationalNumber := some (str% "21\\d{2,3}"), possibleLength := [4, 5], example? := some (str% "21123") },
    id := some (str% "UY"),
    countryCode := some 598,
    internationalPrefix := some (str% "0(?:0|1[3-9]\\d)"),
    preferredInternationalPrefix := some (str% "00"),
    nationalPrefix := some (str% "0"),
    preferredExtensionPrefix := some (str% " int. "),
    formats := [
      { pattern := some (str% "(\\d{4,5})"), format := some (str% "$1"), leadingDigits := [str% "21"] },
      { pattern := some (str% "(\\d{3})(\\d{3,4})"), format := some (str% "$1 $2"), leadingDigits := [str% "0"] },
      { pattern := some (str% "(\\d{3})(\\d{4})"), format := some (str% "$1 $2"), leadingDigits := [str% "\n            [49]0|\n            8\n          "], nationalPrefixFormattingRule := some (str% "$NP$FG") },
      { pattern := some (str% "(\\d{2})(\\d{3})(\\d{3})"), format := some (str% "$1 $2 $3"), leadingDigits := [str% "9"], nationalPrefixFormattingRule := some (str% "$NP$FG") },
      { pattern := some (str% "(\\d{4})(\\d{4})"), format := some (str% "$1 $2"), leadingDigits := [str% "[124]"] },
      { pattern := some (str% "(\\d{3})(\\d{3})(\\d{2,4})"), format := some (str% "$1 $2 $3"), leadingDigits := [str% "0"] },
      { pattern := some (str% "(\\d{3})(\\d{3})(\\d{3})(\\d{2,4})"), format := some (str% "$1 $2 $3 $4"), leadingDigits := [str% "0"] }],
    internationalFormats := [
      { pattern := some (str% "(\\d{4,5})"), format := some (str% "$1"), leadingDigits := [str% "21"] },
      { pattern := some (str% "(\\d{3})(\\d{3,4})"), format := some (str% "$1 $2"), leadingDigits := [str% "0"] },
      { pattern := some (str% "(\\d{3})(\\d{4})"), format := some (str% "$1 $2"), leadingDigits := [str% "\n            [49]0|\n            8\n          "], nationalPrefixFormattingRule := some (str% "$NP$FG") },
      { pattern := some (str% "(\\d{2})(\\d{3})(\\d{3})"), format := some (str% "$1 $2 $3"), leadingDigits := [str% "9"], nationalPrefixFormattingRule := some (str% "$NP$FG") },
      { pattern := some (str% "(\\d{4})(\\d{4})"), format := some (str% "$1 $2"), leadingDigits := [str% "[124]"] },
      { pattern := some (str% "(\\d{3})(\\d{3})(\\d{2,4})"), format := some (str% "$1 $2 $3"), leadingDigits := [str% "0"] },
      { pattern := some (str% "(\\d{3})(\\d{3})(\\d{3})(\\d{2,4})"), format := some (str% "$1 $2 $3 $4"), leadingDigits := [str% "0"] }] }

/-- territory id=UZ countryCode=998 -/
noncomputable def UZ : Loader.Metadata :=
  { general := some { nationalNumber := some (str% "\n          (?:\n            20|\n            33|\n            [5-9]\\d\n          )\\d{7}\n        ") },
    fixedLine := some { nationalNumber := some (str% "\n          (?:\n            55\\d\\d|\n            6(?:\n              1(?:\n                22|\n                3[124]|\n                4[1-4]|\n                5[1-3578]|\n                64\n              )|\n              2(?:\n                22|\n                3[0-57-9]|\n                41\n              )|\n              5(?:\n                22|\n                3[3-7]|\n                5[024-8]\n              )|\n              [69]\\d\\d|\n              7(?:\n                [23]\\d|\n                7[69]\n              )\n            )|\n            7(?:\n              0(?:\n                5[4-9]|\n                6[0146]|\n                7[124-6]|\n                9[135-8]\n              )|\n              [168]\\d\\d|\n              2(?:\n                22|\n                3[13-57-9]|\n                4[1-3579]|\n                5[14]\n              )|\n              3(?:\n                2\\d|\n                3[1578]|\n                4[1-35-7]|\n                5[1-57]|\n                61\n              )|\n              4(?:\n                2\\d|\n                3[1-579]|\n                7[1-79]\n              )|\n              5(?:\n                22|\n                5[1-9]|\n                6[1457]\n              )|\n              9(?:\n                22|\n                5[1-9]\n              )\n            )\n          )\\d{5}\n        "), possibleLength := [9], example? := some (str% "669050123") },
    mobile := some { nationalNumber := some (str% "\n          (?:\n            (?:\n              [25]0|\n              33|\n              8[078]|\n              9[0-57-9]\n            )\\d{3}|\n            6(?:\n              1(?:\n                2(?:\n                  2[01]|\n                  98\n                )|\n                35[0-4]|\n                50\\d|\n                61[23]|\n                7(?:\n                  [01][017]|\n                  4\\d|\n                  55|\n                  9[5-9]\n                )\n              )|\n              2(?:\n                (?:\n                  11|\n                  7\\d\n                )\\d|\n                2(?:\n                  [12]1|\n                  9[01379]\n                )|\n                5(?:\n                  [126]\\d|\n                  3[0-4]\n                )\n              )|\n              5(?:\n                19[01]|\n                2(?:\n                  27|\n                  9[26]\n                )|\n                (?:\n                  30|\n                  59|\n                  7\\d\n                )\\d\n              )|\n              6(?:\n                2(?:\n                  1[5-9]|\n                  2[0367]|\n                  38|\n                  41|\n                  52|\n                  60\n                )|\n                (?:\n                  3[79]|\n                  9[0-3]\n                )\\d|\n                4(?:\n                  56|\n                  83\n                )|\n                7(?:\n                  [07]\\d|\n                  1[017]|\n                  3[07]|\n                  4[047]|\n                  5[057]|\n                  67|\n                  8[0178]|\n                  9[79]\n                )\n              )|\n              7(?:\n                2(?:\n                  24|\n                  3[237]|\n                  4[5-9]|\n                  7[15-8]\n                )|\n                5(?:\n                  7[12]|\n                  8[0589]\n                )|\n                7(?:\n                  0\\d|\n                  [39][07]\n                )|\n                9(?:\n                  0\\d|\n                  7[079]\n                )\n              )\n            )|\n            7(?:\n              [07]\\d{3}|\n              2(?:\n                2(?:\n                  2[79]|\n                  95\n                )|\n                3(?:\n                  2[5-9]|\n                  6[0-6]\n                )|\n                57\\d|\n                7(?:\n                  0\\d|\n                  1[17]|\n                  2[27]|\n                  3[37]|\n                  44|\n                  5[057]|\n                  66|\n                  88\n                )\n              )|\n              3(?:\n                2(?:\n                  1[0-6]|\n                  21|\n                  3[469]|\n                  7[159]\n                )|\n                (?:\n                  33|\n                  9[4-6]\n                )\\d|\n                5(?:\n                  0[0-4]|\n                  5[579]|\n                  9\\d\n                )|\n                7(?:\n                  [0-3579]\\d|\n                  4[0467]|\n                  6[67]|\n                  8[078]\n                )\n              )|\n              4(?:\n                2(?:\n                  29|\n                  5[0257]|\n                  6[0-7]|\n                  7[1-57]\n                )|\n                5(?:\n                  1[0-4]|\n                  8\\d|\n                  9[5-9]\n                )|\n                7(?:\n                  0\\d|\n                  1[024589]|\n                  2[0-27]|\n                  3[0137]|\n                  [46][07]|\n                  5[01]|\n                  7[5-9]|\n                  9[079]\n                )|\n                9(?:\n                  7[015-9]|\n                  [89]\\d\n                )\n              )|\n              5(?:\n                112|\n                2(?:\n                  0\\d|\n                  2[29]|\n                  [49]4\n                )|\n                3[1568]\\d|\n                52[6-9]|\n                7(?:\n                  0[01578]|\n                  1[017]|\n                  [23]7|\n                  4[047]|\n                  [5-7]\\d|\n                  8[78]|\n                  9[079]\n                )\n              )|\n              9(?:\n                22[128]|\n                3(?:\n                  2[0-4]|\n                  7\\d\n                )|\n                57[02569]|\n                7(?:\n                  2[05-9]|\n                  3[37]|\n                  4\\d|\n                  60|\n                  7[2579]|\n                  87|\n                  9[07]\n                )\n              )\n            )\n          )\\d{4}\n        "), possibleLength := [9], example? := some (str% "912345678") },
    id := some (str% "UZ"),
    countryCode := some 998,
    internationalPrefix := some (str% "00"),
    formats := [
      { pattern := some (str% "(\\d{2})(\\d{3})(\\d{2})(\\d{2})"), format := some (str% "$1 $2 $3 $4"), leadingDigits := [str% "[235-9]"] }],
    internationalFormats := [
      { pattern := some (str% "(\\d{2})(\\d{3})(\\d{2})(\\d{2})"), format := some (str% "$1 $2 $3 $4"), leadingDigits := [str% "[235-9]"] }] }

/-- territory id=VA countryCode=39 -/
noncomputable def VA : Loader.Metadata :=
  { general := some { nationalNumber := some (str% "\n          0\\d{5,10}|\n          3[0-8]\\d{7,10}|\n          55\\d{8}|\n          8\\d{5}(?:\n            \\d{2,4}\n          )?|\n          (?:\n            1\\d|\n            39\n          )\\d{7,8}\n        ") },
    fixedLine := some { nationalNumber := some (str% "06698\\d{1,6}"), possibleLength := [6, 7, 8, 9, 10, 11], example? := some (str% "0669812345") },
    mobile := some { nationalNumber := some (str% "\n          3[1-9]\\d{8}|\n          3[2-9]\\d{7}\n        "), possibleLength := [9, 10], example? := some (str% "3123456789") },
    tollFree := some { nationalNumber := some (str% "\n          80(?:\n            0\\d{3}|\n            3\n          )\\d{3}\n        "), possibleLength := [6, 9], example? := some (str% "800123456") },
    premiumRate := some { nationalNumber := some (str% "\n          (?:\n            0878\\d{3}|\n            89(?:\n              2\\d|\n              3[04]|\n              4(?:\n                [0-4]|\n                [5-9]\\d\\d\n              )|\n              5[0-4]\n            )\n          )\\d\\d|\n          (?:\n            1(?:\n              44|\n              6[346]\n            )|\n            89(?:\n              38|\n              5[5-9]|\n              9\n            )\n          )\\d{6}\n        "), possibleLength := [6, 8, 9, 10], example? := some (str% "899123456") },
    sharedCost := some { nationalNumber := some (str% "\n          84(?:\n            [08]\\d{3}|\n            [17]\n          )\\d{3}\n        "), possibleLength := [6, 9], example? := some (str% "848123456") },
    personalNumber := some { nationalNumber := some (str% "\n          1(?:\n            78\\d|\n            99\n          )\\d{6}\n        "), possibleLength := [9, 10], example? := some (str% "1781234567") },
    voip := some { nationalNumber := some (str% "55\\d{8}"), possibleLength := [10], example? := some (str% "5512345678") },
    voicemail := some { nationalNumber := some (str% "3[2-8]\\d{9,10}"), possibleLength := [11, 12], example? := some (str% "33101234501") },
    id := some (str% "VA"),
    countryCode := some 39,
    internationalPrefix := some (str% "00"),
    leadingDigits := some (str% "06698"),
    mobileNumberPortable := true }

/-- territory id=VC countryCode=1 -/
noncomputable def VC : Loader.Metadata :=
  { general := some { nationalNumber := some (str% "\n          (?:\n            [58]\\d\\d|\n            784|\n            900\n          )\\d{7}\n        ") },
    fixedLine := some { nationalNumber := some (str% "\n          784(?:\n            266|\n            3(?:\n              6[6-9]|\n              7\\d|\n              8[0-6]\n            )|\n            4(?:\n              38|\n              5[0-36-8]|\n              8[0-8]\n            )|\n            5(?:\n              55|\n              7[0-2]|\n              93\n            )|\n            638|\n            784\n          )\\d{4}\n        "), possibleLength := [10], possibleLocalLength := [7], example? := some (str% "7842661234") },
    mobile := some { nationalNumber := some (str% "\n          784(?:\n            4(?:\n              3[0-5]|\n              5[45]|\n              89|\n              9[0-8]\n            )|\n            5(?:\n              2[6-9]|\n              3[0-4]\n            )|\n            720\n          )\\d{4}\n        "), possibleLength := [10], possibleLocalLength := [7], example? := some (str% "7844301234") },
    tollFree := some { nationalNumber := some (str% "\n          8(?:\n            00|\n            33|\n            44|\n            55|\n            66|\n            77|\n            88\n          )[2-9]\\d{6}\n        "), possibleLength := [10], example? := some (str% "8002345678") },
    premiumRate := some { nationalNumber := some (str% "900[2-9]\\d{6}"), possibleLength := [10], example? := some (str% "9002345678") },
    personalNumber := some { nationalNumber := some (str% "\n          52(?:\n            3(?:\n              [2-46-9][02-9]\\d|\n              5(?:\n                [02-46-9]\\d|\n                5[0-46-9]\n              )\n            )|\n            4(?:\n              [2-478][02-9]\\d|\n              5(?:\n                [034]\\d|\n                2[024-9]|\n                5[0-46-9]\n              )|\n              6(?:\n                0[1-9]|\n                [2-9]\\d\n              )|\n              9(?:\n                [05-9]\\d|\n                2[0-5]|\n                49\n              )\n            )\n          )\\d{4}|\n          52[34][2-9]1[02-9]\\d{4}|\n          5(?:\n            00|\n            2[125-9]|\n            3[23]|\n            44|\n            66|\n            77|\n            88\n          )[2-9]\\d{6}\n        "), possibleLength := [10], example? := some (str% "5002345678") },
    voip := some { nationalNumber := some (str% "78451[0-2]\\d{4}"), possibleLength := [10], possibleLocalLength := [7], example? := some (str% "7845101234") },
    id := some (str% "VC"),
    countryCode := some 1,
    internationalPrefix := some (str% "011"),
    nationalPrefix := some (str% "1"),
    nationalPrefixForParsing := some (str% "([2-7]\\d{6})$|1"),
    nationalPrefixTransformRule := some (str% "784$1"),
    leadingDigits := some (str% "784"),
    mobileNumberPortable := true }

/-- territory id=VE countryCode=58 -/
noncomputable def VE : Loader.Metadata :=
  { general := some { nationalNumber := some (str% "\n          [68]00\\d{7}|\n          (?:\n            [24]\\d|\n            [59]0\n          )\\d{8}\n        ") },
    fixedLine := some { nationalNumber := some (str% "\n          (?:\n            2(?:\n              12|\n              3[457-9]|\n              [467]\\d|\n              [58][1-9]|\n              9[1-6]\n            )|\n            [4-6]00\n          )\\d{7}\n        "), possibleLength := [10], possibleLocalLength := [7], example? := some (str% "2121234567") },
    mobile := some { nationalNumber := some (str% "\n          4(?:\n            1[24-8]|\n            2[246]\n          )\\d{7}\n        "), possibleLength := [10], example? := some (str% "4121234567") },
    tollFree := some { nationalNumber := some (str% "800\\d{7}"), possibleLength := [10], example? := some (str% "8001234567") },
    premiumRate := some { nationalNumber := some (str% "90[01]\\d{7}"), possibleLength := [10], example? := some (str% "9001234567") },
    uan := some { nationalNumber := some (str% "501\\d{7}"), possibleLength := [10], possibleLocalLength := [7], example? := some (str% "5010123456") },
    id := some (str% "VE"),
    countryCode := some 58,
    internationalPrefix := some (str% "00"),
    nationalPrefix := some (str% "0"),
    formats := [
      { pattern := some (str% "(\\d{3})(\\d{7})"), format := some (str% "$1-$2"), leadingDigits := [str% "[24-689]"], nationalPrefixFormattingRule := some (str% "$NP$FG"), domesticCarrier := some (str% "$CC $FG") }],
    internationalFormats := [
      { pattern := some (str% "(\\d{3})(\\d{7})"), format := some (str% "$1-$2"), leadingDigits := [str% "[24-689]"], nationalPrefixFormattingRule := some (str% "$NP$FG"), domesticCarrier := some (str% "$CC $FG") }] }

/-- the territories of this module, in document order -/
noncomputable def chunk14 : List Loader.Metadata :=
  [TM, TN, TO, TR, TT, TV, TW, TZ, UA, UG, US, UY, UZ, VA, VC, VE]

end Phone.Data
