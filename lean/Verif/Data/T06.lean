import Verif.Model.Database
/-! Territories of `/repo/assets/PhoneNumberMetadata.xml` as `/repo/src/metadata/loader.rs` reads them.
Generated by `tools/gen_data.py`; do not edit. -/

set_option maxRecDepth 100000
namespace Phone.Data

/-- territory id=GR countryCode=30 -/
noncomputable def GR : Loader.Metadata :=
  { general := some { nationalNumber := some (str% "\n          5005000\\d{3}|\n          8\\d{9,11}|\n          (?:\n            [269]\\d|\n            70\n          )\\d{8}\n        ") },
    fixedLine := some { nationalNumber := some (str% "\n          2(?:\n            1\\d\\d|\n            2(?:\n              2[1-46-9]|\n              [36][1-8]|\n              4[1-7]|\n              5[1-4]|\n              7[1-5]|\n              [89][1-9]\n            )|\n            3(?:\n              1\\d|\n              2[1-57]|\n              [35][1-3]|\n              4[13]|\n              7[1-7]|\n              8[124-6]|\n              9[1-79]\n            )|\n            4(?:\n              1\\d|\n              2[1-8]|\n              3[1-4]|\n              4[13-5]|\n              6[1-578]|\n              9[1-5]\n            )|\n            5(?:\n              1\\d|\n              [29][1-4]|\n              3[1-5]|\n              4[124]|\n              5[1-6]\n            )|\n            6(?:\n              1\\d|\n              [269][1-6]|\n              3[1245]|\n              4[1-7]|\n              5[13-9]|\n              7[14]|\n              8[1-5]\n            )|\n            7(?:\n              1\\d|\n              2[1-5]|\n              3[1-6]|\n              4[1-7]|\n              5[1-57]|\n              6[135]|\n              9[125-7]\n            )|\n            8(?:\n              1\\d|\n              2[1-5]|\n              [34][1-4]|\n              9[1-57]\n            )\n          )\\d{6}\n        "), possibleLength := [10], example? := some (str% "2123456789") },
    mobile := some { nationalNumber := some (str% "\n          68[57-9]\\d{7}|\n          (?:\n            69|\n            94\n          )\\d{8}\n        "), possibleLength := [10], example? := some (str% "6912345678") },
    tollFree := some { nationalNumber := some (str% "800\\d{7,9}"), possibleLength := [10, 11, 12], example? := some (str% "8001234567") },
    premiumRate := some { nationalNumber := some (str% "90[19]\\d{7}"), possibleLength := [10], example? := some (str% "9091234567") },
    sharedCost := some { nationalNumber := some (str% "\n          8(?:\n            0[16]|\n            12|\n            [27]5|\n            50\n          )\\d{7}\n        "), possibleLength := [10], example? := some (str% "8011234567") },
    personalNumber := some { nationalNumber := some (str% "70\\d{8}"), possibleLength := [10], example? := some (str% "7012345678") },
    uan := some { nationalNumber := some (str% "5005000\\d{3}"), possibleLength := [10], example? := some (str% "5005000123") },
    id := some (str% "GR"),
    countryCode := some 30,
    internationalPrefix := some (str% "00"),
    formats := [
      { pattern := some (str% "(\\d{2})(\\d{4})(\\d{4})"), format := some (str% "$1 $2 $3"), leadingDigits := [str% "\n            21|\n            7\n          "] },
      { pattern := some (str% "(\\d{4})(\\d{6})"), format := some (str% "$1 $2"), leadingDigits := [str% "\n            2(?:\n              2|\n              3[2-57-9]|\n              4[2-469]|\n              5[2-59]|\n              6[2-9]|\n              7[2-69]|\n              8[2-49]\n            )|\n            5\n          "] },
      { pattern := some (str% "(\\d{3})(\\d{3})(\\d{4})"), format := some (str% "$1 $2 $3"), leadingDigits := [str% "[2689]"] },
      { pattern := some (str% "(\\d{3})(\\d{3,4})(\\d{5})"), format := some (str% "$1 $2 $3"), leadingDigits := [str% "8"] }],
    internationalFormats := [
      { pattern := some (str% "(\\d{2})(\\d{4})(\\d{4})"), format := some (str% "$1 $2 $3"), leadingDigits := [str% "\n            21|\n            7\n          "] },
      { pattern := some (str% "(\\d{4})(\\d{6})"), format := some (str% "$1 $2"), leadingDigits := [str% "\n            2(?:\n              2|\n              3[2-57-9]|\n              4[2-469]|\n              5[2-59]|\n              6[2-9]|\n              7[2-69]|\n              8[2-49]\n            )|\n            5\n          "] },
      { pattern := some (str% "(\\d{3})(\\d{3})(\\d{4})"), format := some (str% "$1 $2 $3"), leadingDigits := [str% "[2689]"] },
      { pattern := some (str% "(\\d{3})(\\d{3,4})(\\d{5})"), format := some (str% "$1 $2 $3"), leadingDigits := [str% "8"] }],
    mobileNumberPortable := true }

/-- territory id=GT countryCode=502 -/
noncomputable def GT : Loader.Metadata :=
  { general := some { nationalNumber := some (str% "\n          80\\d{6}|\n          (?:\n            1\\d{3}|\n            [2-7]\n          )\\d{7}\n        ") },
    fixedLine := some { nationalNumber := some (str% "[267][2-9]\\d{6}"), possibleLength := [8], example? := some (str% "22456789") },
    mobile := some { nationalNumber := some (str% "\n          (?:\n            [3-5]\\d\\d|\n            80[0-4]\n          )\\d{5}\n        "), possibleLength := [8], example? := some (str% "51234567") },
    tollFree := some { nationalNumber := some (str% "18[01]\\d{8}"), possibleLength := [11], example? := some (str% "18001112222") },
    premiumRate := some { nationalNumber := some (str% "19\\d{9}"), possibleLength := [11], example? := some (str% "19001112222") },
    id := some (str% "GT"),
    countryCode := some 502,
    internationalPrefix := some (str% "00"),
    formats := [
      { pattern := some (str% "(\\d{4})(\\d{4})"), format := some (str% "$1 $2"), leadingDigits := [str% "[2-8]"] },
      { pattern := some (str% "(\\d{4})(\\d{3})(\\d{4})"), format := some (str% "$1 $2 $3"), leadingDigits := [str% "1"] }],
    internationalFormats := [
      { pattern := some (str% "(\\d{4})(\\d{4})"), format := some (str% "$1 $2"), leadingDigits := [str% "[2-8]"] },
      { pattern := some (str% "(\\d{4})(\\d{3})(\\d{4})"), format := some (str% "$1 $2 $3"), leadingDigits := [str% "1"] }] }

/-- territory id=GU countryCode=1 -/
noncomputable def GU : Loader.Metadata :=
  { general := some { nationalNumber := some (str% "\n          (?:\n            [58]\\d\\d|\n            671|\n            900\n          )\\d{7}\n        ") },
    fixedLine := some { nationalNumber := some (str% "\n          671(?:\n            2\\d\\d|\n            3(?:\n              00|\n              3[39]|\n              4[349]|\n              55|\n              6[26]\n            )|\n            4(?:\n              00|\n              56|\n              7[1-9]|\n              8[02-9]\n            )|\n            5(?:\n              55|\n              6[2-5]|\n              88\n            )|\n            6(?:\n              3[2-578]|\n              4[24-9]|\n              5[34]|\n              78|\n              8[235-9]\n            )|\n            7(?:\n              [0479]7|\n              2[0167]|\n              3[45]|\n              8[7-9]\n            )|\n            8(?:\n              [2-57-9]8|\n              6[478]\n            )|\n            9(?:\n              2[29]|\n              6[79]|\n              7[1279]|\n              8[7-9]|\n              9[16-9]\n            )\n          )\\d{4}\n        "), possibleLength := [10], possibleLocalLength := [7], example? := some (str% "6713001234") },
    mobile := some { nationalNumber := some (str% "\n          671(?:\n            2\\d\\d|\n            3(?:\n              00|\n              3[39]|\n              4[349]|\n              55|\n              6[26]\n            )|\n            4(?:\n              00|\n              56|\n              7[1-9]|\n              8[02-9]\n            )|\n            5(?:\n              55|\n              6[2-5]|\n              88\n            )|\n            6(?:\n              3[2-578]|\n              4[24-9]|\n              5[34]|\n              78|\n              8[235-9]\n            )|\n            7(?:\n              [0479]7|\n              2[0167]|\n              3[45]|\n              8[7-9]\n            )|\n            8(?:\n              [2-57-9]8|\n              6[478]\n            )|\n            9(?:\n              2[29]|\n              6[79]|\n              7[1279]|\n              8[7-9]|\n              9[16-9]\n            )\n          )\\d{4}\n        "), possibleLength := [10], possibleLocalLength := [7], example? := some (str% "6713001234") },
    tollFree := some { nationalNumber := some (str% "\n          8(?:\n            00|\n            33|\n            44|\n            55|\n            66|\n            77|\n            88\n          )[2-9]\\d{6}\n        "), possibleLength := [10], example? := some (str% "8002123456") },
    premiumRate := some { nationalNumber := some (str% "900[2-9]\\d{6}"), possibleLength := [10], example? := some (str% "9002123456") },
    personalNumber := some { nationalNumber := some (str% "\n          52(?:\n            3(?:\n              [2-46-9][02-9]\\d|\n              5(?:\n                [02-46-9]\\d|\n                5[0-46-9]\n              )\n            )|\n            4(?:\n              [2-478][02-9]\\d|\n              5(?:\n                [034]\\d|\n                2[024-9]|\n                5[0-46-9]\n              )|\n              6(?:\n                0[1-9]|\n                [2-9]\\d\n              )|\n              9(?:\n                [05-9]\\d|\n                2[0-5]|\n                49\n              )\n            )\n          )\\d{4}|\n          52[34][2-9]1[02-9]\\d{4}|\n          5(?:\n            00|\n            2[125-9]|\n            3[23]|\n            44|\n            66|\n            77|\n            88\n          )[2-9]\\d{6}\n        "), possibleLength := [10], example? := some (str% "5002345678") },
    id := some (str% "GU"),
    countryCode := some 1,
    internationalPrefix := some (str% "011"),
    nationalPrefix := some (str% "1"),
    nationalPrefixForParsing := some (str% "([2-9]\\d{6})$|1"),
    nationalPrefixTransformRule := some (str% "671$1"),
    leadingDigits := some (str% "671") }

/-- territory id=GW countryCode=245 -/
noncomputable def GW : Loader.Metadata :=
  { general := some { nationalNumber := some (str% "\n          [49]\\d{8}|\n          4\\d{6}\n        ") },
    fixedLine := some { nationalNumber := some (str% "443\\d{6}"), possibleLength := [9], example? := some (str% "443201234") },
    mobile := some { nationalNumber := some (str% "\n          9(?:\n            5\\d|\n            6[569]|\n            77\n          )\\d{6}\n        "), possibleLength := [9], example? := some (str% "955012345") },
    voip := some { nationalNumber := some (str% "40\\d{5}"), possibleLength := [7], example? := some (str% "4012345") },
    id := some (str% "GW"),
    countryCode := some 245,
    internationalPrefix := some (str% "00"),
    formats := [
      { pattern := some (str% "(\\d{3})(\\d{4})"), format := some (str% "$1 $2"), leadingDigits := [str% "40"] },
      { pattern := some (str% "(\\d{3})(\\d{3})(\\d{3})"), format := some (str% "$1 $2 $3"), leadingDigits := [str% "[49]"] }],
    internationalFormats := [
      { pattern := some (str% "(\\d{3})(\\d{4})"), format := some (str% "$1 $2"), leadingDigits := [str% "40"] },
      { pattern := some (str% "(\\d{3})(\\d{3})(\\d{3})"), format := some (str% "$1 $2 $3"), leadingDigits := [str% "[49]"] }] }

/-- territory id=GY countryCode=592 -/
noncomputable def GY : Loader.Metadata :=
  { general := some { nationalNumber := some (str% "\n          (?:\n            [2-8]\\d{3}|\n            9008\n          )\\d{3}\n        ") },
    fixedLine := some { nationalNumber := some (str% "\n          (?:\n            2(?:\n              1[6-9]|\n              2[0-35-9]|\n              3[1-4]|\n              5[3-9]|\n              6\\d|\n              7[0-79]\n            )|\n            3(?:\n              2[25-9]|\n              3\\d\n            )|\n            4(?:\n              4[0-24]|\n              5[56]\n            )|\n            50[0-6]|\n            77[1-57]\n          )\\d{4}\n        "), possibleLength := [7], example? := some (str% "2201234") },
    mobile := some { nationalNumber := some (str% "\n          (?:\n            51[01]|\n            6\\d\\d|\n            7(?:\n              [0-5]\\d|\n              6[0-79]|\n              70\n            )\n          )\\d{4}\n        "), possibleLength := [7], example? := some (str% "6091234") },
    tollFree := some { nationalNumber := some (str% "\n          (?:\n            289|\n            8(?:\n              00|\n              6[28]|\n              88|\n              99\n            )\n          )\\d{4}\n        "), possibleLength := [7], example? := some (str% "2891234") },
    premiumRate := some { nationalNumber := some (str% "9008\\d{3}"), possibleLength := [7], example? := some (str% "9008123") },
    voip := some { nationalNumber := some (str% "515\\d{4}"), possibleLength := [7], example? := some (str% "5151234") },
    id := some (str% "GY"),
    countryCode := some 592,
    internationalPrefix := some (str% "001"),
    formats := [
      { pattern := some (str% "(\\d{3})(\\d{4})"), format := some (str% "$1 $2"), leadingDigits := [str% "[2-9]"] }],
    internationalFormats := [
      { pattern := some (str% "(\\d{3})(\\d{4})"), format := some (str% "$1 $2"), leadingDigits := [str% "[2-9]"] }] }

/-- territory id=HK countryCode=852 -/
noncomputable def HK : Loader.Metadata :=
  { general := some { nationalNumber := some (str% "\n          8[0-46-9]\\d{6,7}|\n          9\\d{4,7}|\n          (?:\n            [2-7]|\n            9\\d{3}\n          )\\d{7}\n        ") },
    fixedLine := some { nationalNumber := some (str% "\n          (?:\n            2(?:\n              [13-9]\\d|\n              2[013-9]\n            )\\d|\n            3(?:\n              (?:\n                [1569][0-24-9]|\n                4[0-246-9]|\n                7[0-24-69]\n              )\\d|\n              8(?:\n                4[0-8]|\n                [579]\\d|\n                6[0-5]\n              )\n            )|\n            58(?:\n              0[1-9]|\n              1[2-9]\n            )\n          )\\d{4}\n        "), possibleLength := [8], example? := some (str% "21234567") },
    mobile := some { nationalNumber := some (str% "\n          (?:\n            4(?:\n              (?:\n                09|\n                24\n              )[3-6]|\n              44[0-35-9]|\n              6(?:\n                4[0-57-9]|\n                6[0-6]\n              )|\n              7(?:\n                4[0-48]|\n                6[0-5]\n              )\n            )|\n            5(?:\n              25[3-7]|\n              35[4-8]|\n              73[0-6]|\n              95[0-8]\n            )|\n            6(?:\n              26[013-8]|\n              (?:\n                66|\n                78\n              )[0-5]\n            )|\n            70(?:\n              7[1-8]|\n              8[0-8]\n            )|\n            84(?:\n              4[0-2]|\n              8[0-35-9]\n            )|\n            9(?:\n              29[013-9]|\n              39[014-9]|\n              59[0-467]|\n              899\n            )\n          )\\d{4}|\n          (?:\n            4(?:\n              4[0-35-9]|\n              6[0-357-9]|\n              7[0-35]\n            )|\n            5(?:\n              [1-59][0-46-9]|\n              6[0-4689]|\n              7[0-246-9]\n            )|\n            6(?:\n              0[1-9]|\n              [13-59]\\d|\n              [268][0-57-9]|\n              7[0-79]\n            )|\n            70[1-59]|\n            84[0-39]|\n            9(?:\n              0[1-9]|\n              1[02-9]|\n              [2358][0-8]|\n              [467]\\d\n            )\n          )\\d{5}\n        "), possibleLength := [8], example? := some (str% "51234567") },
    tollFree := some { nationalNumber := some (str% "800\\d{6}"), possibleLength := [9], example? := some (str% "800123456") },
    premiumRate := some { nationalNumber := some (str% "\n          900(?:\n            [0-24-9]\\d{7}|\n            3\\d{1,4}\n          )\n        "), possibleLength := [5, 6, 7, 8, 11], example? := some (str% "90012345678") },
    personalNumber := some { nationalNumber := some (str% "\n          8(?:\n            1[0-4679]\\d|\n            2(?:\n              [0-36]\\d|\n              7[0-4]\n            )|\n            3(?:\n              [034]\\d|\n              2[09]|\n              70\n            )\n          )\\d{4}\n        "), possibleLength := [8], example? := some (str% "81123456") },
    pager := some { nationalNumber := some (str% "\n          7(?:\n            1(?:\n              0[0-38]|\n              1[0-3679]|\n              3[013]|\n              69|\n              9[0136]\n            )|\n            2(?:\n              [02389]\\d|\n              1[18]|\n              7[27-9]\n            )|\n            3(?:\n              [0-38]\\d|\n              7[0-369]|\n              9[2357-9]\n            )|\n            47\\d|\n            5(?:\n              [178]\\d|\n              5[0-5]\n            )|\n            6(?:\n              0[0-7]|\n              2[236-9]|\n              [35]\\d\n            )|\n            7(?:\n              [27]\\d|\n              8[7-9]\n            )|\n            8(?:\n              [23689]\\d|\n              7[1-9]\n            )|\n            9(?:\n              [025]\\d|\n              6[0-246-8]|\n              7[0-36-9]|\n              8[238]\n            )\n          )\\d{4}\n        "), possibleLength := [8], example? := some (str% "71123456") },
    uan := some { nationalNumber := some (str% "\n          30(?:\n            0[1-9]|\n            [15-7]\\d|\n            2[047]|\n            89\n          )\\d{4}\n        "), possibleLength := [8], example? := some (str% "30161234") },
    id := some (str% "HK"),
    countryCode := some 852,
    internationalPrefix := some (str% "00(?:30|5[09]|[126-9]?)"),
    preferredInternationalPrefix := some (str% "00"),
    formats := [
      { pattern := some (str% "(\\d{3})(\\d{2,5})"), format := some (str% "$1 $2"), leadingDigits := [str% "900", str% "9003"] },
      { pattern := some (str% "(\\d{4})(\\d{4})"), format := some (str% "$1 $2"), leadingDigits := [str% "\n            [2-7]|\n            8[1-4]|\n            9(?:\n              0[1-9]|\n              [1-8]\n            )\n          "] },
      { pattern := some (str% "(\\d{3})(\\d{3})(\\d{3})"), format := some (str% "$1 $2 $3"), leadingDigits := [str% "8"] },
      { pattern := some (str% "(\\d{3})(\\d{2})(\\d{3})(\\d{3})"), format := some (str% "$1 $2 $3 $4"), leadingDigits := [str% "9"] }],
    internationalFormats := [
      { pattern := some (str% "(\\d{3})(\\d{2,5})"), format := some (str% "$1 $2"), leadingDigits := [str% "900", str% "9003"] },
      { pattern := some (str% "(\\d{4})(\\d{4})"), format := some (str% "$1 $2"), leadingDigits := [str% "\n            [2-7]|\n            8[1-4]|\n            9(?:\n              0[1-9]|\n              [1-8]\n            )\n          "] },
      { pattern := some (str% "(\\d{3})(\\d{3})(\\d{3})"), format := some (str% "$1 $2 $3"), leadingDigits := [str% "8"] },
      { pattern := some (str% "(\\d{3})(\\d{2})(\\d{3})(\\d{3})"), format := some (str% "$1 $2 $3 $4"), leadingDigits := [str% "9"] }],
    mobileNumberPortable := true }

/-- territory id=HN countryCode=504 -/
noncomputable def HN : Loader.Metadata :=
  { general := some { nationalNumber := some (str% "\n          8\\d{10}|\n          [237-9]\\d{7}\n        ") },
    fixedLine := some { nationalNumber := some (str% "\n          2(?:\n            2(?:\n              0[0-59]|\n              1[1-9]|\n              [23]\\d|\n              4[02-7]|\n              5[57]|\n              6[245]|\n              7[0135689]|\n              8[01346-9]|\n              9[0-2]\n            )|\n            4(?:\n              0[578]|\n              2[3-59]|\n              3[13-9]|\n              4[0-68]|\n              5[1-3589]\n            )|\n            5(?:\n              0[2357-9]|\n              1[1-356]|\n              4[03-5]|\n              5\\d|\n              6[014-69]|\n              7[04]|\n              80\n            )|\n            6(?:\n              [056]\\d|\n              17|\n              2[067]|\n              3[047]|\n              4[0-378]|\n              [78][0-8]|\n              9[01]\n            )|\n            7(?:\n              0[5-79]|\n              6[46-9]|\n              7[02-9]|\n              8[034]|\n              91\n            )|\n            8(?:\n              79|\n              8[0-357-9]|\n              9[1-57-9]\n            )\n          )\\d{4}\n        "), possibleLength := [8], example? := some (str% "22123456") },
    mobile := some { nationalNumber := some (str% "[37-9]\\d{7}"), possibleLength := [8], example? := some (str% "91234567") },
    tollFree := some { nationalNumber := some (str% "8002\\d{7}"), possibleLength := [11], example? := some (str% "80021234567") },
    noInternational := some { nationalNumber := some (str% "8002\\d{7}"), possibleLength := [11] },
    id := some (str% "HN"),
    countryCode := some 504,
    internationalPrefix := some (str% "00"),
    formats := [
      { pattern := some (str% "(\\d{4})(\\d{4})"), format := some (str% "$1-$2"), leadingDigits := [str% "[237-9]"] },
      { pattern := some (str% "(\\d{3})(\\d{4})(\\d{4})"), format := some (str% "$1 $2 $3"), leadingDigits := [str% "8"] }],
    internationalFormats := [
      { pattern := some (str% "(\\d{4})(\\d{4})"), format := some (str% "$1-$2"), leadingDigits := [str% "[237-9]"] }] }

/-- territory id=HR countryCode=385 -/
noncomputable def HR : Loader.Metadata :=
  { general := some { nationalNumber := some (str% "\n          [2-69]\\d{8}|\n          80\\d{5,7}|\n          [1-79]\\d{7}|\n          6\\d{6}\n        ") },
    fixedLine := some { nationalNumber := some (str% "\n          1\\d{7}|\n          (?:\n            2[0-3]|\n            3[1-5]|\n            4[02-47-9]|\n            5[1-3]\n          )\\d{6,7}\n        "), possibleLength := [8, 9], possibleLocalLength := [6, 7], example? := some (str% "12345678") },
    mobile := some { nationalNumber := some (str% "\n          9(?:\n            (?:\n              0[1-9]|\n              [12589]\\d\n            )\\d\\d|\n            7(?:\n              [0679]\\d\\d|\n              5(?:\n                [01]\\d|\n                44|\n                55|\n                77|\n                9[5-79]\n              )\n            )\n          )\\d{4}|\n          98\\d{6}\n        "), possibleLength := [8, 9], example? := some (str% "921234567") },
    tollFree := some { nationalNumber := some (str% "80\\d{5,7}"), possibleLength := [7, 8, 9], example? := some (str% "800123456") },
    premiumRate := some { nationalNumber := some (str% "\n          6[01459]\\d{6}|\n          6[01]\\d{5}\n        "), possibleLength := [7, 8], example? := some (str% "6001234") },
    personalNumber := some { nationalNumber := some (str% "7[45]\\d{6}"), possibleLength := [8], example? := some (str% "74123456") },
    uan := some { nationalNumber := some (str% "\n          62\\d{6,7}|\n          72\\d{6}\n        "), possibleLength := [8, 9], example? := some (str% "62123456") },
    id := some (str% "HR"),
    countryCode := some 385,
    internationalPrefix := some (str% "00"),
    nationalPrefix := some (str% "0"),
    formats := [
      { pattern := some (str% "(\\d{2})(\\d{2})(\\d{3})"), format := some (str% "$1 $2 $3"), leadingDigits := [str% "6[01]"], nationalPrefixFormattingRule := some (str% "$NP$FG") },
      { pattern := some (str% "(\\d{3})(\\d{2})(\\d{2,3})"), format := some (str% "$1 $2 $3"), leadingDigits := [str% "8"], nationalPrefixFormattingRule := some (str% "$NP$FG") },
      { pattern := some (str% "(\\d)(\\d{4})(\\d{3})"), format := some (str% "$1 $2 $3"), leadingDigits := [str% "1"], nationalPrefixFormattingRule := some (str% "$NP$FG") },
      { pattern := some (str% "(\\d{2})(\\d{3})(\\d{3,4})"), format := some (str% "$1 $2 $3"), leadingDigits := [str% "\n            6|\n            7[245]\n          "], nationalPrefixFormattingRule := some (str% "$NP$FG") },
      { pattern := some (str% "(\\d{2})(\\d{3})(\\d{3,4})"), format := some (str% "$1 $2 $3"), leadingDigits := [str% "9"], nationalPrefixFormattingRule := some (str% "$NP$FG") },
      { pattern := some (str% "(\\d{2})(\\d{3})(\\d{3,4})"), format := some (str% "$1 $2 $3"), leadingDigits := [str% "[2-57]"], nationalPrefixFormattingRule := some (str% "$NP$FG") },
      { pattern := some (str% "(\\d{3})(\\d{3})(\\d{3})"), format := some (str% "$1 $2 $3"), leadingDigits := [str% "8"], nationalPrefixFormattingRule := some (str% "$NP$FG") }],
    internationalFormats := [
      { pattern := some (str% "(\\d{2})(\\d{2})(\\d{3})"), format := some (str% "$1 $2 $3"), leadingDigits := [str% "6[01]"], nationalPrefixFormattingRule := some (str% "$NP$FG") },
      { pattern := some (str% "(\\d{3})(\\d{2})(\\d{2,3})"), format := some (str% "$1 $2 $3"), leadingDigits := [str% "8"], nationalPrefixFormattingRule := some (str% "$NP$FG") },
      { pattern := some (str% "(\\d)(\\d{4})(\\d{3})"), format := some (str% "$1 $2 $3"), leadingDigits := [str% "1"], nationalPrefixFormattingRule := some (str% "$NP$FG") },
      { pattern := some (str% "(\\d{2})(\\d{3})(\\d{3,4})"), format := some (str% "$1 $2 $3"), leadingDigits := [str% "\n            6|\n            7[245]\n          "], nationalPrefixFormattingRule := some (str% "$NP$FG") },
      { pattern := some (str% "(\\d{2})(\\d{3})(\\d{3,4})"), format := some (str% "$1 $2 $3"), leadingDigits := [str% "9"], nationalPrefixFormattingRule := some (str% "$NP$FG") },
      { pattern := some (str% "(\\d{2})(\\d{3})(\\d{3,4})"), format := some (str% "$1 $2 $3"), leadingDigits := [str% "[2-57]"], nationalPrefixFormattingRule := some (str% "$NP$FG") },
      { pattern := some (str% "(\\d{3})(\\d{3})(\\d{3})"), format := some (str% "$1 $2 $3"), leadingDigits := [str% "8"], nationalPrefixFormattingRule := some (str% "$NP$FG") }],
    mobileNumberPortable := true }

/-- territory id=HT countryCode=509 -/
noncomputable def HT : Loader.Metadata :=
  { general := some { nationalNumber := some (str% "[2-589]\\d{7}") },
    fixedLine := some { nationalNumber := some (str% "\n          2(?:\n            2\\d|\n            5[1-5]|\n            81|\n            9[149]\n          )\\d{5}\n        "), possibleLength := [8], example? := some (str% "22453300") },
    mobile := some { nationalNumber := some (str% "\n          (?:\n            [34]\\d|\n            5[568]\n          )\\d{6}\n        "), possibleLength := [8], example? := some (str% "34101234") },
    tollFree := some { nationalNumber := some (str% "8\\d{7}"), possibleLength := [8], example? := some (str% "80012345") },
    voip := some { nationalNumber := some (str% "\n          9(?:\n            [67][0-4]|\n            8[0-3589]|\n            9\\d\n          )\\d{5}\n        "), possibleLength := [8], example? := some (str% "98901234") },
    id := some (str% "HT"),
    countryCode := some 509,
    internationalPrefix := some (str% "00"),
    formats := [
      { pattern := some (str% "(\\d{2})(\\d{2})(\\d{4})"), format := some (str% "$1 $2 $3"), leadingDigits := [str% "[2-589]"] }],
    internationalFormats := [
      { pattern := some (str% "(\\d{2})(\\d{2})(\\d{4})"), format := some (str% "$1 $2 $3"), leadingDigits := [str% "[2-589]"] }] }

/-- territory id=HU countryCode=36 -/
noncomputable def HU : Loader.Metadata :=
  { general := some { nationalNumber := some (str% "\n          [235-7]\\d{8}|\n          [1-9]\\d{7}\n        ") },
    fixedLine := some { nationalNumber := some (str% "\n          (?:\n            1\\d|\n            [27][2-9]|\n            3[2-7]|\n            4[24-9]|\n            5[2-79]|\n            6[23689]|\n            8[2-57-9]|\n            9[2-69]\n          )\\d{6}\n        "), possibleLength := [8], possibleLocalLength := [6, 7], example? := some (str% "12345678") },
    mobile := some { nationalNumber := some (str% "\n          (?:\n            [257]0|\n            3[01]\n          )\\d{7}\n        "), possibleLength := [9], example? := some (str% "201234567") },
    tollFree := some { nationalNumber := some (str% "\n          (?:\n            [48]0\\d|\n            680[29]\n          )\\d{5}\n        "), possibleLength := [8, 9], example? := some (str% "80123456") },
    premiumRate := some { nationalNumber := some (str% "9[01]\\d{6}"), possibleLength := [8], example? := some (str% "90123456") },
    voip := some { nationalNumber := some (str% "21\\d{7}"), possibleLength := [9], example? := some (str% "211234567") },
    uan := some { nationalNumber := some (str% "38\\d{7}"), possibleLength := [9], example? := some (str% "381234567") },
    noInternational := some { nationalNumber := some (str% "\n          (?:\n            [48]0\\d|\n            680[29]\n          )\\d{5}\n        "), possibleLength := [8, 9] },
    id := some (str% "HU"),
    countryCode := some 36,
    internationalPrefix := some (str% "00"),
    nationalPrefix := some (str% "06"),
    formats := [
      { pattern := some (str% "(\\d)(\\d{3})(\\d{4})"), format := some (str% "$1 $2 $3"), leadingDigits := [str% "1"], nationalPrefixFormattingRule := some (str% "($NP $FG)") },
      { pattern := some (str% "(\\d{2})(\\d{3})(\\d{3})"), format := some (str% "$1 $2 $3"), leadingDigits := [str% "\n            [27][2-9]|\n            3[2-7]|\n            4[24-9]|\n            5[2-79]|\n            6|\n            8[2-57-9]|\n            9[2-69]\n          "], nationalPrefixFormattingRule := some (str% "($NP $FG)") },
      { pattern := some (str% "(\\d{2})(\\d{3})(\\d{3,4})"), format := some (str% "$1 $2 $3"), leadingDigits := [str% "[2-9]"], nationalPrefixFormattingRule := some (str% "$NP $FG") }],
    internationalFormats := [
      { pattern := some (str% "(\\d)(\\d{3})(\\d{4})"), format := some (str% "$1 $2 $3"), leadingDigits := [str% "1"], nationalPrefixFormattingRule := some (str% "($NP $FG)") },
      { pattern := some (str% "(\\d{2})(\\d{3})(\\d{3})"), format := some (str% "$1 $2 $3"), leadingDigits := [str% "\n            [27][2-9]|\n            3[2-7]|\n            4[24-9]|\n            5[2-79]|\n            6|\n            8[2-57-9]|\n            9[2-69]\n          "], nationalPrefixFormattingRule := some (str% "($NP $FG)") },
      { pattern := some (str% "(\\d{2})(\\d{3})(\\d{3,4})"), format := some (str% "$1 $2 $3"), leadingDigits := [str% "[2-9]"], nationalPrefixFormattingRule := some (str% "$NP $FG") }],
    mobileNumberPortable := true }

/-- territory id=ID countryCode=62 -/
noncomputable def ID : Loader.Metadata :=
  { general := some { nationalNumber := some (str% "\n          00[1-9]\\d{9,14}|\n          (?:\n            [1-36]|\n            8\\d{5}\n          )\\d{6}|\n          00\\d{9}|\n          [1-9]\\d{8,10}|\n          [2-9]\\d{7}\n        ") },
    fixedLine := some { nationalNumber := some (str% "\n          2[124]\\d{7,8}|\n          619\\d{8}|\n          2(?:\n            1(?:\n              14|\n              500\n            )|\n            2\\d{3}\n          )\\d{3}|\n          61\\d{5,8}|\n          (?:\n            2(?:\n              [35][1-4]|\n              6[0-8]|\n              7[1-6]|\n              8\\d|\n              9[1-8]\n            )|\n            3(?:\n              1|\n              [25][1-8]|\n              3[1-68]|\n              4[1-3]|\n              6[1-3568]|\n              7[0-469]|\n              8\\d\n            )|\n            4(?:\n              0[1-589]|\n              1[01347-9]|\n              2[0-36-8]|\n              3[0-24-68]|\n              43|\n              5[1-378]|\n              6[1-5]|\n              7[134]|\n              8[1245]\n            )|\n            5(?:\n              1[1-35-9]|\n              2[25-8]|\n              3[124-9]|\n              4[1-3589]|\n              5[1-46]|\n              6[1-8]\n            )|\n            6(?:\n              [25]\\d|\n              3[1-69]|\n              4[1-6]\n            )|\n            7(?:\n              02|\n              [125][1-9]|\n              [36]\\d|\n              4[1-8]|\n              7[0-36-9]\n            )|\n            9(?:\n              0[12]|\n              1[013-8]|\n              2[0-479]|\n              5[125-8]|\n              6[23679]|\n              7[159]|\n              8[01346]\n            )\n          )\\d{5,8}\n        "), possibleLength := [7, 8, 9, 10, 11], possibleLocalLength := [5, 6], example? := some (str% "218350123") },
    mobile := some { nationalNumber := some (str% "8[1-35-9]\\d{7,10}"), possibleLength := [9, 10, 11, 12], example? := some (str% "812345678") },
    tollFree := some { nationalNumber := some (str% "\n          00(?:\n            1803\\d{5,11}|\n            7803\\d{7}\n          )|\n          (?:\n            177\\d|\n            800\n          )\\d{5,7}\n        "), possibleLength := [8, 9, 10, 11, 12, 13, 14, 15, 16, 17], example? := some (str% "8001234567") },
    premiumRate := some { nationalNumber := some (str% "809\\d{7}"), possibleLength := [10], example? := some (str% "8091234567") },
    sharedCost := some { nationalNumber := some (str% "804\\d{7}"), possibleLength := [10], example? := some (str% "8041234567") },
    uan := some { nationalNumber := some (str% "\n          (?:\n            1500|\n            8071\\d{3}\n          )\\d{3}\n        "), possibleLength := [7, 10], example? := some (str% "8071123456") },
    noInternational := some { nationalNumber := some (str% "\n          001803\\d{5,11}|\n          (?:\n            007803\\d|\n            8071\n          )\\d{6}\n        "), possibleLength := [10, 11, 12, 13, 14, 15, 16, 17] },
    id := some (str% "ID"),
    countryCode := some 62,
    internationalPrefix := some (str% "00[89]"),
    nationalPrefix := some (str% "0"),
    formats := [
      { pattern := some (str% "(\\d)(\\d{3})(\\d{3})"), format := some (str% "$1 $2 $3"), leadingDigits := [str% "15"] },
      { pattern := some (str% "(\\d{2})(\\d{5,9})"), format := some (str% "$1 $2"), leadingDigits := [str% "\n            2[124]|\n            [36]1\n          "], nationalPrefixFormattingRule := some (str% "($NP$FG)") },
      { pattern := some (str% "(\\d{3})(\\d{5,7})"), format := some (str% "$1 $2"), leadingDigits := [str% "800"], nationalPrefixFormattingRule := some (str% "$NP$FG") },
      { pattern := some (str% "(\\d{3})(\\d{5,8})"), format := some (str% "$1 $2"), leadingDigits := [str% "[2-79]"], nationalPrefixFormattingRule := some (str% "($NP$FG)") },
      { pattern := some (str% "(\\d{3})(\\d{3,4})(\\d{3})"), format := some (str% "$1-$2-$3"), leadingDigits := [str% "8[1-35-9]"], nationalPrefixFormattingRule := some (str% "$NP$FG") },
      { pattern := some (str% "(\\d{3})(\\d{6,8})"), format := some (str% "$1 $2"), leadingDigits := [str% "1"], nationalPrefixFormattingRule := some (str% "$NP$FG") },
      { pattern := some (str% "(\\d{3})(\\d{3})(\\d{4})"), format := some (str% "$1 $2 $3"), leadingDigits := [str% "804"], nationalPrefixFormattingRule := some (str% "$NP$FG") },
      { pattern := some (str% "(\\d{3})(\\d)(\\d{3})(\\d{3})"), format := some (str% "$1 $2 $3 $4"), leadingDigits := [str% "80"], nationalPrefixFormattingRule := some (str% "$NP$FG") },
      { pattern := some (str% "(\\d{3})(\\d{4})(\\d{4,5})"), format := some (str% "$1-$2-$3"), leadingDigits := [str% "8"], nationalPrefixFormattingRule := some (str% "$NP$FG") },
      { pattern := some (str% "(\\d{3})(\\d{3})(\\d{3})(\\d{2,8})"), format := some (str% "$1 $2 $3 $4"), leadingDigits := [str% "001"] },
      { pattern := some (str% "(\\d{2})(\\d{4})(\\d{3})(\\d{4})"), format := some (str% "$1 $2 $3 $4"), leadingDigits := [str% "0"] }],
    internationalFormats := [
      { pattern := some (str% "(\\d)(\\d{3})(\\d{3})"), format := some (str% "$1 $2 $3"), leadingDigits := [str% "15"] },
      { pattern := some (str% "(\\d{2})(\\d{5,9})"), format := some (str% "$1 $2"), leadingDigits := [str% "\n            2[124]|\n            [36]1\n          "], nationalPrefixFormattingRule := some (str% "($NP$FG)") },
      { pattern := some (str% "(\\d{3})(\\d{5,7})"), format := some (str% "$1 $2"), leadingDigits := [str% "800"], nationalPrefixFormattingRule := some (str% "$NP$FG") },
      { pattern := some (str% "(\\d{3})(\\d{5,8})"), format := some (str% "$1 $2"), leadingDigits := [str% "[2-79]"], nationalPrefixFormattingRule := some (str% "($NP$FG)") },
      { pattern := some (str% "(\\d{3})(\\d{3,4})(\\d{3})"), format := some (str% "$1-$2-$3"), leadingDigits := [str% "8[1-35-9]"], nationalPrefixFormattingRule := some (str% "$NP$FG") },
      { pattern := some (str% "(\\d{3})(\\d{6,8})"), format := some (str% "$1 $2"), leadingDigits := [str% "1"], nationalPrefixFormattingRule := some (str% "$NP$FG") },
      { pattern := some (str% "(\\d{3})(\\d{3})(\\d{4})"), format := some (str% "$1 $2 $3"), leadingDigits := [str% "804"], nationalPrefixFormattingRule := some (str% "$NP$FG") },
      { pattern := some (str% "(\\d{3})(\\d)(\\d{3})(\\d{3})"), format := some (str% "$1 $2 $3 $4"), leadingDigits := [str% "80"], nationalPrefixFormattingRule := some (str% "$NP$FG") },
      { pattern := some (str% "(\\d{3})(\\d{4})(\\d{4,5})"), format := some (str% "$1-$2-$3"), leadingDigits := [str% "8"], nationalPrefixFormattingRule := some (str% "$NP$FG") }] }

/-- territory id=IE countryCode=353 -/
noncomputable def IE : Loader.Metadata :=
  { general := some { nationalNumber := some (str% "\n          (?:\n            1\\d|\n            [2569]\n          )\\d{6,8}|\n          4\\d{6,9}|\n          7\\d{8}|\n          8\\d{8,9}\n        ") },
    fixedLine := some { nationalNumber := some (str% "\n          (?:\n            1\\d|\n            21\n          )\\d{6,7}|\n          (?:\n            2[24-9]|\n            4(?:\n              0[24]|\n              5\\d|\n              7\n            )|\n            5(?:\n              0[45]|\n              1\\d|\n              8\n            )|\n            6(?:\n              1\\d|\n              [237-9]\n            )|\n            9(?:\n              1\\d|\n              [35-9]\n            )\n          )\\d{5}|\n          (?:\n            23|\n            4(?:\n              [1-469]|\n              8\\d\n            )|\n            5[23679]|\n            6[4-6]|\n            7[14]|\n            9[04]\n          )\\d{7}\n        "), possibleLength := [7, 8, 9, 10], possibleLocalLength := [5, 6], example? := some (str% "2212345") },
    mobile := some { nationalNumber := some (str% "\n          8(?:\n            22|\n            [35-9]\\d\n          )\\d{6}\n        "), possibleLength := [9], example? := some (str% "850123456") },
    tollFree := some { nationalNumber := some (str% "1800\\d{6}"), possibleLength := [10], example? := some (str% "1800123456") },
    premiumRate := some { nationalNumber := some (str% "\n          15(?:\n            1[2-8]|\n            [2-8]0|\n            9[089]\n          )\\d{6}\n        "), possibleLength := [10], example? := some (str% "1520123456") },
    sharedCost := some { nationalNumber := some (str% "18[59]0\\d{6}"), possibleLength := [10], example? := some (str% "1850123456") },
    personalNumber := some { nationalNumber := some (str% "700\\d{6}"), possibleLength := [9], example? := some (str% "700123456") },
    voip := some { nationalNumber := some (str% "76\\d{7}"), possibleLength := [9], example? := some (str% "761234567") },
    uan := some { nationalNumber := some (str% "818\\d{6}"), possibleLength := [9], example? := some (str% "818123456") },
    voicemail := some { nationalNumber := some (str% "\n          88210[1-9]\\d{4}|\n          8(?:\n            [35-79]5\\d\\d|\n            8(?:\n              [013-9]\\d\\d|\n              2(?:\n                [01][1-9]|\n                [2-9]\\d\n              )\n            )\n          )\\d{5}\n        "), possibleLength := [10], example? := some (str% "8551234567") },
    noInternational := some { nationalNumber := some (str% "18[59]0\\d{6}"), possibleLength := [10] },
    id := some (str% "IE"),
    countryCode := some 353,
    internationalPrefix := some (str% "00"),
    nationalPrefix := some (str% "0"),
    formats := [
      { pattern := some (str% "(\\d{2})(\\d{5})"), format := some (str% "$1 $2"), leadingDigits := [str% "\n            2[24-9]|\n            47|\n            58|\n            6[237-9]|\n            9[35-9]\n          "], nationalPrefixFormattingRule := some (str% "($NP$FG)") },
      { pattern := some (str% "(\\d{3})(\\d{5})"), format := some (str% "$1 $2"), leadingDigits := [str% "[45]0"], nationalPrefixFormattingRule := some (str% "($NP$FG)") },
      { pattern := some (str% "(\\d)(\\d{3,4})(\\d{4})"), format := some (str% "$1 $2 $3"), leadingDigits := [str% "1"], nationalPrefixFormattingRule := some (str% "($NP$FG)") },
      { pattern := some (str% "(\\d{2})(\\d{3})(\\d{3,4})"), format := some (str% "$1 $2 $3"), leadingDigits := [str% "\n            [2569]|\n            4[1-69]|\n            7[14]\n          "], nationalPrefixFormattingRule := some (str% "($NP$FG)") },
      { pattern := some (str% "(\\d{3})(\\d{3})(\\d{3})"), format := some (str% "$1 $2 $3"), leadingDigits := [str% "70"], nationalPrefixFormattingRule := some (str% "$NP$FG") },
      { pattern := some (str% "(\\d{3})(\\d{3})(\\d{3})"), format := some (str% "$1 $2 $3"), leadingDigits := [str% "81"], nationalPrefixFormattingRule := some (str% "($NP$FG)") },
      { pattern := some (str% "(\\d{2})(\\d{3})(\\d{4})"), format := some (str% "$1 $2 $3"), leadingDigits := [str% "[78]"], nationalPrefixFormattingRule := some (str% "$NP$FG") },
      { pattern := some (str% "(\\d{4})(\\d{3})(\\d{3})"), format := some (str% "$1 $2 $3"), leadingDigits := [str% "1"] },
      { pattern := some (str% "(\\d{2})(\\d{4})(\\d{4})"), format := some (str% "$1 $2 $3"), leadingDigits := [str% "4"], nationalPrefixFormattingRule := some (str% "($NP$FG)") },
      { pattern := some (str% "(\\d{2})(\\d)(\\d{3})(\\d{4})"), format := some (str% "$1 $2 $3 $4"), leadingDigits := [str% "8"], nationalPrefixFormattingRule := some (str% "$NP$FG") }],
    internationalFormats := [
      { pattern := some (str% "(\\d{2})(\\d{5})"), format := some (str% "$1 $2"), leadingDigits := [str% "\n            2[24-9]|\n            47|\n            58|\n            6[237-9]|\n            9[35-9]\n          "], nationalPrefixFormattingRule := some (str% "($NP$FG)") },
      { pattern := some (str% "(\\d{3})(\\d{5})"), format := some (str% "$1 $2"), leadingDigits := [str% "[45]0"], nationalPrefixFormattingRule := some (str% "($NP$FG)") },
      { pattern := some (str% "(\\d)(\\d{3,4})(\\d{4})"), format := some (str% "$1 $2 $3"), leadingDigits := [str% "1"], nationalPrefixFormattingRule := some (str% "($NP$FG)") },
      { pattern := some (str% "(\\d{2})(\\d{3})(\\d{3,4})"), format := some (str% "$1 $2 $3"), leadingDigits := [str% "\n            [2569]|\n            4[1-69]|\n            7[14]\n          "], nationalPrefixFormattingRule := some (str% "($NP$FG)") },
      { pattern := some (str% "(\\d{3})(\\d{3})(\\d{3})"), format := some (str% "$1 $2 $3"), leadingDigits := [str% "70"], nationalPrefixFormattingRule := some (str% "$NP$FG") },
      { pattern := some (str% "(\\d{3})(\\d{3})(\\d{3})"), format := some (str% "$1 $2 $3"), leadingDigits := [str% "81"], nationalPrefixFormattingRule := some (str% "($NP$FG)") },
      { pattern := some (str% "(\\d{2})(\\d{3})(\\d{4})"), format := some (str% "$1 $2 $3"), leadingDigits := [str% "[78]"], nationalPrefixFormattingRule := some (str% "$NP$FG") },
      { pattern := some (str% "(\\d{4})(\\d{3})(\\d{3})"), format := some (str% "$1 $2 $3"), leadingDigits := [str% "1"] },
      { pattern := some (str% "(\\d{2})(\\d{4})(\\d{4})"), format := some (str% "$1 $2 $3"), leadingDigits := [str% "4"], nationalPrefixFormattingRule := some (str% "($NP$FG)") },
      { pattern := some (str% "(\\d{2})(\\d)(\\d{3})(\\d{4})"), format := some (str% "$1 $2 $3 $4"), leadingDigits := [str% "8"], nationalPrefixFormattingRule := some (str% "$NP$FG") }],
    mobileNumberPortable := true }

/-- territory id=IL countryCode=972 -/
noncomputable def IL : Loader.Metadata :=
  { general := some { nationalNumber := some (str% "\n          1\\d{6}(?:\n            \\d{3,5}\n          )?|\n          [57]\\d{8}|\n          [1-489]\\d{7}\n        ") },
    fixedLine := some { nationalNumber := some (str% "\n          153\\d{8,9}|\n          29[1-9]\\d{5}|\n          (?:\n            2[0-8]|\n            [3489]\\d\n          )\\d{6}\n        "), possibleLength := [8, 11, 12], possibleLocalLength := [7], example? := some (str% "21234567") },
    mobile := some { nationalNumber := some (str% "\n          55(?:\n            4(?:\n              0[0-3]|\n              [16]0\n            )|\n            57[0-289]\n          )\\d{4}|\n          5(?:\n            (?:\n              [0-2][02-9]|\n              [36]\\d|\n              [49][2-9]|\n              8[3-7]\n            )\\d|\n            5(?:\n              01|\n              2\\d|\n              3[0-3]|\n              4[3-5]|\n              5[0-25689]|\n              6[6-8]|\n              7[0-267]|\n              8[7-9]|\n              9[1-9]\n            )\n          )\\d{5}\n        "), possibleLength := [9], example? := some (str% "502345678") },
    tollFree := some { nationalNumber := some (str% "\n          1(?:\n            255|\n            80[019]\\d{3}\n          )\\d{3}\n        "), possibleLength := [7, 10], example? := some (str% "1800123456") },
    premiumRate := some { nationalNumber := some (str% "\n          1212\\d{4}|\n          1(?:\n            200|\n            9(?:\n              0[0-2]|\n              19|\n              9\\d\n            )\n          )\\d{6}\n        "), possibleLength := [8, 10], example? := some (str% "1919123456") },
    sharedCost := some { nationalNumber := some (str% "1700\\d{6}"), possibleLength := [10], example? := some (str% "1700123456") },
    voip := some { nationalNumber := some (str% "\n          7(?:\n            38(?:\n              [05]\\d|\n              8[0138]\n            )|\n            8(?:\n              33|\n              55|\n              77|\n              81\n            )\\d\n          )\\d{4}|\n          7(?:\n            18|\n            2[23]|\n            3[237]|\n            47|\n            6[258]|\n            7\\d|\n            82|\n            9[2-9]\n          )\\d{6}\n        "), possibleLength := [9], example? := some (str% "771234567") },
    uan := some { nationalNumber := some (str% "1599\\d{6}"), possibleLength := [10], example? := some (str% "1599123456") },
    voicemail := some { nationalNumber := some (str% "151\\d{8,9}"), possibleLength := [11, 12], example? := some (str% "15112340000") },
    noInternational := some { nationalNumber := some (str% "1700\\d{6}"), possibleLength := [10] },
    id := some (str% "IL"),
    countryCode := some 972,
    internationalPrefix := some (str% "0(?:0|1[2-9])"),
    nationalPrefix := some (str% "0"),
    formats := [
      { pattern := some (str% "(\\d{4})(\\d{3})"), format := some (str% "$1-$2"), leadingDigits := [str% "125"] },
      { pattern := some (str% "(\\d{4})(\\d{2})(\\d{2})"), format := some (str% "$1-$2-$3"), leadingDigits := [str% "121"] },
      { pattern := some (str% "(\\d)(\\d{3})(\\d{4})"), format := some (str% "$1-$2-$3"), leadingDigits := [str% "[2-489]"], nationalPrefixFormattingRule := some (str% "$NP$FG") },
      { pattern := some (str% "(\\d{2})(\\d{3})(\\d{4})"), format := some (str% "$1-$2-$3"), leadingDigits := [str% "[57]"], nationalPrefixFormattingRule := some (str% "$NP$FG") },
      { pattern := some (str% "(\\d{4})(\\d{3})(\\d{3})"), format := some (str% "$1-$2-$3"), leadingDigits := [str% "12"] },
      { pattern := some (str% "(\\d{4})(\\d{6})"), format := some (str% "$1-$2"), leadingDigits := [str% "159"] },
      { pattern := some (str% "(\\d)(\\d{3})(\\d{3})(\\d{3})"), format := some (str% "$1-$2-$3-$4"), leadingDigits := [str% "1[7-9]"] },
      { pattern := some (str% "(\\d{3})(\\d{1,2})(\\d{3})(\\d{4})"), format := some (str% "$1-$2 $3-$4"), leadingDigits := [str% "15"] }],
    internationalFormats := [
      { pattern := some (str% "(\\d{4})(\\d{3})"), format := some (str% "$1-$2"), leadingDigits := [str% "125"] },
      { pattern := some (str% "(\\d{4})(\\d{2})(\\d{2})"), format := some (str% "$1-$2-$3"), leadingDigits := [str% "121"] },
      { pattern := some (str% "(\\d)(\\d{3})(\\d{4})"), format := some (str% "$1-$2-$3"), leadingDigits := [str% "[2-489]"], nationalPrefixFormattingRule := some (str% "$NP$FG") },
      { pattern := some (str% "(\\d{2})(\\d{3})(\\d{4})"), format := some (str% "$1-$2-$3"), leadingDigits := [str% "[57]"], nationalPrefixFormattingRule := some (str% "$NP$FG") },
      { pattern := some (str% "(\\d{4})(\\d{3})(\\d{3})"), format := some (str% "$1-$2-$3"), leadingDigits := [str% "12"] },
      { pattern := some (str% "(\\d{4})(\\d{6})"), format := some (str% "$1-$2"), leadingDigits := [str% "159"] },
      { pattern := some (str% "(\\d)(\\d{3})(\\d{3})(\\d{3})"), format := some (str% "$1-$2-$3-$4"), leadingDigits := [str% "1[7-9]"] },
      { pattern := some (str% "(\\d{3})(\\d{1,2})(\\d{3})(\\d{4})"), format := some (str% "$1-$2 $3-$4"), leadingDigits := [str% "15"] }],
    mobileNumberPortable := true }

/-- territory id=IM countryCode=44 -/
noncomputable def IM : Loader.Metadata :=
  { general := some { nationalNumber := some (str% "\n          1624\\d{6}|\n          (?:\n            [3578]\\d|\n            90\n          )\\d{8}\n        ") },
    fixedLine := some { nationalNumber := some (str% "\n          1624(?:\n            230|\n            [5-8]\\d\\d\n          )\\d{3}\n        "), possibleLength := [10], possibleLocalLength := [6], example? := some (str% "1624756789") },
    mobile := some { nationalNumber := some (str% "\n          76245[06]\\d{4}|\n          7(?:\n            4576|\n            [59]24\\d|\n            624[0-4689]\n          )\\d{5}\n        "), possibleLength := [10], example? := some (str% "7924123456") },
    tollFree := some { nationalNumber := some (str% "808162\\d{4}"), possibleLength := [10], example? := some (str% "8081624567") },
    premiumRate := some { nationalNumber := some (str% "\n          8(?:\n            440[49]06|\n            72299\\d\n          )\\d{3}|\n          (?:\n            8(?:\n              45|\n              70\n            )|\n            90[0167]\n          )624\\d{4}\n        "), possibleLength := [10], example? := some (str% "9016247890") },
    personalNumber := some { nationalNumber := some (str% "70\\d{8}"), possibleLength := [10], example? := some (str% "7012345678") },
    voip := some { nationalNumber := some (str% "56\\d{8}"), possibleLength := [10], example? := some (str% "5612345678") },
    uan := some { nationalNumber := some (str% "\n          3440[49]06\\d{3}|\n          (?:\n            3(?:\n              08162|\n              3\\d{4}|\n              45624|\n              7(?:\n                0624|\n                2299\n              )\n            )|\n            55\\d{4}\n          )\\d{4}\n        "), possibleLength := [10], example? := some (str% "5512345678") },
    id := some (str% "IM"),
    countryCode := some 44,
    internationalPrefix := some (str% "00"),
    nationalPrefix := some (str% "0"),
    nationalPrefixForParsing := some (str% "([25-8]\\d{5})$|0|180020"),
    nationalPrefixTransformRule := some (str% "1624$1"),
    leadingDigits := some (str% "74576|(?:16|7[56])24") }

/-- the territories of this module, in document order -/
noncomputable def chunk06 : List Loader.Metadata :=
  [GR, GT, GU, GW, GY, HK, HN, HR, HT, HU, ID, IE, IL, IM]

end Phone.Data
