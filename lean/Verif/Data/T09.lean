import Verif.Model.Database
/-! Territories of `/repo/assets/PhoneNumberMetadata.xml` as `/repo/src/metadata/loader.rs` reads them.
Generated by `tools/gen_data.py`; do not edit. -/

set_option maxRecDepth 100000
namespace Phone.Data

/-- territory id=KR countryCode=82 -/
noncomputable def KR : Loader.Metadata :=
  { general := some { nationalNumber := some (str% "\n          00[1-9]\\d{8,11}|\n          (?:\n            [12]|\n            5\\d{3}\n          )\\d{7}|\n          [13-6]\\d{9}|\n          (?:\n            [1-6]\\d|\n            80\n          )\\d{7}|\n          [3-6]\\d{4,5}|\n          (?:\n            00|\n            7\n          )0\\d{8}\n        ") },
    fixedLine := some { nationalNumber := some (str% "\n          (?:\n            2|\n            3[1-3]|\n            [46][1-4]|\n            5[1-5]\n          )[1-9]\\d{6,7}|\n          (?:\n            3[1-3]|\n            [46][1-4]|\n            5[1-5]\n          )1\\d{2,3}\n        "), possibleLength := [5, 6, 8, 9, 10], possibleLocalLength := [3, 4, 7], example? := some (str% "22123456") },
    mobile := some { nationalNumber := some (str% "\n          1(?:\n            05(?:\n              [0-8]\\d|\n              9[0-6]\n            )|\n            22[13]\\d\n          )\\d{4,5}|\n          1(?:\n            0[0-46-9]|\n            [16-9]\\d|\n            2[013-9]\n          )\\d{6,7}\n        "), possibleLength := [9, 10], example? := some (str% "1020000000") },
    tollFree := some { nationalNumber := some (str% "\n          00(?:\n            308\\d{6,7}|\n            798\\d{7,9}\n          )|\n          (?:\n            00368|\n            [38]0\n          )\\d{7}\n        "), possibleLength := [9, 11, 12, 13, 14], example? := some (str% "801234567") },
    premiumRate := some { nationalNumber := some (str% "60[2-9]\\d{6}"), possibleLength := [9], example? := some (str% "602345678") },
    personalNumber := some { nationalNumber := some (str% "50\\d{8,9}"), possibleLength := [10, 11], example? := some (str% "5012345678") },
    voip := some { nationalNumber := some (str% "70\\d{8}"), possibleLength := [10], example? := some (str% "7012345678") },
    pager := some { nationalNumber := some (str% "15\\d{7,8}"), possibleLength := [9, 10], example? := some (str% "1523456789") },
    uan := some { nationalNumber := some (str% "\n          1(?:\n            5(?:\n              22|\n              33|\n              44|\n              66|\n              77|\n              88|\n              99\n            )|\n            6(?:\n              [07]0|\n              44|\n              6[0168]|\n              88\n            )|\n            8(?:\n              00|\n              33|\n              55|\n              77|\n              99\n            )\n          )\\d{4}\n        "), possibleLength := [8], example? := some (str% "15441234") },
    noInternational := some { nationalNumber := some (str% "\n          00(?:\n            3(?:\n              08\\d{6,7}|\n              68\\d{7}\n            )|\n            798\\d{7,9}\n          )\n        "), possibleLength := [11, 12, 13, 14] },
    id := some (str% "KR"),
    countryCode := some 82,
    internationalPrefix := some (str% "00(?:[125689]|3(?:[46]5|91)|7(?:00|27|3|55|6[126]))"),
    nationalPrefix := some (str% "0"),
    nationalPrefixForParsing := some (str% "0(8(?:[1-46-8]|5\\d\\d))?"),
    formats := [
      { pattern := some (str% "(\\d{5})"), format := some (str% "$1"), leadingDigits := [str% "1[016-9]1", str% "1[016-9]11", str% "1[016-9]114"], nationalPrefixFormattingRule := some (str% "$NP$FG") },
      { pattern := some (str% "(\\d{2})(\\d{3,4})"), format := some (str% "$1-$2"), leadingDigits := [str% "\n            (?:\n              3[1-3]|\n              [46][1-4]|\n              5[1-5]\n            )1\n          "], nationalPrefixFormattingRule := some (str% "$NP$FG"), domesticCarrier := some (str% "$NP$CC-$FG") },
      { pattern := some (str% "(\\d{4})(\\d{4})"), format := some (str% "$1-$2"), leadingDigits := [str% "1"] },
      { pattern := some (str% "(\\d)(\\d{3,4})(\\d{4})"), format := some (str% "$1-$2-$3"), leadingDigits := [str% "2"], nationalPrefixFormattingRule := some (str% "$NP$FG"), domesticCarrier := some (str% "$NP$CC-$FG") },
      { pattern := some (str% "(\\d{2})(\\d{3})(\\d{4})"), format := some (str% "$1-$2-$3"), leadingDigits := [str% "\n            [36]0|\n            8\n          "], nationalPrefixFormattingRule := some (str% "$NP$FG"), domesticCarrier := some (str% "$NP$CC-$FG") },
      { pattern := some (str% "(\\d{2})(\\d{3,4})(\\d{4})"), format := some (str% "$1-$2-$3"), leadingDigits := [str% "\n            [1346]|\n            5[1-5]\n          "], nationalPrefixFormattingRule := some (str% "$NP$FG"), domesticCarrier := some (str% "$NP$CC-$FG") },
      { pattern := some (str% "(\\d{2})(\\d{4})(\\d{4})"), format := some (str% "$1-$2-$3"), leadingDigits := [str% "[57]"], nationalPrefixFormattingRule := some (str% "$NP$FG"), domesticCarrier := some (str% "$NP$CC-$FG") },
      { pattern := some (str% "(\\d{5})(\\d{3})(\\d{3})"), format := some (str% "$1 $2 $3"), leadingDigits := [str% "003", str% "0030"] },
      { pattern := some (str% "(\\d{2})(\\d{5})(\\d{4})"), format := some (str% "$1-$2-$3"), leadingDigits := [str% "5"], nationalPrefixFormattingRule := some (str% "$NP$FG"), domesticCarrier := some (str% "$NP$CC-$FG") },
      { pattern := some (str% "(\\d{5})(\\d{3,4})(\\d{4})"), format := some (str% "$1 $2 $3"), leadingDigits := [str% "0"] },
      { pattern := some (str% "(\\d{5})(\\d{2})(\\d{3})(\\d{4})"), format := some (str% "$1 $2 $3 $4"), leadingDigits := [str% "0"] }],
    internationalFormats := [
      { pattern := some (str% "(\\d{2})(\\d{3,4})"), format := some (str% "$1-$2"), leadingDigits := [str% "\n            (?:\n              3[1-3]|\n              [46][1-4]|\n              5[1-5]\n            )1\n          "], nationalPrefixFormattingRule := some (str% "$NP$FG"), domesticCarrier := some (str% "$NP$CC-$FG") },
      { pattern := some (str% "(\\d{4})(\\d{4})"), format := some (str% "$1-$2"), leadingDigits := [str% "1"] },
      { pattern := some (str% "(\\d)(\\d{3,4})(\\d{4})"), format := some (str% "$1-$2-$3"), leadingDigits := [str% "2"], nationalPrefixFormattingRule := some (str% "$NP$FG"), domesticCarrier := some (str% "$NP$CC-$FG") },
      { pattern := some (str% "(\\d{2})(\\d{3})(\\d{4})"), format := some (str% "$1-$2-$3"), leadingDigits := [str% "\n            [36]0|\n            8\n          "], nationalPrefixFormattingRule := some (str% "$NP$FG"), domesticCarrier := some (str% "$NP$CC-$FG") },
      { pattern := some (str% "(\\d{2})(\\d{3,4})(\\d{4})"), format := some (str% "$1-$2-$3"), leadingDigits := [str% "\n            [1346]|\n            5[1-5]\n          "], nationalPrefixFormattingRule := some (str% "$NP$FG"), domesticCarrier := some (str% "$NP$CC-$FG") },
      { pattern := some (str% "(\\d{2})(\\d{4})(\\d{4})"), format := some (str% "$1-$2-$3"), leadingDigits := [str% "[57]"], nationalPrefixFormattingRule := some (str% "$NP$FG"), domesticCarrier := some (str% "$NP$CC-$FG") },
      { pattern := some (str% "(\\d{2})(\\d{5})(\\d{4})"), format := some (str% "$1-$2-$3"), leadingDigits := [str% "5"], nationalPrefixFormattingRule := some (str% "$NP$FG"), domesticCarrier := some (str% "$NP$CC-$FG") }],
    mobileNumberPortable := true }

/-- territory id=KW countryCode=965 -/
noncomputable def KW : Loader.Metadata :=
  { general := some { nationalNumber := some (str% "\n          18\\d{5}|\n          (?:\n            [2569]\\d|\n            41\n          )\\d{6}\n        ") },
    fixedLine := some { nationalNumber := some (str% "\n          2(?:\n            [23]\\d\\d|\n            4(?:\n              [1-35-9]\\d|\n              44\n            )|\n            5(?:\n              0[034]|\n              [2-46]\\d|\n              5[1-3]|\n              7[1-7]\n            )\n          )\\d{4}\n        "), possibleLength := [8], example? := some (str% "22345678") },
    mobile := some { nationalNumber := some (str% "\n          (?:\n            41\\d\\d|\n            5(?:\n              (?:\n                [05]\\d|\n                1[0-7]|\n                6[56]\n              )\\d|\n              2(?:\n                22|\n                5[25]\n              )|\n              7(?:\n                55|\n                77\n              )|\n              88[58]\n            )|\n            6(?:\n              (?:\n                0[034679]|\n                5[015-9]|\n                6\\d\n              )\\d|\n              1(?:\n                00|\n                11|\n                6[16]\n              )|\n              2[26]2|\n              3[36]3|\n              4[46]4|\n              7(?:\n                0[013-9]|\n                [67]\\d\n              )|\n              8[68]8|\n              9(?:\n                [069]\\d|\n                3[039]\n              )\n            )|\n            9(?:\n              (?:\n                [04679]\\d|\n                8[057-9]\n              )\\d|\n              1(?:\n                00|\n                1[01]|\n                99\n              )|\n              2(?:\n                00|\n                2\\d\n              )|\n              3(?:\n                00|\n                3[03]\n              )|\n              5(?:\n                00|\n                5\\d\n              )\n            )\n          )\\d{4}\n        "), possibleLength := [8], example? := some (str% "50012345") },
    tollFree := some { nationalNumber := some (str% "18\\d{5}"), possibleLength := [7], example? := some (str% "1801234") },
    id := some (str% "KW"),
    countryCode := some 965,
    internationalPrefix := some (str% "00"),
    formats := [
      { pattern := some (str% "(\\d{4})(\\d{3,4})"), format := some (str% "$1 $2"), leadingDigits := [str% "\n            [169]|\n            2(?:\n              [235]|\n              4[1-35-9]\n            )|\n            52\n          "] },
      { pattern := some (str% "(\\d{3})(\\d{5})"), format := some (str% "$1 $2"), leadingDigits := [str% "[245]"] }],
    internationalFormats := [
      { pattern := some (str% "(\\d{4})(\\d{3,4})"), format := some (str% "$1 $2"), leadingDigits := [str% "\n            [169]|\n            2(?:\n              [235]|\n              4[1-35-9]\n            )|\n            52\n          "] },
      { pattern := some (str% "(\\d{3})(\\d{5})"), format := some (str% "$1 $2"), leadingDigits := [str% "[245]"] }],
    mobileNumberPortable := true }

/-- territory id=KY countryCode=1 -/
noncomputable def KY : Loader.Metadata :=
  { general := some { nationalNumber := some (str% "\n          (?:\n            345|\n            [58]\\d\\d|\n            900\n          )\\d{7}\n        ") },
    fixedLine := some { nationalNumber := some (str% "\n          345(?:\n            2(?:\n              22|\n              3[23]|\n              44|\n              66\n            )|\n            333|\n            444|\n            6(?:\n              23|\n              38|\n              40\n            )|\n            7(?:\n              30|\n              4[35-79]|\n              6[6-9]|\n              77\n            )|\n            8(?:\n              00|\n              1[45]|\n              4[89]|\n              88\n            )|\n            9(?:\n              14|\n              4[035-9]\n            )\n          )\\d{4}\n        "), possibleLength := [10], possibleLocalLength := [7], example? := some (str% "3452221234") },
    mobile := some { nationalNumber := some (str% "\n          345(?:\n            32[1-9]|\n            4(?:\n              1[2-6]|\n              2[0-4]\n            )|\n            5(?:\n              1[67]|\n              2[5-79]|\n              4[6-9]|\n              50|\n              76\n            )|\n            649|\n            82[56]|\n            9(?:\n              1[679]|\n              2[2-9]|\n              3[06-9]|\n              90\n            )\n          )\\d{4}\n        "), possibleLength := [10], possibleLocalLength := [7], example? := some (str% "3453231234") },
    tollFree := some { nationalNumber := some (str% "\n          8(?:\n            00|\n            33|\n            44|\n            55|\n            66|\n            77|\n            88\n          )[2-9]\\d{6}\n        "), possibleLength := [10], example? := some (str% "8002345678") },
    premiumRate := some { nationalNumber := some (str% "\n          (?:\n            345976|\n            900[2-9]\\d\\d\n          )\\d{4}\n        "), possibleLength := [10], example? := some (str% "9002345678") },
    personalNumber := some { nationalNumber := some (str% "\n          52(?:\n            3(?:\n              [2-46-9][02-9]\\d|\n              5(?:\n                [02-46-9]\\d|\n                5[0-46-9]\n              )\n            )|\n            4(?:\n              [2-478][02-9]\\d|\n              5(?:\n                [034]\\d|\n                2[024-9]|\n                5[0-46-9]\n              )|\n              6(?:\n                0[1-9]|\n                [2-9]\\d\n              )|\n              9(?:\n                [05-9]\\d|\n                2[0-5]|\n                49\n              )\n            )\n          )\\d{4}|\n          52[34][2-9]1[02-9]\\d{4}|\n          5(?:\n            00|\n            2[125-9]|\n            3[23]|\n            44|\n            66|\n            77|\n            88\n          )[2-9]\\d{6}\n        "), possibleLength := [10], example? := some (str% "5002345678") },
    id := some (str% "KY"),
    countryCode := some 1,
    internationalPrefix := some (str% "011"),
    nationalPrefix := some (str% "1"),
    nationalPrefixForParsing := some (str% "([2-9]\\d{6})$|1"),
    nationalPrefixTransformRule := some (str% "345$1"),
    leadingDigits := some (str% "345"),
    mobileNumberPortable := true }

/-- territory id=KZ countryCode=7 -/
noncomputable def KZ : Loader.Metadata :=
  { general := some { nationalNumber := some (str% "\n          8\\d{13}|\n          [78]\\d{9}\n        ") },
    fixedLine := some { nationalNumber := some (str% "\n          7(?:\n            1(?:\n              0(?:\n                [23]\\d|\n                4[0-3]|\n                59|\n                63\n              )|\n              1(?:\n                [23]\\d|\n                4[0-79]|\n                59\n              )|\n              2(?:\n                [23]\\d|\n                59\n              )|\n              3(?:\n                2\\d|\n                3[0-79]|\n                4[0-35-9]|\n                59\n              )|\n              4(?:\n                [24]\\d|\n                3[013-9]|\n                5[1-9]|\n                97\n              )|\n              5(?:\n                2\\d|\n                3[1-9]|\n                4[0-7]|\n                59\n              )|\n              6(?:\n                [2-4]\\d|\n                5[19]|\n                61\n              )|\n              72\\d|\n              8(?:\n                [27]\\d|\n                3[1-46-9]|\n                4[0-5]|\n                59\n              )\n            )|\n            2(?:\n              1(?:\n                [23]\\d|\n                4[46-9]|\n                5[3469]\n              )|\n              2(?:\n                2\\d|\n                3[0679]|\n                46|\n                5[12679]\n              )|\n              3(?:\n                [2-4]\\d|\n                5[139]\n              )|\n              4(?:\n                2\\d|\n                3[1-35-9]|\n                59\n              )|\n              5(?:\n                [23]\\d|\n                4[0-8]|\n                59|\n                61\n              )|\n              6(?:\n                2\\d|\n                3[1-9]|\n                4[0-4]|\n                59\n              )|\n              7(?:\n                [2379]\\d|\n                40|\n                5[279]\n              )|\n              8(?:\n                [23]\\d|\n                4[0-3]|\n                59\n              )|\n              9(?:\n                2\\d|\n                3[124578]|\n                59\n              )\n            )\n          )\\d{5}\n        "), possibleLength := [10], possibleLocalLength := [5, 6, 7], example? := some (str% "7123456789") },
    mobile := some { nationalNumber := some (str% "\n          7(?:\n            0[0-25-8]|\n            47|\n            6[0-4]|\n            7[15-8]|\n            85\n          )\\d{7}\n        "), possibleLength := [10], example? := some (str% "7710009998") },
    tollFree := some { nationalNumber := some (str% "\n          8(?:\n            00|\n            108\\d{3}\n          )\\d{7}\n        "), possibleLength := [10, 14], example? := some (str% "8001234567") },
    premiumRate := some { nationalNumber := some (str% "809\\d{7}"), possibleLength := [10], example? := some (str% "8091234567") },
    personalNumber := some { nationalNumber := some (str% "808\\d{7}"), possibleLength := [10], example? := some (str% "8081234567") },
    voip := some { nationalNumber := some (str% "751\\d{7}"), possibleLength := [10], example? := some (str% "7511234567") },
    noInternational := some { nationalNumber := some (str% "751\\d{7}"), possibleLength := [10] },
    id := some (str% "KZ"),
    countryCode := some 7,
    internationalPrefix := some (str% "810"),
    preferredInternationalPrefix := some (str% "8~10"),
    nationalPrefix := some (str% "8"),
    leadingDigits := some (str% "7"),
    mobileNumberPortable := true }

/-- territory id=LA countryCode=856 -/
noncomputable def LA : Loader.Metadata :=
  { general := some { nationalNumber := some (str% "\n          [23]\\d{9}|\n          3\\d{8}|\n          (?:\n            [235-8]\\d|\n            41\n          )\\d{6}\n        ") },
    fixedLine := some { nationalNumber := some (str% "\n          (?:\n            2[13]|\n            [35-7][14]|\n            41|\n            8[1468]\n          )\\d{6}\n        "), possibleLength := [8], possibleLocalLength := [6], example? := some (str% "21212862") },
    mobile := some { nationalNumber := some (str% "\n          (?:\n            20(?:\n              [23579]\\d|\n              8[78]\n            )|\n            30[24]\\d\n          )\\d{6}|\n          30\\d{7}\n        "), possibleLength := [9, 10], example? := some (str% "2023123456") },
    id := some (str% "LA"),
    countryCode := some 856,
    internationalPrefix := some (str% "00"),
    nationalPrefix := some (str% "0"),
    formats := [
      { pattern := some (str% "(\\d{2})(\\d{3})(\\d{3})"), format := some (str% "$1 $2 $3"), leadingDigits := [str% "\n            2[13]|\n            3[14]|\n            [4-8]\n          "], nationalPrefixFormattingRule := some (str% "$NP$FG") },
      { pattern := some (str% "(\\d{2})(\\d{2})(\\d{2})(\\d{3})"), format := some (str% "$1 $2 $3 $4"), leadingDigits := [str% "3"], nationalPrefixFormattingRule := some (str% "$NP$FG") },
      { pattern := some (str% "(\\d{2})(\\d{2})(\\d{3})(\\d{3})"), format := some (str% "$1 $2 $3 $4"), leadingDigits := [str% "[23]"], nationalPrefixFormattingRule := some (str% "$NP$FG") }],
    internationalFormats := [
      { pattern := some (str% "(\\d{2})(\\d{3})(\\d{3})"), format := some (str% "$1 $2 $3"), leadingDigits := [str% "\n            2[13]|\n            3[14]|\n            [4-8]\n          "], nationalPrefixFormattingRule := some (str% "$NP$FG") },
      { pattern := some (str% "(\\d{2})(\\d{2})(\\d{2})(\\d{3})"), format := some (str% "$1 $2 $3 $4"), leadingDigits := [str% "3"], nationalPrefixFormattingRule := some (str% "$NP$FG") },
      { pattern := some (str% "(\\d{2})(\\d{2})(\\d{3})(\\d{3})"), format := some (str% "$1 $2 $3 $4"), leadingDigits := [str% "[23]"], nationalPrefixFormattingRule := some (str% "$NP$FG") }] }

/-- territory id=LB countryCode=961 -/
noncomputable def LB : Loader.Metadata :=
  { general := some { nationalNumber := some (str% "\n          [27-9]\\d{7}|\n          [13-9]\\d{6}\n        ") },
    fixedLine := some { nationalNumber := some (str% "\n          7(?:\n            62|\n            8[0-6]|\n            9[04-9]\n          )\\d{4}|\n          (?:\n            [14-69]\\d|\n            2(?:\n              [14-69]\\d|\n              [78][1-9]\n            )|\n            7[2-57]|\n            8[02-9]\n          )\\d{5}\n        "), possibleLength := [7, 8], example? := some (str% "1123456") },
    mobile := some { nationalNumber := some (str% "\n          (?:\n            (?:\n              3|\n              81\n            )\\d|\n            7(?:\n              [01]\\d|\n              6[013-9]|\n              8[7-9]|\n              9[0-4]\n            )\n          )\\d{5}\n        "), possibleLength := [7, 8], example? := some (str% "71123456") },
    premiumRate := some { nationalNumber := some (str% "9[01]\\d{6}"), possibleLength := [8], example? := some (str% "90123456") },
    sharedCost := some { nationalNumber := some (str% "80\\d{6}"), possibleLength := [8], example? := some (str% "80123456") },
    id := some (str% "LB"),
    countryCode := some 961,
    internationalPrefix := some (str% "00"),
    nationalPrefix := some (str% "0"),
    formats := [
      { pattern := some (str% "(\\d)(\\d{3})(\\d{3})"), format := some (str% "$1 $2 $3"), leadingDigits := [str% "\n            [13-69]|\n            7(?:\n              [2-57]|\n              62|\n              8[0-6]|\n              9[04-9]\n            )|\n            8[02-9]\n          "], nationalPrefixFormattingRule := some (str% "$NP$FG") },
      { pattern := some (str% "(\\d{2})(\\d{3})(\\d{3})"), format := some (str% "$1 $2 $3"), leadingDigits := [str% "[27-9]"] }],
    internationalFormats := [
      { pattern := some (str% "(\\d)(\\d{3})(\\d{3})"), format := some (str% "$1 $2 $3"), leadingDigits := [str% "\n            [13-69]|\n            7(?:\n              [2-57]|\n              62|\n              8[0-6]|\n              9[04-9]\n            )|\n            8[02-9]\n          "], nationalPrefixFormattingRule := some (str% "$NP$FG") },
      { pattern := some (str% "(\\d{2})(\\d{3})(\\d{3})"), format := some (str% "$1 $2 $3"), leadingDigits := [str% "[27-9]"] }] }

/-- territory id=LC countryCode=1 -/
noncomputable def LC : Loader.Metadata :=
  { general := some { nationalNumber := some (str% "\n          (?:\n            [58]\\d\\d|\n            758|\n            900\n          )\\d{7}\n        ") },
    fixedLine := some { nationalNumber := some (str% "\n          758(?:\n            234|\n            4(?:\n              30|\n              5\\d|\n              6[2-9]|\n              8[0-2]\n            )|\n            57[0-2]|\n            (?:\n              63|\n              75\n            )8\n          )\\d{4}\n        "), possibleLength := [10], possibleLocalLength := [7], example? := some (str% "7584305678") },
    mobile := some { nationalNumber := some (str% "\n          758(?:\n            28[4-7]|\n            384|\n            4(?:\n              6[01]|\n              8[4-9]\n            )|\n            5(?:\n              1[89]|\n              20|\n              84\n            )|\n            7(?:\n              1[2-9]|\n              2\\d|\n              3[0-3]\n            )|\n            812\n          )\\d{4}\n        "), possibleLength := [10], possibleLocalLength := [7], example? := some (str% "7582845678") },
    tollFree := some { nationalNumber := some (str% "\n          8(?:\n            00|\n            33|\n            44|\n            55|\n            66|\n            77|\n            88\n          )[2-9]\\d{6}\n        "), possibleLength := [10], example? := some (str% "8002123456") },
    premiumRate := some { nationalNumber := some (str% "900[2-9]\\d{6}"), possibleLength := [10], example? := some (str% "9002123456") },
    personalNumber := some { nationalNumber := some (str% "\n          52(?:\n            3(?:\n              [2-46-9][02-9]\\d|\n              5(?:\n                [02-46-9]\\d|\n                5[0-46-9]\n              )\n            )|\n            4(?:\n              [2-478][02-9]\\d|\n              5(?:\n                [034]\\d|\n                2[024-9]|\n                5[0-46-9]\n              )|\n              6(?:\n                0[1-9]|\n                [2-9]\\d\n              )|\n              9(?:\n                [05-9]\\d|\n                2[0-5]|\n                49\n              )\n            )\n          )\\d{4}|\n          52[34][2-9]1[02-9]\\d{4}|\n          5(?:\n            00|\n            2[125-9]|\n            3[23]|\n            44|\n            66|\n            77|\n            88\n          )[2-9]\\d{6}\n        "), possibleLength := [10], example? := some (str% "5002345678") },
    id := some (str% "LC"),
    countryCode := some 1,
    internationalPrefix := some (str% "011"),
    nationalPrefix := some (str% "1"),
    nationalPrefixForParsing := some (str% "([2-8]\\d{6})$|1"),
    nationalPrefixTransformRule := some (str% "758$1"),
    leadingDigits := some (str% "758"),
    mobileNumberPortable := true }

/-- territory id=LI countryCode=423 -/
noncomputable def LI : Loader.Metadata :=
  { general := some { nationalNumber := some (str% "\n          [68]\\d{8}|\n          (?:\n            [2378]\\d|\n            90\n          )\\d{5}\n        ") },
    fixedLine := some { nationalNumber := some (str% "\n          (?:\n            2(?:\n              01|\n              1[27]|\n              2[024]|\n              3\\d|\n              6[02-578]|\n              96\n            )|\n            3(?:\n              [24]0|\n              33|\n              7[0135-7]|\n              8[048]|\n              9[0269]\n            )\n          )\\d{4}\n        "), possibleLength := [7], example? := some (str% "2345678") },
    mobile := some { nationalNumber := some (str% "\n          (?:\n            6(?:\n              (?:\n                4[5-9]|\n                5\\d\n              )\\d|\n              6(?:\n                [024-68]\\d|\n                1[01]|\n                3[7-9]|\n                70\n              )\n            )\\d|\n            7(?:\n              [37-9]\\d|\n              42|\n              56\n            )\n          )\\d{4}\n        "), possibleLength := [7, 9], example? := some (str% "660234567") },
    tollFree := some { nationalNumber := some (str% "\n          8002[28]\\d\\d|\n          80(?:\n            05\\d|\n            9\n          )\\d{4}\n        "), possibleLength := [7, 9], example? := some (str% "8002222") },
    premiumRate := some { nationalNumber := some (str% "\n          90(?:\n            02[258]|\n            1(?:\n              23|\n              3[14]\n            )|\n            66[136]\n          )\\d\\d\n        "), possibleLength := [7], example? := some (str% "9002222") },
    uan := some { nationalNumber := some (str% "\n          870(?:\n            28|\n            87\n          )\\d\\d\n        "), possibleLength := [7], example? := some (str% "8702812") },
    voicemail := some { nationalNumber := some (str% "\n          697(?:\n            42|\n            56|\n            [78]\\d\n          )\\d{4}\n        "), possibleLength := [9], example? := some (str% "697861234") },
    id := some (str% "LI"),
    countryCode := some 423,
    internationalPrefix := some (str% "00"),
    nationalPrefix := some (str% "0"),
    nationalPrefixForParsing := some (str% "(1001)|0"),
    formats := [
      { pattern := some (str% "(\\d{3})(\\d{2})(\\d{2})"), format := some (str% "$1 $2 $3"), leadingDigits := [str% "\n            [2379]|\n            8(?:\n              0[09]|\n              7\n            )\n          ", str% "\n            [2379]|\n            8(?:\n              0(?:\n                02|\n                9\n              )|\n              7\n            )\n          "], domesticCarrier := some (str% "$CC $FG") },
      { pattern := some (str% "(\\d{3})(\\d{3})(\\d{3})"), format := some (str% "$1 $2 $3"), leadingDigits := [str% "8"] },
      { pattern := some (str% "(\\d{2})(\\d{3})(\\d{4})"), format := some (str% "$1 $2 $3"), leadingDigits := [str% "69"], domesticCarrier := some (str% "$CC $FG") },
      { pattern := some (str% "(\\d{3})(\\d{3})(\\d{3})"), format := some (str% "$1 $2 $3"), leadingDigits := [str% "6"], domesticCarrier := some (str% "$CC $FG") }],
    internationalFormats := [
      { pattern := some (str% "(\\d{3})(\\d{2})(\\d{2})"), format := some (str% "$1 $2 $3"), leadingDigits := [str% "\n            [2379]|\n            8(?:\n              0[09]|\n              7\n            )\n          ", str% "\n            [2379]|\n            8(?:\n              0(?:\n                02|\n                9\n              )|\n              7\n            )\n          "], domesticCarrier := some (str% "$CC $FG") },
      { pattern := some (str% "(\\d{3})(\\d{3})(\\d{3})"), format := some (str% "$1 $2 $3"), leadingDigits := [str% "8"] },
      { pattern := some (str% "(\\d{2})(\\d{3})(\\d{4})"), format := some (str% "$1 $2 $3"), leadingDigits := [str% "69"], domesticCarrier := some (str% "$CC $FG") },
      { pattern := some (str% "(\\d{3})(\\d{3})(\\d{3})"), format := some (str% "$1 $2 $3"), leadingDigits := [str% "6"], domesticCarrier := some (str% "$CC $FG") }] }

/-- territory id=LK countryCode=94 -/
noncomputable def LK : Loader.Metadata :=
  { general := some { nationalNumber := some (str% "[1-9]\\d{8}") },
    fixedLine := some { nationalNumber := some (str% "\n          (?:\n            12[2-9]|\n            602|\n            8[12]\\d|\n            9(?:\n              1\\d|\n              22|\n              9[245]\n            )\n          )\\d{6}|\n          (?:\n            11|\n            2[13-7]|\n            3[1-8]|\n            4[157]|\n            5[12457]|\n            6[35-7]\n          )[2-57]\\d{6}\n        "), possibleLength := [9], possibleLocalLength := [7], example? := some (str% "112345678") },
    mobile := some { nationalNumber := some (str% "\n          7(?:\n            [0-25-8]\\d|\n            4[0-4]\n          )\\d{6}\n        "), possibleLength := [9], example? := some (str% "712345678") },
    uan := some { nationalNumber := some (str% "1973\\d{5}"), possibleLength := [9], example? := some (str% "197312345") },
    id := some (str% "LK"),
    countryCode := some 94,
    internationalPrefix := some (str% "00"),
    nationalPrefix := some (str% "0"),
    formats := [
      { pattern := some (str% "(\\d{2})(\\d{3})(\\d{4})"), format := some (str% "$1 $2 $3"), leadingDigits := [str% "7"], nationalPrefixFormattingRule := some (str% "$NP$FG") },
      { pattern := some (str% "(\\d{3})(\\d{3})(\\d{3})"), format := some (str% "$1 $2 $3"), leadingDigits := [str% "[1-689]"], nationalPrefixFormattingRule := some (str% "$NP$FG") }],
    internationalFormats := [
      { pattern := some (str% "(\\d{2})(\\d{3})(\\d{4})"), format := some (str% "$1 $2 $3"), leadingDigits := [str% "7"], nationalPrefixFormattingRule := some (str% "$NP$FG") },
      { pattern := some (str% "(\\d{3})(\\d{3})(\\d{3})"), format := some (str% "$1 $2 $3"), leadingDigits := [str% "[1-689]"], nationalPrefixFormattingRule := some (str% "$NP$FG") }] }

/-- territory id=LR countryCode=231 -/
noncomputable def LR : Loader.Metadata :=
  { general := some { nationalNumber := some (str% "\n          (?:\n            [2457]\\d|\n            33|\n            88\n          )\\d{7}|\n          (?:\n            2\\d|\n            [4-6]\n          )\\d{6}\n        ") },
    fixedLine := some { nationalNumber := some (str% "2\\d{7}"), possibleLength := [8], example? := some (str% "21234567") },
    mobile := some { nationalNumber := some (str% "\n          (?:\n            (?:\n              (?:\n                22|\n                33\n              )0|\n              555|\n              7(?:\n                6[01]|\n                7\\d\n              )|\n              88\\d\n            )\\d|\n            4(?:\n              240|\n              [67]\n            )\n          )\\d{5}|\n          [56]\\d{6}\n        "), possibleLength := [7, 9], example? := some (str% "770123456") },
    premiumRate := some { nationalNumber := some (str% "\n          332(?:\n            02|\n            [34]\\d\n          )\\d{4}\n        "), possibleLength := [9], example? := some (str% "332021234") },
    id := some (str% "LR"),
    countryCode := some 231,
    internationalPrefix := some (str% "00"),
    nationalPrefix := some (str% "0"),
    formats := [
      { pattern := some (str% "(\\d)(\\d{3})(\\d{3})"), format := some (str% "$1 $2 $3"), leadingDigits := [str% "\n            4[67]|\n            [56]\n          "], nationalPrefixFormattingRule := some (str% "$NP$FG") },
      { pattern := some (str% "(\\d{2})(\\d{3})(\\d{3})"), format := some (str% "$1 $2 $3"), leadingDigits := [str% "2"], nationalPrefixFormattingRule := some (str% "$NP$FG") },
      { pattern := some (str% "(\\d{2})(\\d{3})(\\d{4})"), format := some (str% "$1 $2 $3"), leadingDigits := [str% "[2-578]"], nationalPrefixFormattingRule := some (str% "$NP$FG") }],
    internationalFormats := [
      { pattern := some (str% "(\\d)(\\d{3})(\\d{3})"), format := some (str% "$1 $2 $3"), leadingDigits := [str% "\n            4[67]|\n            [56]\n          "], nationalPrefixFormattingRule := some (str% "$NP$FG") },
      { pattern := some (str% "(\\d{2})(\\d{3})(\\d{3})"), format := some (str% "$1 $2 $3"), leadingDigits := [str% "2"], nationalPrefixFormattingRule := some (str% "$NP$FG") },
      { pattern := some (str% "(\\d{2})(\\d{3})(\\d{4})"), format := some (str% "$1 $2 $3"), leadingDigits := [str% "[2-578]"], nationalPrefixFormattingRule := some (str% "$NP$FG") }] }

/-- territory id=LS countryCode=266 -/
noncomputable def LS : Loader.Metadata :=
  { general := some { nationalNumber := some (str% "\n          (?:\n            [256]\\d\\d|\n            800\n          )\\d{5}\n        ") },
    fixedLine := some { nationalNumber := some (str% "2\\d{7}"), possibleLength := [8], example? := some (str% "22123456") },
    mobile := some { nationalNumber := some (str% "[56]\\d{7}"), possibleLength := [8], example? := some (str% "50123456") },
    tollFree := some { nationalNumber := some (str% "800[1256]\\d{4}"), possibleLength := [8], example? := some (str% "80021234") },
    id := some (str% "LS"),
    countryCode := some 266,
    internationalPrefix := some (str% "00"),
    formats := [
      { pattern := some (str% "(\\d{4})(\\d{4})"), format := some (str% "$1 $2"), leadingDigits := [str% "[2568]"] }],
    internationalFormats := [
      { pattern := some (str% "(\\d{4})(\\d{4})"), format := some (str% "$1 $2"), leadingDigits := [str% "[2568]"] }] }

/-- territory id=LT countryCode=370 -/
noncomputable def LT : Loader.Metadata :=
  { general := some { nationalNumber := some (str% "\n          (?:\n            [3469]\\d|\n            52|\n            [78]0\n          )\\d{6}\n        ") },
    fixedLine := some { nationalNumber := some (str% "\n          (?:\n            3[1478]|\n            4[124-6]|\n            52\n          )\\d{6}\n        "), possibleLength := [8], example? := some (str% "31234567") },
    mobile := some { nationalNumber := some (str% "6\\d{7}"), possibleLength := [8], example? := some (str% "61234567") },
    tollFree := some { nationalNumber := some (str% "80[02]\\d{5}"), possibleLength := [8], example? := some (str% "80012345") },
    premiumRate := some { nationalNumber := some (str% "\n          9(?:\n            0[0239]|\n            10\n          )\\d{5}\n        "), possibleLength := [8], example? := some (str% "90012345") },
    sharedCost := some { nationalNumber := some (str% "808\\d{5}"), possibleLength := [8], example? := some (str% "80812345") },
    personalNumber := some { nationalNumber := some (str% "70[05]\\d{5}"), possibleLength := [8], example? := some (str% "70012345") },
    voip := some { nationalNumber := some (str% "[89]01\\d{5}"), possibleLength := [8], example? := some (str% "80123456") },
    uan := some { nationalNumber := some (str% "70[67]\\d{5}"), possibleLength := [8], example? := some (str% "70712345") },
    id := some (str% "LT"),
    countryCode := some 370,
    internationalPrefix := some (str% "00"),
    nationalPrefix := some (str% "0"),
    nationalPrefixForParsing := some (str% "[08]"),
    formats := [
      { pattern := some (str% "(\\d)(\\d{3})(\\d{4})"), format := some (str% "$1 $2 $3"), leadingDigits := [str% "52[0-7]"], nationalPrefixFormattingRule := some (str% "($NP-$FG)"), nationalPrefixOptionalWhenFormatting := true },
      { pattern := some (str% "(\\d{3})(\\d{2})(\\d{3})"), format := some (str% "$1 $2 $3"), leadingDigits := [str% "[7-9]"], nationalPrefixFormattingRule := some (str% "$NP $FG"), nationalPrefixOptionalWhenFormatting := true },
      { pattern := some (str% "(\\d{2})(\\d{6})"), format := some (str% "$1 $2"), leadingDigits := [str% "\n            37|\n            4(?:\n              [15]|\n              6[1-8]\n            )\n          "], nationalPrefixFormattingRule := some (str% "($NP-$FG)"), nationalPrefixOptionalWhenFormatting := true },
      { pattern := some (str% "(\\d{3})(\\d{5})"), format := some (str% "$1 $2"), leadingDigits := [str% "[3-6]"], nationalPrefixFormattingRule := some (str% "($NP-$FG)"), nationalPrefixOptionalWhenFormatting := true }],
    internationalFormats := [
      { pattern := some (str% "(\\d)(\\d{3})(\\d{4})"), format := some (str% "$1 $2 $3"), leadingDigits := [str% "52[0-7]"], nationalPrefixFormattingRule := some (str% "($NP-$FG)"), nationalPrefixOptionalWhenFormatting := true },
      { pattern := some (str% "(\\d{3})(\\d{2})(\\d{3})"), format := some (str% "$1 $2 $3"), leadingDigits := [str% "[7-9]"], nationalPrefixFormattingRule := some (str% "$NP $FG"), nationalPrefixOptionalWhenFormatting := true },
      { pattern := some (str% "(\\d{2})(\\d{6})"), format := some (str% "$1 $2"), leadingDigits := [str% "\n            37|\n            4(?:\n              [15]|\n              6[1-8]\n            )\n          "], nationalPrefixFormattingRule := some (str% "($NP-$FG)"), nationalPrefixOptionalWhenFormatting := true },
      { pattern := some (str% "(\\d{3})(\\d{5})"), format := some (str% "$1 $2"), leadingDigits := [str% "[3-6]"], nationalPrefixFormattingRule := some (str% "($NP-$FG)"), nationalPrefixOptionalWhenFormatting := true }],
    mobileNumberPortable := true }

/-- territory id=LU countryCode=352 -/
noncomputable def LU : Loader.Metadata :=
  { general := some { nationalNumber := some (str% "\n          35[013-9]\\d{4,8}|\n          6\\d{8}|\n          35\\d{2,4}|\n          (?:\n            [2457-9]\\d|\n            3[0-46-9]\n          )\\d{2,9}\n        ") },
    fixedLine := some { nationalNumber := some (str% "\n          (?:\n            35[013-9]|\n            80[2-9]|\n            90[89]\n          )\\d{1,8}|\n          (?:\n            2[2-9]|\n            3[0-46-9]|\n            [457]\\d|\n            8[13-9]|\n            9[2-579]\n          )\\d{2,9}\n        "), possibleLength := [4, 5, 6, 7, 8, 9, 10, 11], example? := some (str% "27123456") },
    mobile := some { nationalNumber := some (str% "\n          6(?:\n            [26][18]|\n            5[1568]|\n            7[189]|\n            81|\n            9[128]\n          )\\d{6}\n        "), possibleLength := [9], example? := some (str% "628123456") },
    tollFree := some { nationalNumber := some (str% "800\\d{5}"), possibleLength := [8], example? := some (str% "80012345") },
    premiumRate := some { nationalNumber := some (str% "90[015]\\d{5}"), possibleLength := [8], example? := some (str% "90012345") },
    sharedCost := some { nationalNumber := some (str% "801\\d{5}"), possibleLength := [8], example? := some (str% "80112345") },
    voip := some { nationalNumber := some (str% "\n          20(?:\n            1\\d{5}|\n            [2-689]\\d{1,7}\n          )\n        "), possibleLength := [4, 5, 6, 7, 8, 9, 10], example? := some (str% "20201234") },
    id := some (str% "LU"),
    countryCode := some 352,
    internationalPrefix := some (str% "00"),
    nationalPrefixForParsing := some (str% "(15(?:0[06]|1[12]|[35]5|4[04]|6[26]|77|88|99)\\d)"),
    formats := [
      { pattern := some (str% "(\\d{2})(\\d{3})"), format := some (str% "$1 $2"), leadingDigits := [str% "\n            2(?:\n              0[2-689]|\n              [2-9]\n            )|\n            [3-57]|\n            8(?:\n              0[2-9]|\n              [13-9]\n            )|\n            9(?:\n              0[89]|\n              [2-579]\n            )\n          "], domesticCarrier := some (str% "$CC $FG") },
      { pattern := some (str% "(\\d{2})(\\d{2})(\\d{2})"), format := some (str% "$1 $2 $3"), leadingDigits := [str% "\n            2(?:\n              0[2-689]|\n              [2-9]\n            )|\n            [3-57]|\n            8(?:\n              0[2-9]|\n              [13-9]\n            )|\n            9(?:\n              0[89]|\n              [2-579]\n            )\n          "], domesticCarrier := some (str% "$CC $FG") },
      { pattern := some (str% "(\\d{2})(\\d{2})(\\d{3})"), format := some (str% "$1 $2 $3"), leadingDigits := [str% "20[2-689]"], domesticCarrier := some (str% "$CC $FG") },
      { pattern := some (str% "(\\d{2})(\\d{2})(\\d{2})(\\d{1,2})"), format := some (str% "$1 $2 $3 $4"), leadingDigits := [str% "20"], domesticCarrier := some (str% "$CC $FG") },
      { pattern := some (str% "(\\d{2})(\\d{2})(\\d{2})(\\d{1,5})"), format := some (str% "$1 $2 $3 $4"), leadingDigits := [str% "\n            [3-57]|\n            8[13-9]|\n            9(?:\n              0[89]|\n              [2-579]\n            )|\n            (?:\n              2|\n              80\n            )[2-9]\n          "], domesticCarrier := some (str% "$CC $FG") },
      { pattern := some (str% "(\\d{3})(\\d{2})(\\d{3})"), format := some (str% "$1 $2 $3"), leadingDigits := [str% "\n            80[01]|\n            90[015]\n          "], domesticCarrier := some (str% "$CC $FG") },
      { pattern := some (str% "(\\d{2})(\\d{2})(\\d{2})(\\d{3})"), format := some (str% "$1 $2 $3 $4"), leadingDigits := [str% "20"], domesticCarrier := some (str% "$CC $FG") },
      { pattern := some (str% "(\\d{3})(\\d{3})(\\d{3})"), format := some (str% "$1 $2 $3"), leadingDigits := [str% "6"], domesticCarrier := some (str% "$CC $FG") },
      { pattern := some (str% "(\\d{2})(\\d{2})(\\d{2})(\\d{2})(\\d{1,2})"), format := some (str% "$1 $2 $3 $4 $5"), leadingDigits := [str% "20"], domesticCarrier := some (str% "$CC $FG") }],
    internationalFormats := [
      { pattern := some (str% "(\\d{2})(\\d{3})"), format := some (str% "$1 $2"), leadingDigits := [str% "\n            2(?:\n              0[2-689]|\n              [2-9]\n            )|\n            [3-57]|\n            8(?:\n              0[2-9]|\n              [13-9]\n            )|\n            9(?:\n              0[89]|\n              [2-579]\n            )\n          "], domesticCarrier := some (str% "$CC $FG") },
      { pattern := some (str% "(\\d{2})(\\d{2})(\\d{2})"), format := some (str% "$1 $2 $3"), leadingDigits := [str% "\n            2(?:\n              0[2-689]|\n              [2-9]\n            )|\n            [3-57]|\n            8(?:\n              0[2-9]|\n              [13-9]\n            )|\n            9(?:\n              0[89]|\n              [2-579]\n            )\n          "], domesticCarrier := some (str% "$CC $FG") },
      { pattern := some (str% "(\\d{2})(\\d{2})(\\d{3})"), format := some (str% "$1 $2 $3"), leadingDigits := [str% "20[2-689]"], domesticCarrier := some (str% "$CC $FG") },
      { pattern := some (str% "(\\d{2})(\\d{2})(\\d{2})(\\d{1,2})"), format := some (str% "$1 $2 $3 $4"), leadingDigits := [str% "20"], domesticCarrier := some (str% "$CC $FG") },
      { pattern := some (str% "(\\d{2})(\\d{2})(\\d{2})(\\d{1,5})"), format := some (str% "$1 $2 $3 $4"), leadingDigits := [str% "\n            [3-57]|\n            8[13-9]|\n            9(?:\n              0[89]|\n              [2-579]\n            )|\n            (?:\n              2|\n              80\n            )[2-9]\n          "], domesticCarrier := some (str% "$CC $FG") },
      { pattern := some (str% "(\\d{3})(\\d{2})(\\d{3})"), format := some (str% "$1 $2 $3"), leadingDigits := [str% "\n            80[01]|\n            90[015]\n          "], domesticCarrier := some (str% "$CC $FG") },
      { pattern := some (str% "(\\d{2})(\\d{2})(\\d{2})(\\d{3})"), format := some (str% "$1 $2 $3 $4"), leadingDigits := [str% "20"], domesticCarrier := some (str% "$CC $FG") },
      { pattern := some (str% "(\\d{3})(\\d{3})(\\d{3})"), format := some (str% "$1 $2 $3"), leadingDigits := [str% "6"], domesticCarrier := some (str% "$CC $FG") },
      { pattern := some (str% "(\\d{2})(\\d{2})(\\d{2})(\\d{2})(\\d{1,2})"), format := some (str% "$1 $2 $3 $4 $5"), leadingDigits := [str% "20"], domesticCarrier := some (str% "$CC $FG") }],
    mobileNumberPortable := true }

/-- territory id=LV countryCode=371 -/
noncomputable def LV : Loader.Metadata :=
  { general := some { nationalNumber := some (str% "\n          (?:\n            [268]\\d|\n            78|\n            90\n          )\\d{6}\n        ") },
    fixedLine := some { nationalNumber := some (str% "6\\d{7}"), possibleLength := [8], example? := some (str% "63123456") },
    mobile := some { nationalNumber := some (str% "\n          2333[0-8]\\d{3}|\n          2(?:\n            [0-24-9]\\d\\d|\n            3(?:\n              0[07]|\n              [14-9]\\d|\n              2[02-9]|\n              3[0-24-9]\n            )\n          )\\d{4}\n        "), possibleLength := [8], example? := some (str% "21234567") },
    tollFree := some { nationalNumber := some (str% "80\\d{6}"), possibleLength := [8], example? := some (str% "80123456") },
    premiumRate := some { nationalNumber := some (str% "90\\d{6}"), possibleLength := [8], example? := some (str% "90123456") },
    sharedCost := some { nationalNumber := some (str% "81\\d{6}"), possibleLength := [8], example? := some (str% "81123456") },
    id := some (str% "LV"),
    countryCode := some 371,
    internationalPrefix := some (str% "00"),
    formats := [
      { pattern := some (str% "(\\d{2})(\\d{3})(\\d{3})"), format := some (str% "$1 $2 $3"), leadingDigits := [str% "\n            [2679]|\n            8[01]\n          "] }],
    internationalFormats := [
      { pattern := some (str% "(\\d{2})(\\d{3})(\\d{3})"), format := some (str% "$1 $2 $3"), leadingDigits := [str% "\n            [2679]|\n            8[01]\n          "] }],
    mobileNumberPortable := true }

/-- territory id=LY countryCode=218 -/
noncomputable def LY : Loader.Metadata :=
  { general := some { nationalNumber := some (str% "[2-9]\\d{8}") },
    fixedLine := some { nationalNumber := some (str% "\n          (?:\n            2(?:\n              0[56]|\n              [1-6]\\d|\n              7[124579]|\n              8[124]\n            )|\n            3(?:\n              1\\d|\n              2[2356]\n            )|\n            4(?:\n              [17]\\d|\n              2[1-357]|\n              5[2-4]|\n              8[124]\n            )|\n            5(?:\n              [1347]\\d|\n              2[1-469]|\n              5[13-5]|\n              8[1-4]\n            )|\n            6(?:\n              [1-479]\\d|\n              5[2-57]|\n              8[1-5]\n            )|\n            7(?:\n              [13]\\d|\n              2[13-79]\n            )|\n            8(?:\n              [124]\\d|\n              5[124]|\n              84\n            )\n          )\\d{6}\n        "), possibleLength := [9], possibleLocalLength := [7], example? := some (str% "212345678") },
    mobile := some { nationalNumber := some (str% "9[1-6]\\d{7}"), possibleLength := [9], example? := some (str% "912345678") },
    id := some (str% "LY"),
    countryCode := some 218,
    internationalPrefix := some (str% "00"),
    nationalPrefix := some (str% "0"),
    formats := [
      { pattern := some (str% "(\\d{2})(\\d{7})"), format := some (str% "$1-$2"), leadingDigits := [str% "[2-9]"], nationalPrefixFormattingRule := some (str% "$NP$FG") }],
    internationalFormats := [
      { pattern := some (str% "(\\d{2})(\\d{7})"), format := some (str% "$1-$2"), leadingDigits := [str% "[2-9]"], nationalPrefixFormattingRule := some (str% "$NP$FG") }] }

/-- territory id=MA countryCode=212 -/
noncomputable def MA : Loader.Metadata :=
  { general := some { nationalNumber := some (str% "[5-8]\\d{8}") },
    fixedLine := some { nationalNumber := some (str% "\n          5(?:\n            (?:\n              18|\n              4[0679]|\n              5[03]\n            )\\d|\n            2(?:\n              [0-25-79]\\d|\n              3[1-578]|\n              4[02-46-8]|\n              8[0235-9]\n            )|\n            3(?:\n              [0-47]\\d|\n              5[02-9]|\n              6[02-8]|\n              8[014-9]|\n              9[3-9]\n            )\n          )\\d{5}\n        "), possibleLength := [9], example? := some (str% "520123456") },
    mobile := some { nationalNumber := some (str% "\n          (?:\n            6(?:\n              [0-79]\\d|\n              8[0-247-9]\n            )|\n            7(?:\n              [016-8]\\d|\n              2[0-8]|\n              5[0-5]\n            )\n          )\\d{6}\n        "), possibleLength := [9], example? := some (str% "650123456") },
    tollFree := some { nationalNumber := some (str% "80[0-7]\\d{6}"), possibleLength := [9], example? := some (str% "801234567") },
    premiumRate := some { nationalNumber := some (str% "89\\d{7}"), possibleLength := [9], example? := some (str% "891234567") },
    voip := some { nationalNumber := some (str% "\n          (?:\n            592(?:\n              4[0-2]|\n              93\n            )|\n            80[89]\\d\\d\n          )\\d{4}\n        "), possibleLength := [9], example? := some (str% "592401234") },
    id := some (str% "MA"),
    countryCode := some 212,
    internationalPrefix := some (str% "00"),
    nationalPrefix := some (str% "0"),
    formats := [
      { pattern := some (str% "(\\d{4})(\\d{5})"), format := some (str% "$1-$2"), leadingDigits := [str% "892"], nationalPrefixFormattingRule := some (str% "$NP$FG") },
      { pattern := some (str% "(\\d{2})(\\d{7})"), format := some (str% "$1-$2"), leadingDigits := [str% "\n            8(?:\n              0[0-7]|\n              9\n            )\n          "], nationalPrefixFormattingRule := some (str% "$NP$FG") },
      { pattern := some (str% "(\\d)(\\d{2})(\\d{2})(\\d{2})(\\d{2})"), format := some (str% "$1 $2 $3 $4 $5"), leadingDigits := [str% "[5-8]"], nationalPrefixFormattingRule := some (str% "$NP$FG") }],
    internationalFormats := [
      { pattern := some (str% "(\\d{4})(\\d{5})"), format := some (str% "$1-$2"), leadingDigits := [str% "892"], nationalPrefixFormattingRule := some (str% "$NP$FG") },
      { pattern := some (str% "(\\d{2})(\\d{7})"), format := some (str% "$1-$2"), leadingDigits := [str% "\n            8(?:\n              0[0-7]|\n              9\n            )\n          "], nationalPrefixFormattingRule := some (str% "$NP$FG") },
      { pattern := some (str% "(\\d)(\\d{2})(\\d{2})(\\d{2})(\\d{2})"), format := some (str% "$1 $2 $3 $4 $5"), leadingDigits := [str% "[5-8]"], nationalPrefixFormattingRule := some (str% "$NP$FG") }],
    mainCountryForCode := true,
    leadingDigits := some (str% "[5-8]"),
    mobileNumberPortable := true }

/-- territory id=MC countryCode=377 -/
noncomputable def MC : Loader.Metadata :=
  { general := some { nationalNumber := some (str% "\n          (?:\n            [3489]|\n            [67]\\d\n          )\\d{7}\n        ") },
    fixedLine := some { nationalNumber := some (str% "\n          (?:\n            870|\n            9[2-47-9]\\d\n          )\\d{5}\n        "), possibleLength := [8], example? := some (str% "99123456") },
    mobile := some { nationalNumber := some (str% "\n          4(?:\n            [46]\\d|\n            5[1-9]\n          )\\d{5}|\n          (?:\n            3|\n            [67]\\d\n          )\\d{7}\n        "), possibleLength := [8, 9], example? := some (str% "612345678") },
    tollFree := some { nationalNumber := some (str% "\n          (?:\n            800|\n            90\\d\n          )\\d{5}\n        "), possibleLength := [8], example? := some (str% "90123456") },
    noInternational := some { nationalNumber := some (str% "8[07]0\\d{5}"), possibleLength := [8] },
    id := some (str% "MC"),
    countryCode := some 377,
    internationalPrefix := some (str% "00"),
    nationalPrefix := some (str% "0"),
    formats := [
      { pattern := some (str% "(\\d{3})(\\d{3})(\\d{2})"), format := some (str% "$1 $2 $3"), leadingDigits := [str% "87"] },
      { pattern := some (str% "(\\d{2})(\\d{3})(\\d{3})"), format := some (str% "$1 $2 $3"), leadingDigits := [str% "4"], nationalPrefixFormattingRule := some (str% "$NP$FG") },
      { pattern := some (str% "(\\d{2})(\\d{2})(\\d{2})(\\d{2})"), format := some (str% "$1 $2 $3 $4"), leadingDigits := [str% "[389]"] },
      { pattern := some (str% "(\\d)(\\d{2})(\\d{2})(\\d{2})(\\d{2})"), format := some (str% "$1 $2 $3 $4 $5"), leadingDigits := [str% "[67]"], nationalPrefixFormattingRule := some (str% "$NP$FG") }],
    internationalFormats := [
      { pattern := some (str% "(\\d{2})(\\d{3})(\\d{3})"), format := some (str% "$1 $2 $3"), leadingDigits := [str% "4"], nationalPrefixFormattingRule := some (str% "$NP$FG") },
      { pattern := some (str% "(\\d{2})(\\d{2})(\\d{2})(\\d{2})"), format := some (str% "$1 $2 $3 $4"), leadingDigits := [str% "[389]"] },
      { pattern := some (str% "(\\d)(\\d{2})(\\d{2})(\\d{2})(\\d{2})"), format := some (str% "$1 $2 $3 $4 $5"), leadingDigits := [str% "[67]"], nationalPrefixFormattingRule := some (str% "$NP$FG") }] }

/-- territory id=MD countryCode=373 -/
noncomputable def MD : Loader.Metadata :=
  { general := some { nationalNumber := some (str% "\n          (?:\n            [235-7]\\d|\n            [89]0\n          )\\d{6}\n        ") },
    fixedLine := some { nationalNumber := some (str% "\n          (?:\n            (?:\n              2[1-9]|\n              3[1-79]\n            )\\d|\n            5(?:\n              33|\n              5[257]\n            )\n          )\\d{5}\n        "), possibleLength := [8], example? := some (str% "22212345") },
    mobile := some { nationalNumber := some (str% "\n          562\\d{5}|\n          (?:\n            6\\d|\n            7[16-9]\n          )\\d{6}\n        "), possibleLength := [8], example? := some (str% "62112345") },
    tollFree := some { nationalNumber := some (str% "800\\d{5}"), possibleLength := [8], example? := some (str% "80012345") },
    premiumRate := some { nationalNumber := some (str% "90[056]\\d{5}"), possibleLength := [8], example? := some (str% "90012345") },
    sharedCost := some { nationalNumber := some (str% "808\\d{5}"), possibleLength := [8], example? := some (str% "80812345") },
    voip := some { nationalNumber := some (str% "3[08]\\d{6}"), possibleLength := [8], example? := some (str% "30123456") },
    uan := some { nationalNumber := some (str% "803\\d{5}"), possibleLength := [8], example? := some (str% "80312345") },
    id := some (str% "MD"),
    countryCode := some 373,
    internationalPrefix := some (str% "00"),
    nationalPrefix := some (str% "0"),
    formats := [
      { pattern := some (str% "(\\d{3})(\\d{5})"), format := some (str% "$1 $2"), leadingDigits := [str% "[89]"], nationalPrefixFormattingRule := some (str% "$NP$FG") },
      { pattern := some (str% "(\\d{2})(\\d{3})(\\d{3})"), format := some (str% "$1 $2 $3"), leadingDigits := [str% "\n            22|\n            3\n          "], nationalPrefixFormattingRule := some (str% "$NP$FG") },
      { pattern := some (str% "(\\d{3})(\\d{2})(\\d{3})"), format := some (str% "$1 $2 $3"), leadingDigits := [str% "[25-7]"], nationalPrefixFormattingRule := some (str% "$NP$FG") }],
    internationalFormats := [
      { pattern := some (str% "(\\d{3})(\\d{5})"), format := some (str% "$1 $2"), leadingDigits := [str% "[89]"], nationalPrefixFormattingRule := some (str% "$NP$FG") },
      { pattern := some (str% "(\\d{2})(\\d{3})(\\d{3})"), format := some (str% "$1 $2 $3"), leadingDigits := [str% "\n            22|\n            3\n          "], nationalPrefixFormattingRule := some (str% "$NP$FG") },
      { pattern := some (str% "(\\d{3})(\\d{2})(\\d{3})"), format := some (str% "$1 $2 $3"), leadingDigits := [str% "[25-7]"], nationalPrefixFormattingRule := some (str% "$NP$FG") }],
    mobileNumberPortable := true }

/-- territory id=ME countryCode=382 -/
noncomputable def ME : Loader.Metadata :=
  { general := some { nationalNumber := some (str% "\n          (?:\n            20|\n            [3-79]\\d\n          )\\d{6}|\n          80\\d{6,7}\n        ") },
    fixedLine := some { nationalNumber := some (str% "\n          (?:\n            20[2-8]|\n            3(?:\n              [0-2][2-7]|\n              3[24-7]\n            )|\n            4(?:\n              0[2-467]|\n              1[2467]\n            )|\n            5(?:\n              0[2467]|\n              1[24-7]|\n              2[2-467]\n            )\n          )\\d{5}\n        "), possibleLength := [8], possibleLocalLength := [6], example? := some (str% "30234567") },
    mobile := some { nationalNumber := some (str% "\n          6(?:\n            [07-9]\\d|\n            3[024]|\n            6[0-25]\n          )\\d{5}\n        "), possibleLength := [8], example? := some (str% "60123456") },
    tollFree := some { nationalNumber := some (str% "\n          80(?:\n            [0-2578]|\n            9\\d\n          )\\d{5}\n        "), possibleLength := [8, 9], example? := some (str% "80080002") },
    premiumRate := some { nationalNumber := some (str% "\n          9(?:\n            4[1568]|\n            5[178]\n          )\\d{5}\n        "), possibleLength := [8], example? := some (str% "94515151") },
    voip := some { nationalNumber := some (str% "78[1-49]\\d{5}"), possibleLength := [8], example? := some (str% "78108780") },
    uan := some { nationalNumber := some (str% "77[1-9]\\d{5}"), possibleLength := [8], example? := some (str% "77273012") },
    id := some (str% "ME"),
    countryCode := some 382,
    internationalPrefix := some (str% "00"),
    nationalPrefix := some (str% "0"),
    formats := [
      { pattern := some (str% "(\\d{2})(\\d{3})(\\d{3,4})"), format := some (str% "$1 $2 $3"), leadingDigits := [str% "[2-9]"], nationalPrefixFormattingRule := some (str% "$NP$FG") }],
    internationalFormats := [
      { pattern := some (str% "(\\d{2})(\\d{3})(\\d{3,4})"), format := some (str% "$1 $2 $3"), leadingDigits := [str% "[2-9]"], nationalPrefixFormattingRule := some (str% "$NP$FG") }] }

/-- territory id=MF countryCode=590 -/
noncomputable def MF : Loader.Metadata :=
  { general := some { nationalNumber := some (str% "\n          7090\\d{5}|\n          (?:\n            [56]9|\n            [89]\\d\n          )\\d{7}\n        ") },
    fixedLine := some { nationalNumber := some (str% "\n          (?:\n            59(?:\n              0(?:\n                0[079]|\n                [14]3|\n                [27][79]|\n                3[03-7]|\n                5[0-268]|\n                87\n              )|\n              87\\d\n            )|\n            80[6-9]\\d\\d\n          )\\d{4}\n        "), possibleLength := [9], example? := some (str% "590271234") },
    mobile := some { nationalNumber := some (str% "\n          (?:\n            69(?:\n              0\\d\\d|\n              1(?:\n                2[2-9]|\n                3[0-5]\n              )\n            )|\n            7090[0-4]\n          )\\d{4}\n        "), possibleLength := [9], example? := some (str% "690001234") },
    tollFree := some { nationalNumber := some (str% "80[0-5]\\d{6}"), possibleLength := [9], example? := some (str% "800012345") },
    premiumRate := some { nationalNumber := some (str% "8[129]\\d{7}"), possibleLength := [9], example? := some (str% "810123456") },
    voip := some { nationalNumber := some (str% "\n          9(?:\n            (?:\n              39[5-7]|\n              76[018]\n            )\\d|\n            475[0-6]\n          )\\d{4}\n        "), possibleLength := [9], example? := some (str% "976012345") },
    id := some (str% "MF"),
    countryCode := some 590,
    internationalPrefix := some (str% "00"),
    nationalPrefix := some (str% "0"),
    mobileNumberPortable := true }

/-- the territories of this module, in document order -/
noncomputable def chunk09 : List Loader.Metadata :=
  [KR, KW, KY, KZ, LA, LB, LC, LI, LK, LR, LS, LT, LU, LV, LY, MA, MC, MD, ME, MF]

end Phone.Data
