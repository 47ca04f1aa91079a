import Verif.Model.Database
/-! Territories of `/repo/assets/PhoneNumberMetadata.xml` as `/repo/src/metadata/loader.rs` reads them.
Generated by `tools/gen_data.py`; do not edit. -/

set_option maxRecDepth 100000
namespace Phone.Data

/-- territory id=NA countryCode=264 -/
noncomputable def NA : Loader.Metadata :=
  { general := some { nationalNumber := some (str% "[68]\\d{7,8}") },
    fixedLine := some { nationalNumber := some (str% "\n          64426\\d{3}|\n          6(?:\n            1(?:\n              2[2-7]|\n              3[01378]|\n              4[0-4]\n            )|\n            254|\n            32[0237]|\n            4(?:\n              27|\n              41|\n              5[25]\n            )|\n            52[236-8]|\n            626|\n            7(?:\n              2[2-4]|\n              30\n            )\n          )\\d{4,5}|\n          6(?:\n            1(?:\n              (?:\n                0\\d|\n                2[0189]|\n                3[24-69]|\n                4[5-9]\n              )\\d|\n              17|\n              69|\n              7[014]\n            )|\n            2(?:\n              17|\n              5[0-36-8]|\n              69|\n              70\n            )|\n            3(?:\n              17|\n              2[14-689]|\n              34|\n              6[289]|\n              7[01]|\n              81\n            )|\n            4(?:\n              17|\n              2[0-2]|\n              4[06]|\n              5[0137]|\n              69|\n              7[01]\n            )|\n            5(?:\n              17|\n              2[0459]|\n              69|\n              7[01]\n            )|\n            6(?:\n              17|\n              25|\n              38|\n              42|\n              69|\n              7[01]\n            )|\n            7(?:\n              17|\n              2[569]|\n              3[13]|\n              6[89]|\n              7[01]\n            )\n          )\\d{4}\n        "), possibleLength := [8, 9], example? := some (str% "61221234") },
    mobile := some { nationalNumber := some (str% "\n          (?:\n            60|\n            8[1245]\n          )\\d{7}\n        "), possibleLength := [9], example? := some (str% "811234567") },
    tollFree := some { nationalNumber := some (str% "80\\d{7}"), possibleLength := [9], example? := some (str% "800123456") },
    premiumRate := some { nationalNumber := some (str% "8701\\d{5}"), possibleLength := [9], example? := some (str% "870123456") },
    voip := some { nationalNumber := some (str% "\n          8(?:\n            3\\d\\d|\n            86\n          )\\d{5}\n        "), possibleLength := [8, 9], example? := some (str% "88612345") },
    id := some (str% "NA"),
    countryCode := some 264,
    internationalPrefix := some (str% "00"),
    nationalPrefix := some (str% "0"),
    formats := [
      { pattern := some (str% "(\\d{2})(\\d{3})(\\d{3})"), format := some (str% "$1 $2 $3"), leadingDigits := [str% "88"], nationalPrefixFormattingRule := some (str% "$NP$FG") },
      { pattern := some (str% "(\\d{2})(\\d{3})(\\d{3,4})"), format := some (str% "$1 $2 $3"), leadingDigits := [str% "6"], nationalPrefixFormattingRule := some (str% "$NP$FG") },
      { pattern := some (str% "(\\d{3})(\\d{3})(\\d{3})"), format := some (str% "$1 $2 $3"), leadingDigits := [str% "87"], nationalPrefixFormattingRule := some (str% "$NP$FG") },
      { pattern := some (str% "(\\d{2})(\\d{3})(\\d{4})"), format := some (str% "$1 $2 $3"), leadingDigits := [str% "8"], nationalPrefixFormattingRule := some (str% "$NP$FG") }],
    internationalFormats := [
      { pattern := some (str% "(\\d{2})(\\d{3})(\\d{3})"), format := some (str% "$1 $2 $3"), leadingDigits := [str% "88"], nationalPrefixFormattingRule := some (str% "$NP$FG") },
      { pattern := some (str% "(\\d{2})(\\d{3})(\\d{3,4})"), format := some (str% "$1 $2 $3"), leadingDigits := [str% "6"], nationalPrefixFormattingRule := some (str% "$NP$FG") },
      { pattern := some (str% "(\\d{3})(\\d{3})(\\d{3})"), format := some (str% "$1 $2 $3"), leadingDigits := [str% "87"], nationalPrefixFormattingRule := some (str% "$NP$FG") },
      { pattern := some (str% "(\\d{2})(\\d{3})(\\d{4})"), format := some (str% "$1 $2 $3"), leadingDigits := [str% "8"], nationalPrefixFormattingRule := some (str% "$NP$FG") }] }

/-- territory id=NC countryCode=687 -/
noncomputable def NC : Loader.Metadata :=
  { general := some { nationalNumber := some (str% "\n          (?:\n            050|\n            [2-57-9]\\d\\d\n          )\\d{3}\n        ") },
    fixedLine := some { nationalNumber := some (str% "\n          (?:\n            2[03-9]|\n            3[0-5]|\n            4[1-7]|\n            88\n          )\\d{4}\n        "), possibleLength := [6], example? := some (str% "201234") },
    mobile := some { nationalNumber := some (str% "\n          (?:\n            [579]\\d|\n            8[0-79]\n          )\\d{4}\n        "), possibleLength := [6], example? := some (str% "751234") },
    tollFree := some { nationalNumber := some (str% "050\\d{3}"), possibleLength := [6], example? := some (str% "050012") },
    premiumRate := some { nationalNumber := some (str% "36\\d{4}"), possibleLength := [6], example? := some (str% "366711") },
    id := some (str% "NC"),
    countryCode := some 687,
    internationalPrefix := some (str% "00"),
    formats := [
      { pattern := some (str% "(\\d{3})"), format := some (str% "$1"), leadingDigits := [str% "5[6-8]"] },
      { pattern := some (str% "(\\d{2})(\\d{2})(\\d{2})"), format := some (str% "$1.$2.$3"), leadingDigits := [str% "[02-57-9]"] }],
    internationalFormats := [
      { pattern := some (str% "(\\d{2})(\\d{2})(\\d{2})"), format := some (str% "$1.$2.$3"), leadingDigits := [str% "[02-57-9]"] }] }

/-- territory id=NE countryCode=227 -/
noncomputable def NE : Loader.Metadata :=
  { general := some { nationalNumber := some (str% "[027-9]\\d{7}") },
    fixedLine := some { nationalNumber := some (str% "\n          2(?:\n            0(?:\n              20|\n              3[1-8]|\n              4[13-5]|\n              5[14]|\n              6[14578]|\n              7[1-578]\n            )|\n            1(?:\n              4[145]|\n              5[14]|\n              6[14-68]|\n              7[169]|\n              88\n            )\n          )\\d{4}\n        "), possibleLength := [8], example? := some (str% "20201234") },
    mobile := some { nationalNumber := some (str% "\n          (?:\n            23|\n            7[0467]|\n            [89]\\d\n          )\\d{6}\n        "), possibleLength := [8], example? := some (str% "93123456") },
    tollFree := some { nationalNumber := some (str% "08\\d{6}"), possibleLength := [8], example? := some (str% "08123456") },
    premiumRate := some { nationalNumber := some (str% "09\\d{6}"), possibleLength := [8], example? := some (str% "09123456") },
    id := some (str% "NE"),
    countryCode := some 227,
    internationalPrefix := some (str% "00"),
    formats := [
      { pattern := some (str% "(\\d{2})(\\d{3})(\\d{3})"), format := some (str% "$1 $2 $3"), leadingDigits := [str% "08"] },
      { pattern := some (str% "(\\d{2})(\\d{2})(\\d{2})(\\d{2})"), format := some (str% "$1 $2 $3 $4"), leadingDigits := [str% "\n            [089]|\n            2[013]|\n            7[0467]\n          "] }],
    internationalFormats := [
      { pattern := some (str% "(\\d{2})(\\d{3})(\\d{3})"), format := some (str% "$1 $2 $3"), leadingDigits := [str% "08"] },
      { pattern := some (str% "(\\d{2})(\\d{2})(\\d{2})(\\d{2})"), format := some (str% "$1 $2 $3 $4"), leadingDigits := [str% "\n            [089]|\n            2[013]|\n            7[0467]\n          "] }] }

/-- territory id=NF countryCode=672 -/
noncomputable def NF : Loader.Metadata :=
  { general := some { nationalNumber := some (str% "[13]\\d{5}") },
    fixedLine := some { nationalNumber := some (str% "\n          (?:\n            1(?:\n              06|\n              17|\n              28|\n              39\n            )|\n            3[0-2]\\d\n          )\\d{3}\n        "), possibleLength := [6], possibleLocalLength := [5], example? := some (str% "106609") },
    mobile := some { nationalNumber := some (str% "\n          (?:\n            14|\n            3[58]\n          )\\d{4}\n        "), possibleLength := [6], possibleLocalLength := [5], example? := some (str% "381234") },
    id := some (str% "NF"),
    countryCode := some 672,
    internationalPrefix := some (str% "00"),
    nationalPrefixForParsing := some (str% "([0-258]\\d{4})$"),
    nationalPrefixTransformRule := some (str% "3$1"),
    formats := [
      { pattern := some (str% "(\\d{2})(\\d{4})"), format := some (str% "$1 $2"), leadingDigits := [str% "1[0-3]"] },
      { pattern := some (str% "(\\d)(\\d{5})"), format := some (str% "$1 $2"), leadingDigits := [str% "[13]"] }],
    internationalFormats := [
      { pattern := some (str% "(\\d{2})(\\d{4})"), format := some (str% "$1 $2"), leadingDigits := [str% "1[0-3]"] },
      { pattern := some (str% "(\\d)(\\d{5})"), format := some (str% "$1 $2"), leadingDigits := [str% "[13]"] }] }

/-- territory id=NG countryCode=234 -/
noncomputable def NG : Loader.Metadata :=
  { general := some { nationalNumber := some (str% "\n          (?:\n            20|\n            9\\d\n          )\\d{8}|\n          [78]\\d{9,13}\n        ") },
    fixedLine := some { nationalNumber := some (str% "\n          20(?:\n            [1259]\\d|\n            3[013-9]|\n            4[1-8]|\n            6[024-689]|\n            7[1-79]|\n            8[2-9]\n          )\\d{6}\n        "), possibleLength := [10], possibleLocalLength := [6, 7], example? := some (str% "2033123456") },
    mobile := some { nationalNumber := some (str% "\n          (?:\n            702[0-24-9]|\n            819[01]\n          )\\d{6}|\n          (?:\n            7(?:\n              0[13-9]|\n              [12]\\d\n            )|\n            8(?:\n              0[1-9]|\n              1[0-8]\n            )|\n            9(?:\n              0[1-9]|\n              1[1-6]\n            )\n          )\\d{7}\n        "), possibleLength := [10], example? := some (str% "8021234567") },
    tollFree := some { nationalNumber := some (str% "800\\d{7,11}"), possibleLength := [10, 11, 12, 13, 14], example? := some (str% "80017591759") },
    uan := some { nationalNumber := some (str% "700\\d{7,11}"), possibleLength := [10, 11, 12, 13, 14], example? := some (str% "7001234567") },
    id := some (str% "NG"),
    countryCode := some 234,
    internationalPrefix := some (str% "009"),
    nationalPrefix := some (str% "0"),
    formats := [
      { pattern := some (str% "(\\d{3})(\\d{3})(\\d{3,4})"), format := some (str% "$1 $2 $3"), leadingDigits := [str% "[7-9]"], nationalPrefixFormattingRule := some (str% "$NP$FG") },
      { pattern := some (str% "(\\d{3})(\\d{3})(\\d{4})"), format := some (str% "$1 $2 $3"), leadingDigits := [str% "20[129]"], nationalPrefixFormattingRule := some (str% "$NP$FG") },
      { pattern := some (str% "(\\d{4})(\\d{2})(\\d{4})"), format := some (str% "$1 $2 $3"), leadingDigits := [str% "2"], nationalPrefixFormattingRule := some (str% "$NP$FG") },
      { pattern := some (str% "(\\d{3})(\\d{4})(\\d{4,5})"), format := some (str% "$1 $2 $3"), leadingDigits := [str% "[78]"], nationalPrefixFormattingRule := some (str% "$NP$FG") },
      { pattern := some (str% "(\\d{3})(\\d{5})(\\d{5,6})"), format := some (str% "$1 $2 $3"), leadingDigits := [str% "[78]"], nationalPrefixFormattingRule := some (str% "$NP$FG") }],
    internationalFormats := [
      { pattern := some (str% "(\\d{3})(\\d{3})(\\d{3,4})"), format := some (str% "$1 $2 $3"), leadingDigits := [str% "[7-9]"], nationalPrefixFormattingRule := some (str% "$NP$FG") },
      { pattern := some (str% "(\\d{3})(\\d{3})(\\d{4})"), format := some (str% "$1 $2 $3"), leadingDigits := [str% "20[129]"], nationalPrefixFormattingRule := some (str% "$NP$FG") },
      { pattern := some (str% "(\\d{4})(\\d{2})(\\d{4})"), format := some (str% "$1 $2 $3"), leadingDigits := [str% "2"], nationalPrefixFormattingRule := some (str% "$NP$FG") },
      { pattern := some (str% "(\\d{3})(\\d{4})(\\d{4,5})"), format := some (str% "$1 $2 $3"), leadingDigits := [str% "[78]"], nationalPrefixFormattingRule := some (str% "$NP$FG") },
      { pattern := some (str% "(\\d{3})(\\d{5})(\\d{5,6})"), format := some (str% "$1 $2 $3"), leadingDigits := [str% "[78]"], nationalPrefixFormattingRule := some (str% "$NP$FG") }],
    mobileNumberPortable := true }

/-- territory id=NI countryCode=505 -/
noncomputable def NI : Loader.Metadata :=
  { general := some { nationalNumber := some (str% "\n          (?:\n            1800|\n            [25-8]\\d{3}\n          )\\d{4}\n        ") },
    fixedLine := some { nationalNumber := some (str% "2\\d{7}"), possibleLength := [8], example? := some (str% "21234567") },
    mobile := some { nationalNumber := some (str% "\n          (?:\n            5(?:\n              5[0-7]|\n              [78]\\d\n            )|\n            6(?:\n              20|\n              3[035]|\n              4[045]|\n              5[05]|\n              77|\n              8[1-9]|\n              9[059]\n            )|\n            (?:\n              7[5-8]|\n              8\\d\n            )\\d\n          )\\d{5}\n        "), possibleLength := [8], example? := some (str% "81234567") },
    tollFree := some { nationalNumber := some (str% "1800\\d{4}"), possibleLength := [8], example? := some (str% "18001234") },
    id := some (str% "NI"),
    countryCode := some 505,
    internationalPrefix := some (str% "00"),
    formats := [
      { pattern := some (str% "(\\d{4})(\\d{4})"), format := some (str% "$1 $2"), leadingDigits := [str% "[125-8]"] }],
    internationalFormats := [
      { pattern := some (str% "(\\d{4})(\\d{4})"), format := some (str% "$1 $2"), leadingDigits := [str% "[125-8]"] }] }

/-- territory id=NL countryCode=31 -/
noncomputable def NL : Loader.Metadata :=
  { general := some { nationalNumber := some (str% "\n          (?:\n            [124-7]\\d\\d|\n            3(?:\n              [02-9]\\d|\n              1[0-8]\n            )\n          )\\d{6}|\n          8\\d{6,9}|\n          9\\d{6,10}|\n          1\\d{4,5}\n        ") },
    fixedLine := some { nationalNumber := some (str% "\n          (?:\n            1(?:\n              [035]\\d|\n              1[13-578]|\n              6[124-8]|\n              7[24]|\n              8[0-467]\n            )|\n            2(?:\n              [0346]\\d|\n              2[2-46-9]|\n              5[125]|\n              9[479]\n            )|\n            3(?:\n              [03568]\\d|\n              1[3-8]|\n              2[01]|\n              4[1-8]\n            )|\n            4(?:\n              [0356]\\d|\n              1[1-368]|\n              7[58]|\n              8[15-8]|\n              9[23579]\n            )|\n            5(?:\n              [0358]\\d|\n              [19][1-9]|\n              2[1-57-9]|\n              4[13-8]|\n              6[126]|\n              7[0-3578]\n            )|\n            7\\d\\d\n          )\\d{6}\n        "), possibleLength := [9], example? := some (str% "101234567") },
    mobile := some { nationalNumber := some (str% "\n          (?:\n            6[1-58]|\n            970\\d\n          )\\d{7}\n        "), possibleLength := [9, 11], example? := some (str% "612345678") },
    tollFree := some { nationalNumber := some (str% "800\\d{4,7}"), possibleLength := [7, 8, 9, 10], example? := some (str% "8001234") },
    premiumRate := some { nationalNumber := some (str% "90[069]\\d{4,7}"), possibleLength := [7, 8, 9, 10], example? := some (str% "9061234") },
    voip := some { nationalNumber := some (str% "\n          (?:\n            85|\n            91\n          )\\d{7}\n        "), possibleLength := [9], example? := some (str% "851234567") },
    pager := some { nationalNumber := some (str% "66\\d{7}"), possibleLength := [9], example? := some (str% "662345678") },
    uan := some { nationalNumber := some (str% "\n          140(?:\n            1[035]|\n            2[0346]|\n            3[03568]|\n            4[0356]|\n            5[0358]|\n            8[458]\n          )|\n          (?:\n            140(?:\n              1[16-8]|\n              2[259]|\n              3[124]|\n              4[17-9]|\n              5[124679]|\n              7\n            )|\n            8[478]\\d{6}\n          )\\d\n        "), possibleLength := [5, 6, 9], example? := some (str% "14020") },
    noInternational := some { nationalNumber := some (str% "\n          140(?:\n            1[035]|\n            2[0346]|\n            3[03568]|\n            4[0356]|\n            5[0358]|\n            8[458]\n          )|\n          140(?:\n            1[16-8]|\n            2[259]|\n            3[124]|\n            4[17-9]|\n            5[124679]|\n            7\n          )\\d\n        "), possibleLength := [5, 6] },
    id := some (str% "NL"),
    countryCode := some 31,
    internationalPrefix := some (str% "00"),
    nationalPrefix := some (str% "0"),
    formats := [
      { pattern := some (str% "(\\d{4})"), format := some (str% "$1"), leadingDigits := [str% "\n            1[238]|\n            [34]\n          "] },
      { pattern := some (str% "(\\d{2})(\\d{3,4})"), format := some (str% "$1 $2"), leadingDigits := [str% "14"] },
      { pattern := some (str% "(\\d{6})"), format := some (str% "$1"), leadingDigits := [str% "1"] },
      { pattern := some (str% "(\\d{3})(\\d{4,7})"), format := some (str% "$1 $2"), leadingDigits := [str% "[89]0"], nationalPrefixFormattingRule := some (str% "$NP$FG") },
      { pattern := some (str% "(\\d{2})(\\d{7})"), format := some (str% "$1 $2"), leadingDigits := [str% "66"], nationalPrefixFormattingRule := some (str% "$NP$FG") },
      { pattern := some (str% "(\\d)(\\d{8})"), format := some (str% "$1 $2"), leadingDigits := [str% "6"], nationalPrefixFormattingRule := some (str% "$NP$FG") },
      { pattern := some (str% "(\\d{3})(\\d{3})(\\d{3})"), format := some (str% "$1 $2 $3"), leadingDigits := [str% "\n            1[16-8]|\n            2[259]|\n            3[124]|\n            4[17-9]|\n            5[124679]\n          "], nationalPrefixFormattingRule := some (str% "$NP$FG") },
      { pattern := some (str% "(\\d{2})(\\d{3})(\\d{4})"), format := some (str% "$1 $2 $3"), leadingDigits := [str% "\n            [1-578]|\n            91\n          "], nationalPrefixFormattingRule := some (str% "$NP$FG") },
      { pattern := some (str% "(\\d{3})(\\d{3})(\\d{5})"), format := some (str% "$1 $2 $3"), leadingDigits := [str% "9"], nationalPrefixFormattingRule := some (str% "$NP$FG") }],
    internationalFormats := [
      { pattern := some (str% "(\\d{3})(\\d{4,7})"), format := some (str% "$1 $2"), leadingDigits := [str% "[89]0"], nationalPrefixFormattingRule := some (str% "$NP$FG") },
      { pattern := some (str% "(\\d{2})(\\d{7})"), format := some (str% "$1 $2"), leadingDigits := [str% "66"], nationalPrefixFormattingRule := some (str% "$NP$FG") },
      { pattern := some (str% "(\\d)(\\d{8})"), format := some (str% "$1 $2"), leadingDigits := [str% "6"], nationalPrefixFormattingRule := some (str% "$NP$FG") },
      { pattern := some (str% "(\\d{3})(\\d{3})(\\d{3})"), format := some (str% "$1 $2 $3"), leadingDigits := [str% "\n            1[16-8]|\n            2[259]|\n            3[124]|\n            4[17-9]|\n            5[124679]\n          "], nationalPrefixFormattingRule := some (str% "$NP$FG") },
      { pattern := some (str% "(\\d{2})(\\d{3})(\\d{4})"), format := some (str% "$1 $2 $3"), leadingDigits := [str% "\n            [1-578]|\n            91\n          "], nationalPrefixFormattingRule := some (str% "$NP$FG") },
      { pattern := some (str% "(\\d{3})(\\d{3})(\\d{5})"), format := some (str% "$1 $2 $3"), leadingDigits := [str% "9"], nationalPrefixFormattingRule := some (str% "$NP$FG") }],
    mobileNumberPortable := true }

/-- territory id=NO countryCode=47 -/
noncomputable def NO : Loader.Metadata :=
  { general := some { nationalNumber := some (str% "\n          (?:\n            0|\n            [2-9]\\d{3}\n          )\\d{4}\n        ") },
    fixedLine := some { nationalNumber := some (str% "\n          (?:\n            2[1-4]|\n            3[1-3578]|\n            5[1-35-7]|\n            6[1-46-9]|\n            7[0-8]\n          )\\d{6}\n        "), possibleLength := [8], example? := some (str% "21234567") },
    mobile := some { nationalNumber := some (str% "[49]\\d{7}"), possibleLength := [8], example? := some (str% "40612345") },
    tollFree := some { nationalNumber := some (str% "80[01]\\d{5}"), possibleLength := [8], example? := some (str% "80012345") },
    premiumRate := some { nationalNumber := some (str% "82[09]\\d{5}"), possibleLength := [8], example? := some (str% "82012345") },
    sharedCost := some { nationalNumber := some (str% "\n          810(?:\n            0[0-6]|\n            [2-8]\\d\n          )\\d{3}\n        "), possibleLength := [8], example? := some (str% "81021234") },
    personalNumber := some { nationalNumber := some (str% "880\\d{5}"), possibleLength := [8], example? := some (str% "88012345") },
    voip := some { nationalNumber := some (str% "85[0-5]\\d{5}"), possibleLength := [8], example? := some (str% "85012345") },
    uan := some { nationalNumber := some (str% "\n          (?:\n            0[235-9]|\n            81(?:\n              0(?:\n                0[7-9]|\n                1\\d\n              )|\n              5\\d\\d\n            )\n          )\\d{3}\n        "), possibleLength := [5, 8], example? := some (str% "02000") },
    voicemail := some { nationalNumber := some (str% "81[23]\\d{5}"), possibleLength := [8], example? := some (str% "81212345") },
    id := some (str% "NO"),
    countryCode := some 47,
    internationalPrefix := some (str% "00"),
    formats := [
      { pattern := some (str% "(\\d{3})(\\d{2})(\\d{3})"), format := some (str% "$1 $2 $3"), leadingDigits := [str% "8"] },
      { pattern := some (str% "(\\d{2})(\\d{2})(\\d{2})(\\d{2})"), format := some (str% "$1 $2 $3 $4"), leadingDigits := [str% "[2-79]"] }],
    internationalFormats := [
      { pattern := some (str% "(\\d{3})(\\d{2})(\\d{3})"), format := some (str% "$1 $2 $3"), leadingDigits := [str% "8"] },
      { pattern := some (str% "(\\d{2})(\\d{2})(\\d{2})(\\d{2})"), format := some (str% "$1 $2 $3 $4"), leadingDigits := [str% "[2-79]"] }],
    mainCountryForCode := true,
    leadingDigits := some (str% "[02-689]|7[0-8]"),
    mobileNumberPortable := true }

/-- territory id=NP countryCode=977 -/
noncomputable def NP : Loader.Metadata :=
  { general := some { nationalNumber := some (str% "\n          (?:\n            1\\d|\n            9\n          )\\d{9}|\n          [1-9]\\d{7}\n        ") },
    fixedLine := some { nationalNumber := some (str% "\n          (?:\n            1[0-6]\\d|\n            99[02-6]\n          )\\d{5}|\n          (?:\n            2[13-79]|\n            3[135-8]|\n            4[146-9]|\n            5[135-7]|\n            6[13-9]|\n            7[15-9]|\n            8[1-46-9]|\n            9[1-7]\n          )[2-6]\\d{5}\n        "), possibleLength := [8], possibleLocalLength := [6, 7], example? := some (str% "14567890") },
    mobile := some { nationalNumber := some (str% "\n          9(?:\n            00|\n            6[0-3]|\n            7[0-24-6]|\n            8[0-24-68]\n          )\\d{7}\n        "), possibleLength := [10], example? := some (str% "9841234567") },
    tollFree := some { nationalNumber := some (str% "\n          1(?:\n            66001|\n            800\\d\\d\n          )\\d{5}\n        "), possibleLength := [11], example? := some (str% "16600101234") },
    id := some (str% "NP"),
    countryCode := some 977,
    internationalPrefix := some (str% "00"),
    nationalPrefix := some (str% "0"),
    formats := [
      { pattern := some (str% "(\\d)(\\d{7})"), format := some (str% "$1-$2"), leadingDigits := [str% "1[2-6]"], nationalPrefixFormattingRule := some (str% "$NP$FG") },
      { pattern := some (str% "(\\d{2})(\\d{6})"), format := some (str% "$1-$2"), leadingDigits := [str% "\n            1[01]|\n            [2-8]|\n            9(?:\n              [1-59]|\n              [67][2-6]\n            )\n          "], nationalPrefixFormattingRule := some (str% "$NP$FG") },
      { pattern := some (str% "(\\d{3})(\\d{7})"), format := some (str% "$1-$2"), leadingDigits := [str% "9"] },
      { pattern := some (str% "(\\d{4})(\\d{2})(\\d{5})"), format := some (str% "$1-$2-$3"), leadingDigits := [str% "1"] }],
    internationalFormats := [
      { pattern := some (str% "(\\d)(\\d{7})"), format := some (str% "$1-$2"), leadingDigits := [str% "1[2-6]"], nationalPrefixFormattingRule := some (str% "$NP$FG") },
      { pattern := some (str% "(\\d{2})(\\d{6})"), format := some (str% "$1-$2"), leadingDigits := [str% "\n            1[01]|\n            [2-8]|\n            9(?:\n              [1-59]|\n              [67][2-6]\n            )\n          "], nationalPrefixFormattingRule := some (str% "$NP$FG") },
      { pattern := some (str% "(\\d{3})(\\d{7})"), format := some (str% "$1-$2"), leadingDigits := [str% "9"] }] }

/-- territory id=NR countryCode=674 -/
noncomputable def NR : Loader.Metadata :=
  { general := some { nationalNumber := some (str% "\n          (?:\n            222|\n            444|\n            (?:\n              55|\n              8\\d\n            )\\d|\n            666|\n            777|\n            999\n          )\\d{4}\n        ") },
    fixedLine := some { nationalNumber := some (str% "444\\d{4}"), possibleLength := [7], example? := some (str% "4441234") },
    mobile := some { nationalNumber := some (str% "\n          (?:\n            222|\n            55[3-9]|\n            666|\n            777|\n            8\\d\\d|\n            999\n          )\\d{4}\n        "), possibleLength := [7], example? := some (str% "5551234") },
    id := some (str% "NR"),
    countryCode := some 674,
    internationalPrefix := some (str% "00"),
    formats := [
      { pattern := some (str% "(\\d{3})(\\d{4})"), format := some (str% "$1 $2"), leadingDigits := [str% "[24-9]"] }],
    internationalFormats := [
      { pattern := some (str% "(\\d{3})(\\d{4})"), format := some (str% "$1 $2"), leadingDigits := [str% "[24-9]"] }] }

/-- territory id=NU countryCode=683 -/
noncomputable def NU : Loader.Metadata :=
  { general := some { nationalNumber := some (str% "\n          (?:\n            [4-7]|\n            888\\d\n          )\\d{3}\n        ") },
    fixedLine := some { nationalNumber := some (str% "[47]\\d{3}"), possibleLength := [4], example? := some (str% "7012") },
    mobile := some { nationalNumber := some (str% "\n          (?:\n            [56]|\n            888[1-9]\n          )\\d{3}\n        "), possibleLength := [4, 7], example? := some (str% "8884012") },
    id := some (str% "NU"),
    countryCode := some 683,
    internationalPrefix := some (str% "00"),
    formats := [
      { pattern := some (str% "(\\d{3})(\\d{4})"), format := some (str% "$1 $2"), leadingDigits := [str% "8"] }],
    internationalFormats := [
      { pattern := some (str% "(\\d{3})(\\d{4})"), format := some (str% "$1 $2"), leadingDigits := [str% "8"] }] }

/-- territory id=NZ countryCode=64 -/
noncomputable def NZ : Loader.Metadata :=
  { general := some { nationalNumber := some (str% "\n          [1289]\\d{9}|\n          50\\d{5}(?:\n            \\d{2,3}\n          )?|\n          [27-9]\\d{7,8}|\n          (?:\n            [34]\\d|\n            6[0-35-9]\n          )\\d{6}|\n          8\\d{4,6}\n        ") },
    fixedLine := some { nationalNumber := some (str% "\n          240\\d{5}|\n          (?:\n            3[2-79]|\n            [49][2-9]|\n            6[235-9]|\n            7[2-57-9]\n          )\\d{6}\n        "), possibleLength := [8], possibleLocalLength := [7], example? := some (str% "32345678") },
    mobile := some { nationalNumber := some (str% "\n          2(?:\n            [0-27-9]\\d|\n            6\n          )\\d{6,7}|\n          2(?:\n            1\\d|\n            75\n          )\\d{5}\n        "), possibleLength := [8, 9, 10], example? := some (str% "211234567") },
    tollFree := some { nationalNumber := some (str% "\n          508\\d{6,7}|\n          80\\d{6,8}\n        "), possibleLength := [8, 9, 10], example? := some (str% "800123456") },
    premiumRate := some { nationalNumber := some (str% "\n          (?:\n            1[13-57-9]\\d{5}|\n            50(?:\n              0[08]|\n              30|\n              66|\n              77|\n              88\n            )\n          )\\d{3}|\n          90\\d{6,8}\n        "), possibleLength := [7, 8, 9, 10], example? := some (str% "900123456") },
    personalNumber := some { nationalNumber := some (str% "70\\d{7}"), possibleLength := [9], example? := some (str% "701234567") },
    uan := some { nationalNumber := some (str% "\n          8(?:\n            1[16-9]|\n            22|\n            3\\d|\n            4[045]|\n            5[459]|\n            6[235-9]|\n            7[0-3579]|\n            90\n          )\\d{2,7}\n        "), possibleLength := [5, 6, 7, 8, 9, 10], example? := some (str% "83012378") },
    id := some (str% "NZ"),
    countryCode := some 64,
    internationalPrefix := some (str% "0(?:0|161)"),
    preferredInternationalPrefix := some (str% "00"),
    nationalPrefix := some (str% "0"),
    formats := [
      { pattern := some (str% "(\\d{2})(\\d{3,8})"), format := some (str% "$1 $2"), leadingDigits := [str% "8[1-79]"], nationalPrefixFormattingRule := some (str% "$NP$FG") },
      { pattern := some (str% "(\\d{3})(\\d{2})(\\d{2,3})"), format := some (str% "$1 $2 $3"), leadingDigits := [str% "\n            50[036-8]|\n            8|\n            90\n          ", str% "\n            50(?:\n              [0367]|\n              88\n            )|\n            8|\n            90\n          "], nationalPrefixFormattingRule := some (str% "$NP$FG") },
      { pattern := some (str% "(\\d)(\\d{3})(\\d{4})"), format := some (str% "$1 $2 $3"), leadingDigits := [str% "\n            24|\n            [346]|\n            7[2-57-9]|\n            9[2-9]\n          "], nationalPrefixFormattingRule := some (str% "$NP$FG") },
      { pattern := some (str% "(\\d{3})(\\d{3})(\\d{3,4})"), format := some (str% "$1 $2 $3"), leadingDigits := [str% "\n            2(?:\n              10|\n              74\n            )|\n            [589]\n          "], nationalPrefixFormattingRule := some (str% "$NP$FG") },
      { pattern := some (str% "(\\d{2})(\\d{3,4})(\\d{4})"), format := some (str% "$1 $2 $3"), leadingDigits := [str% "\n            1|\n            2[028]\n          "], nationalPrefixFormattingRule := some (str% "$NP$FG") },
      { pattern := some (str% "(\\d{2})(\\d{3})(\\d{3,5})"), format := some (str% "$1 $2 $3"), leadingDigits := [str% "\n            2(?:\n              [169]|\n              7[0-35-9]\n            )|\n            7\n          "], nationalPrefixFormattingRule := some (str% "$NP$FG") }],
    internationalFormats := [
      { pattern := some (str% "(\\d{2})(\\d{3,8})"), format := some (str% "$1 $2"), leadingDigits := [str% "8[1-79]"], nationalPrefixFormattingRule := some (str% "$NP$FG") },
      { pattern := some (str% "(\\d{3})(\\d{2})(\\d{2,3})"), format := some (str% "$1 $2 $3"), leadingDigits := [str% "\n            50[036-8]|\n            8|\n            90\n          ", str% "\n            50(?:\n              [0367]|\n              88\n            )|\n            8|\n            90\n          "], nationalPrefixFormattingRule := some (str% "$NP$FG") },
      { pattern := some (str% "(\\d)(\\d{3})(\\d{4})"), format := some (str% "$1 $2 $3"), leadingDigits := [str% "\n            24|\n            [346]|\n            7[2-57-9]|\n            9[2-9]\n          "], nationalPrefixFormattingRule := some (str% "$NP$FG") },
      { pattern := some (str% "(\\d{3})(\\d{3})(\\d{3,4})"), format := some (str% "$1 $2 $3"), leadingDigits := [str% "\n            2(?:\n              10|\n              74\n            )|\n            [589]\n          "], nationalPrefixFormattingRule := some (str% "$NP$FG") },
      { pattern := some (str% "(\\d{2})(\\d{3,4})(\\d{4})"), format := some (str% "$1 $2 $3"), leadingDigits := [str% "\n            1|\n            2[028]\n          "], nationalPrefixFormattingRule := some (str% "$NP$FG") },
      { pattern := some (str% "(\\d{2})(\\d{3})(\\d{3,5})"), format := some (str% "$1 $2 $3"), leadingDigits := [str% "\n            2(?:\n              [169]|\n              7[0-35-9]\n            )|\n            7\n          "], nationalPrefixFormattingRule := some (str% "$NP$FG") }],
    mobileNumberPortable := true }

/-- territory id=OM countryCode=968 -/
noncomputable def OM : Loader.Metadata :=
  { general := some { nationalNumber := some (str% "\n          (?:\n            1505|\n            [279]\\d{3}|\n            500\n          )\\d{4}|\n          800\\d{5,6}\n        ") },
    fixedLine := some { nationalNumber := some (str% "2[1-6]\\d{6}"), possibleLength := [8], example? := some (str% "23123456") },
    mobile := some { nationalNumber := some (str% "\n          (?:\n            1505|\n            90[1-9]\\d\n          )\\d{4}|\n          (?:\n            7[124-9]|\n            9[1-9]\n          )\\d{6}\n        "), possibleLength := [8], example? := some (str% "92123456") },
    tollFree := some { nationalNumber := some (str% "\n          8007\\d{4,5}|\n          (?:\n            500|\n            800[05]\n          )\\d{4}\n        "), possibleLength := [7, 8, 9], example? := some (str% "80071234") },
    premiumRate := some { nationalNumber := some (str% "900\\d{5}"), possibleLength := [8], example? := some (str% "90012345") },
    id := some (str% "OM"),
    countryCode := some 968,
    internationalPrefix := some (str% "00"),
    formats := [
      { pattern := some (str% "(\\d{3})(\\d{4,6})"), format := some (str% "$1 $2"), leadingDigits := [str% "[58]"] },
      { pattern := some (str% "(\\d{2})(\\d{6})"), format := some (str% "$1 $2"), leadingDigits := [str% "2"] },
      { pattern := some (str% "(\\d{4})(\\d{4})"), format := some (str% "$1 $2"), leadingDigits := [str% "[179]"] }],
    internationalFormats := [
      { pattern := some (str% "(\\d{3})(\\d{4,6})"), format := some (str% "$1 $2"), leadingDigits := [str% "[58]"] },
      { pattern := some (str% "(\\d{2})(\\d{6})"), format := some (str% "$1 $2"), leadingDigits := [str% "2"] },
      { pattern := some (str% "(\\d{4})(\\d{4})"), format := some (str% "$1 $2"), leadingDigits := [str% "[179]"] }],
    mobileNumberPortable := true }

/-- territory id=PA countryCode=507 -/
noncomputable def PA : Loader.Metadata :=
  { general := some { nationalNumber := some (str% "\n          (?:\n            00800|\n            8\\d{3}\n          )\\d{6}|\n          [68]\\d{7}|\n          [1-57-9]\\d{6}\n        ") },
    fixedLine := some { nationalNumber := some (str% "\n          (?:\n            1(?:\n              0\\d|\n              1[0479]|\n              2[37]|\n              3[0137]|\n              4[147]|\n              5[05]|\n              6[058]|\n              7[0167]|\n              8[2358]|\n              9[1389]\n            )|\n            2(?:\n              [0235-79]\\d|\n              1[0-7]|\n              4[013-9]|\n              8[02-9]\n            )|\n            3(?:\n              [0147-9]\\d|\n              [25][0-5]|\n              33|\n              6[068]\n            )|\n            4(?:\n              00|\n              3[0-579]|\n              4\\d|\n              7[0-57-9]\n            )|\n            5(?:\n              [01]\\d|\n              2[0-7]|\n              [56]0|\n              79\n            )|\n            7(?:\n              0[09]|\n              2[0-26-8]|\n              3[03]|\n              4[04]|\n              5[05-9]|\n              6[0156]|\n              7[0-24-9]|\n              8[4-9]|\n              90\n            )|\n            8(?:\n              09|\n              2[89]|\n              3\\d|\n              4[0-24-689]|\n              5[014]|\n              8[02]\n            )|\n            9(?:\n              0[5-9]|\n              1[0135-8]|\n              2[036-9]|\n              3[35-79]|\n              40|\n              5[0457-9]|\n              6[05-9]|\n              7[04-9]|\n              8[35-8]|\n              9\\d\n            )\n          )\\d{4}\n        "), possibleLength := [7], example? := some (str% "2001234") },
    mobile := some { nationalNumber := some (str% "\n          (?:\n            1[16]1|\n            21[89]|\n            6\\d{3}|\n            8(?:\n              1[01]|\n              7[23]\n            )\n          )\\d{4}\n        "), possibleLength := [7, 8], example? := some (str% "61234567") },
    tollFree := some { nationalNumber := some (str% "\n          800\\d{4,5}|\n          (?:\n            00800|\n            800\\d\n          )\\d{6}\n        "), possibleLength := [7, 8, 10, 11], example? := some (str% "8001234") },
    premiumRate := some { nationalNumber := some (str% "\n          (?:\n            8(?:\n              22|\n              55|\n              60|\n              7[78]|\n              86\n            )|\n            9(?:\n              00|\n              81\n            )\n          )\\d{4}\n        "), possibleLength := [7], example? := some (str% "8601234") },
    id := some (str% "PA"),
    countryCode := some 507,
    internationalPrefix := some (str% "00"),
    formats := [
      { pattern := some (str% "(\\d{3})(\\d{4})"), format := some (str% "$1-$2"), leadingDigits := [str% "[1-57-9]"] },
      { pattern := some (str% "(\\d{4})(\\d{4})"), format := some (str% "$1-$2"), leadingDigits := [str% "[68]"] },
      { pattern := some (str% "(\\d{3})(\\d{3})(\\d{4})"), format := some (str% "$1 $2 $3"), leadingDigits := [str% "8"] }],
    internationalFormats := [
      { pattern := some (str% "(\\d{3})(\\d{4})"), format := some (str% "$1-$2"), leadingDigits := [str% "[1-57-9]"] },
      { pattern := some (str% "(\\d{4})(\\d{4})"), format := some (str% "$1-$2"), leadingDigits := [str% "[68]"] },
      { pattern := some (str% "(\\d{3})(\\d{3})(\\d{4})"), format := some (str% "$1 $2 $3"), leadingDigits := [str% "8"] }],
    mobileNumberPortable := true }

/-- territory id=PE countryCode=51 -/
noncomputable def PE : Loader.Metadata :=
  { general := some { nationalNumber := some (str% "\n          (?:\n            [14-8]|\n            9\\d\n          )\\d{7}\n        ") },
    fixedLine := some { nationalNumber := some (str% "\n          (?:\n            (?:\n              (?:\n                4[34]|\n                5[14]\n              )[0-8]|\n              687\n            )\\d|\n            7(?:\n              173|\n              (?:\n                3[0-8]|\n                55\n              )\\d\n            )|\n            8(?:\n              10[05689]|\n              6(?:\n                0[06-9]|\n                1[6-9]|\n                29\n              )|\n              7(?:\n                0[0569]|\n                [56]0\n              )\n            )\n          )\\d{4}|\n          (?:\n            1[0-8]|\n            4[12]|\n            5[236]|\n            6[1-7]|\n            7[246]|\n            8[2-4]\n          )\\d{6}\n        "), possibleLength := [8], possibleLocalLength := [6, 7], example? := some (str% "11234567") },
    mobile := some { nationalNumber := some (str% "9\\d{8}"), possibleLength := [9], example? := some (str% "912345678") },
    tollFree := some { nationalNumber := some (str% "800\\d{5}"), possibleLength := [8], example? := some (str% "80012345") },
    premiumRate := some { nationalNumber := some (str% "805\\d{5}"), possibleLength := [8], example? := some (str% "80512345") },
    sharedCost := some { nationalNumber := some (str% "801\\d{5}"), possibleLength := [8], example? := some (str% "80112345") },
    personalNumber := some { nationalNumber := some (str% "80[24]\\d{5}"), possibleLength := [8], example? := some (str% "80212345") },
    id := some (str% "PE"),
    countryCode := some 51,
    internationalPrefix := some (str% "00|19(?:1[124]|77|90)00"),
    preferredInternationalPrefix := some (str% "00"),
    nationalPrefix := some (str% "0"),
    preferredExtensionPrefix := some (str% " Anexo "),
    formats := [
      { pattern := some (str% "(\\d{3})(\\d{5})"), format := some (str% "$1 $2"), leadingDigits := [str% "80"], nationalPrefixFormattingRule := some (str% "($NP$FG)") },
      { pattern := some (str% "(\\d)(\\d{7})"), format := some (str% "$1 $2"), leadingDigits := [str% "1"], nationalPrefixFormattingRule := some (str% "($NP$FG)") },
      { pattern := some (str% "(\\d{2})(\\d{6})"), format := some (str% "$1 $2"), leadingDigits := [str% "[4-8]"], nationalPrefixFormattingRule := some (str% "($NP$FG)") },
      { pattern := some (str% "(\\d{3})(\\d{3})(\\d{3})"), format := some (str% "$1 $2 $3"), leadingDigits := [str% "9"] }],
    internationalFormats := [
      { pattern := some (str% "(\\d{3})(\\d{5})"), format := some (str% "$1 $2"), leadingDigits := [str% "80"], nationalPrefixFormattingRule := some (str% "($NP$FG)") },
      { pattern := some (str% "(\\d)(\\d{7})"), format := some (str% "$1 $2"), leadingDigits := [str% "1"], nationalPrefixFormattingRule := some (str% "($NP$FG)") },
      { pattern := some (str% "(\\d{2})(\\d{6})"), format := some (str% "$1 $2"), leadingDigits := [str% "[4-8]"], nationalPrefixFormattingRule := some (str% "($NP$FG)") },
      { pattern := some (str% "(\\d{3})(\\d{3})(\\d{3})"), format := some (str% "$1 $2 $3"), leadingDigits := [str% "9"] }],
    mobileNumberPortable := true }

/-- territory id=PF countryCode=689 -/
noncomputable def PF : Loader.Metadata :=
  { general := some { nationalNumber := some (str% "\n          4\\d{5}(?:\n            \\d{2}\n          )?|\n          8\\d{7,8}\n        ") },
    fixedLine := some { nationalNumber := some (str% "\n          4(?:\n            0[4-689]|\n            9[4-68]\n          )\\d{5}\n        "), possibleLength := [8], example? := some (str% "40412345") },
    mobile := some { nationalNumber := some (str% "8[7-9]\\d{6}"), possibleLength := [8], example? := some (str% "87123456") },
    tollFree := some { nationalNumber := some (str% "80[0-5]\\d{6}"), possibleLength := [9], example? := some (str% "800012345") },
    voip := some { nationalNumber := some (str% "499\\d{5}"), possibleLength := [8], example? := some (str% "49901234") },
    uan := some { nationalNumber := some (str% "44\\d{4}"), possibleLength := [6], example? := some (str% "440123") },
    noInternational := some { nationalNumber := some (str% "44\\d{4}"), possibleLength := [6] },
    id := some (str% "PF"),
    countryCode := some 689,
    internationalPrefix := some (str% "00"),
    formats := [
      { pattern := some (str% "(\\d{2})(\\d{2})(\\d{2})"), format := some (str% "$1 $2 $3"), leadingDigits := [str% "44"] },
      { pattern := some (str% "(\\d{2})(\\d{2})(\\d{2})(\\d{2})"), format := some (str% "$1 $2 $3 $4"), leadingDigits := [str% "\n            4|\n            8[7-9]\n          "] },
      { pattern := some (str% "(\\d{3})(\\d{2})(\\d{2})(\\d{2})"), format := some (str% "$1 $2 $3 $4"), leadingDigits := [str% "8"] }],
    internationalFormats := [
      { pattern := some (str% "(\\d{2})(\\d{2})(\\d{2})"), format := some (str% "$1 $2 $3"), leadingDigits := [str% "44"] },
      { pattern := some (str% "(\\d{2})(\\d{2})(\\d{2})(\\d{2})"), format := some (str% "$1 $2 $3 $4"), leadingDigits := [str% "\n            4|\n            8[7-9]\n          "] },
      { pattern := some (str% "(\\d{3})(\\d{2})(\\d{2})(\\d{2})"), format := some (str% "$1 $2 $3 $4"), leadingDigits := [str% "8"] }] }

/-- territory id=PG countryCode=675 -/
noncomputable def PG : Loader.Metadata :=
  { general := some { nationalNumber := some (str% "\n          (?:\n            180|\n            [78]\\d{3}\n          )\\d{4}|\n          (?:\n            [2-589]\\d|\n            64\n          )\\d{5}\n        ") },
    fixedLine := some { nationalNumber := some (str% "\n          (?:\n            (?:\n              3[0-2]|\n              4[257]|\n              5[34]|\n              9[78]\n            )\\d|\n            64[1-9]|\n            85[02-46-9]\n          )\\d{4}\n        "), possibleLength := [7], example? := some (str% "3123456") },
    mobile := some { nationalNumber := some (str% "\n          (?:\n            7\\d|\n            8[1-48]\n          )\\d{6}\n        "), possibleLength := [8], example? := some (str% "70123456") },
    tollFree := some { nationalNumber := some (str% "180\\d{4}"), possibleLength := [7], example? := some (str% "1801234") },
    voip := some { nationalNumber := some (str% "\n          2(?:\n            0[0-57]|\n            7[568]\n          )\\d{4}\n        "), possibleLength := [7], example? := some (str% "2751234") },
    pager := some { nationalNumber := some (str% "27[01]\\d{4}"), possibleLength := [7], example? := some (str% "2700123") },
    id := some (str% "PG"),
    countryCode := some 675,
    internationalPrefix := some (str% "00|140[1-3]"),
    preferredInternationalPrefix := some (str% "00"),
    formats := [
      { pattern := some (str% "(\\d{3})(\\d{4})"), format := some (str% "$1 $2"), leadingDigits := [str% "\n            18|\n            [2-69]|\n            85\n          "] },
      { pattern := some (str% "(\\d{4})(\\d{4})"), format := some (str% "$1 $2"), leadingDigits := [str% "[78]"] }],
    internationalFormats := [
      { pattern := some (str% "(\\d{3})(\\d{4})"), format := some (str% "$1 $2"), leadingDigits := [str% "\n            18|\n            [2-69]|\n            85\n          "] },
      { pattern := some (str% "(\\d{4})(\\d{4})"), format := some (str% "$1 $2"), leadingDigits := [str% "[78]"] }] }

/-- territory id=PH countryCode=63 -/
noncomputable def PH : Loader.Metadata :=
  { general := some { nationalNumber := some (str% "\n          (?:\n            [2-7]|\n            9\\d\n          )\\d{8}|\n          2\\d{5}|\n          (?:\n            1800|\n            8\n          )\\d{7,9}\n        ") },
    fixedLine := some { nationalNumber := some (str% "\n          (?:\n            (?:\n              2[3-8]|\n              3[2-68]|\n              4[2-9]|\n              5[2-6]|\n              6[2-58]|\n              7[24578]\n            )\\d{3}|\n            88(?:\n              22\\d\\d|\n              42\n            )\n          )\\d{4}|\n          (?:\n            2|\n            8[2-8]\\d\\d\n          )\\d{5}\n        "), possibleLength := [6, 8, 9, 10], possibleLocalLength := [4, 5, 7], example? := some (str% "232345678") },
    mobile := some { nationalNumber := some (str% "\n          (?:\n            8(?:\n              1[37]|\n              9[5-8]\n            )|\n            9(?:\n              0[5-9]|\n              1[0-24-9]|\n              [235-7]\\d|\n              4[2-9]|\n              8[135-9]|\n              9[1-9]\n            )\n          )\\d{7}\n        "), possibleLength := [10], example? := some (str% "9051234567") },
    tollFree := some { nationalNumber := some (str% "1800\\d{7,9}"), possibleLength := [11, 12, 13], example? := some (str% "180012345678") },
    id := some (str% "PH"),
    countryCode := some 63,
    internationalPrefix := some (str% "00"),
    nationalPrefix := some (str% "0"),
    formats := [
      { pattern := some (str% "(\\d)(\\d{5})"), format := some (str% "$1 $2"), leadingDigits := [str% "2"], nationalPrefixFormattingRule := some (str% "($NP$FG)") },
      { pattern := some (str% "(\\d{4})(\\d{4,6})"), format := some (str% "$1 $2"), leadingDigits := [str% "\n            3(?:\n              23|\n              39|\n              46\n            )|\n            4(?:\n              2[3-6]|\n              [35]9|\n              4[26]|\n              76\n            )|\n            544|\n            88[245]|\n            (?:\n              52|\n              64|\n              86\n            )2\n          ", str% "\n            3(?:\n              230|\n              397|\n              461\n            )|\n            4(?:\n              2(?:\n                35|\n                [46]4|\n                51\n              )|\n              396|\n              4(?:\n                22|\n                63\n              )|\n              59[347]|\n              76[15]\n            )|\n            5(?:\n              221|\n              446\n            )|\n            642[23]|\n            8(?:\n              622|\n              8(?:\n                [24]2|\n                5[13]\n              )\n            )\n          "], nationalPrefixFormattingRule := some (str% "($NP$FG)") },
      { pattern := some (str% "(\\d{5})(\\d{4})"), format := some (str% "$1 $2"), leadingDigits := [str% "\n            346|\n            4(?:\n              27|\n              9[35]\n            )|\n            883\n          ", str% "\n            3469|\n            4(?:\n              279|\n              9(?:\n                30|\n                56\n              )\n            )|\n            8834\n          "], nationalPrefixFormattingRule := some (str% "($NP$FG)") },
      { pattern := some (str% "(\\d)(\\d{4})(\\d{4})"), format := some (str% "$1 $2 $3"), leadingDigits := [str% "2"], nationalPrefixFormattingRule := some (str% "($NP$FG)") },
      { pattern := some (str% "(\\d{2})(\\d{3})(\\d{4})"), format := some (str% "$1 $2 $3"), leadingDigits := [str% "\n            [3-7]|\n            8[2-8]\n          "], nationalPrefixFormattingRule := some (str% "($NP$FG)") },
      { pattern := some (str% "(\\d{3})(\\d{3})(\\d{4})"), format := some (str% "$1 $2 $3"), leadingDigits := [str% "[89]"], nationalPrefixFormattingRule := some (str% "$NP$FG") },
      { pattern := some (str% "(\\d{4})(\\d{3})(\\d{4})"), format := some (str% "$1 $2 $3"), leadingDigits := [str% "1"] },
      { pattern := some (str% "(\\d{4})(\\d{1,2})(\\d{3})(\\d{4})"), format := some (str% "$1 $2 $3 $4"), leadingDigits := [str% "1"] }],
    internationalFormats := [
      { pattern := some (str% "(\\d)(\\d{5})"), format := some (str% "$1 $2"), leadingDigits := [str% "2"], nationalPrefixFormattingRule := some (str% "($NP$FG)") },
      { pattern := some (str% "(\\d{4})(\\d{4,6})"), format := some (str% "$1 $2"), leadingDigits := [str% "\n            3(?:\n              23|\n              39|\n              46\n            )|\n            4(?:\n              2[3-6]|\n              [35]9|\n              4[26]|\n              76\n            )|\n            544|\n            88[245]|\n            (?:\n              52|\n              64|\n              86\n            )2\n          ", str% "\n            3(?:\n              230|\n              397|\n              461\n            )|\n            4(?:\n              2(?:\n                35|\n                [46]4|\n                51\n              )|\n              396|\n              4(?:\n                22|\n                63\n              )|\n              59[347]|\n              76[15]\n            )|\n            5(?:\n              221|\n              446\n            )|\n            642[23]|\n            8(?:\n              622|\n              8(?:\n                [24]2|\n                5[13]\n              )\n            )\n          "], nationalPrefixFormattingRule := some (str% "($NP$FG)") },
      { pattern := some (str% "(\\d{5})(\\d{4})"), format := some (str% "$1 $2"), leadingDigits := [str% "\n            346|\n            4(?:\n              27|\n              9[35]\n            )|\n            883\n          ", str% "\n            3469|\n            4(?:\n              279|\n              9(?:\n                30|\n                56\n              )\n            )|\n            8834\n          "], nationalPrefixFormattingRule := some (str% "($NP$FG)") },
      { pattern := some (str% "(\\d)(\\d{4})(\\d{4})"), format := some (str% "$1 $2 $3"), leadingDigits := [str% "2"], nationalPrefixFormattingRule := some (str% "($NP$FG)") },
      { pattern := some (str% "(\\d{2})(\\d{3})(\\d{4})"), format := some (str% "$1 $2 $3"), leadingDigits := [str% "\n            [3-7]|\n            8[2-8]\n          "], nationalPrefixFormattingRule := some (str% "($NP$FG)") },
      { pattern := some (str% "(\\d{3})(\\d{3})(\\d{4})"), format := some (str% "$1 $2 $3"), leadingDigits := [str% "[89]"], nationalPrefixFormattingRule := some (str% "$NP$FG") },
      { pattern := some (str% "(\\d{4})(\\d{3})(\\d{4})"), format := some (str% "$1 $2 $3"), leadingDigits := [str% "1"] },
      { pattern := some (str% "(\\d{4})(\\d{1,2})(\\d{3})(\\d{4})"), format := some (str% "$1 $2 $3 $4"), leadingDigits := [str% "1"] }] }

/-- the territories of this module, in document order -/
noncomputable def chunk11 : List Loader.Metadata :=
  [NA, NC, NE, NF, NG, NI, NL, NO, NP, NR, NU, NZ, OM, PA, PE, PF, PG, PH]

end Phone.Data
