import Verif.Model.Database
/-! Territories of `/repo/assets/PhoneNumberMetadata.xml` as `/repo/src/metadata/loader.rs` reads them.
Generated by `tools/gen_data.py`; do not edit. -/

set_option maxRecDepth 100000
namespace Phone.Data

/-- territory id=BM countryCode=1 -/
noncomputable def BM : Loader.Metadata :=
  { general := some { nationalNumber := some (str% "\n          (?:\n            441|\n            [58]\\d\\d|\n            900\n          )\\d{7}\n        ") },
    fixedLine := some { nationalNumber := some (str% "\n          441(?:\n            [46]\\d\\d|\n            5(?:\n              4\\d|\n              60|\n              89\n            )\n          )\\d{4}\n        "), possibleLength := [10], possibleLocalLength := [7], example? := some (str% "4414123456") },
    mobile := some { nationalNumber := some (str% "\n          441(?:\n            [2378]\\d|\n            5[0-39]|\n            9[02]\n          )\\d{5}\n        "), possibleLength := [10], possibleLocalLength := [7], example? := some (str% "4413701234") },
    tollFree := some { nationalNumber := some (str% "\n          8(?:\n            00|\n            33|\n            44|\n            55|\n            66|\n            77|\n            88\n          )[2-9]\\d{6}\n        "), possibleLength := [10], example? := some (str% "8002123456") },
    premiumRate := some { nationalNumber := some (str% "900[2-9]\\d{6}"), possibleLength := [10], example? := some (str% "9002123456") },
    personalNumber := some { nationalNumber := some (str% "\n          52(?:\n            3(?:\n              [2-46-9][02-9]\\d|\n              5(?:\n                [02-46-9]\\d|\n                5[0-46-9]\n              )\n            )|\n            4(?:\n              [2-478][02-9]\\d|\n              5(?:\n                [034]\\d|\n                2[024-9]|\n                5[0-46-9]\n              )|\n              6(?:\n                0[1-9]|\n                [2-9]\\d\n              )|\n              9(?:\n                [05-9]\\d|\n                2[0-5]|\n                49\n              )\n            )\n          )\\d{4}|\n          52[34][2-9]1[02-9]\\d{4}|\n          5(?:\n            00|\n            2[125-9]|\n            3[23]|\n            44|\n            66|\n            77|\n            88\n          )[2-9]\\d{6}\n        "), possibleLength := [10], example? := some (str% "5002345678") },
    id := some (str% "BM"),
    countryCode := some 1,
    internationalPrefix := some (str% "011"),
    nationalPrefix := some (str% "1"),
    nationalPrefixForParsing := some (str% "([2-9]\\d{6})$|1"),
    nationalPrefixTransformRule := some (str% "441$1"),
    leadingDigits := some (str% "441"),
    mobileNumberPortable := true }

/-- territory id=BN countryCode=673 -/
noncomputable def BN : Loader.Metadata :=
  { general := some { nationalNumber := some (str% "[2-578]\\d{6}") },
    fixedLine := some { nationalNumber := some (str% "\n          22[0-7]\\d{4}|\n          (?:\n            2[013-9]|\n            [34]\\d|\n            5[0-25-9]\n          )\\d{5}\n        "), possibleLength := [7], example? := some (str% "2345678") },
    mobile := some { nationalNumber := some (str% "\n          (?:\n            22[89]|\n            [78]\\d\\d\n          )\\d{4}\n        "), possibleLength := [7], example? := some (str% "7123456") },
    voip := some { nationalNumber := some (str% "5[34]\\d{5}"), possibleLength := [7], example? := some (str% "5345678") },
    id := some (str% "BN"),
    countryCode := some 673,
    internationalPrefix := some (str% "00"),
    formats := [
      { pattern := some (str% "(\\d{3})(\\d{4})"), format := some (str% "$1 $2"), leadingDigits := [str% "[2-578]"] }],
    internationalFormats := [
      { pattern := some (str% "(\\d{3})(\\d{4})"), format := some (str% "$1 $2"), leadingDigits := [str% "[2-578]"] }] }

/-- territory id=BO countryCode=591 -/
noncomputable def BO : Loader.Metadata :=
  { general := some { nationalNumber := some (str% "\n          (?:\n            [2-7]\\d\\d|\n            8001\n          )\\d{5}\n        ") },
    fixedLine := some { nationalNumber := some (str% "\n          (?:\n            2(?:\n              2\\d\\d|\n              5(?:\n                11|\n                [258]\\d|\n                9[67]\n              )|\n              6(?:\n                12|\n                2\\d|\n                9[34]\n              )|\n              8(?:\n                2[34]|\n                39|\n                62\n              )\n            )|\n            3(?:\n              3\\d\\d|\n              4(?:\n                6\\d|\n                8[24]\n              )|\n              8(?:\n                25|\n                42|\n                5[257]|\n                86|\n                9[25]\n              )|\n              9(?:\n                [27]\\d|\n                3[2-4]|\n                4[248]|\n                5[24]|\n                6[2-6]\n              )\n            )|\n            4(?:\n              4\\d\\d|\n              6(?:\n                11|\n                [24689]\\d|\n                72\n              )\n            )\n          )\\d{4}\n        "), possibleLength := [8], possibleLocalLength := [7], example? := some (str% "22123456") },
    mobile := some { nationalNumber := some (str% "\n          (?:\n            57|\n            [67]\\d\n          )\\d{6}\n        "), possibleLength := [8], example? := some (str% "71234567") },
    tollFree := some { nationalNumber := some (str% "8001[07]\\d{4}"), possibleLength := [9], example? := some (str% "800171234") },
    voip := some { nationalNumber := some (str% "50\\d{6}"), possibleLength := [8], possibleLocalLength := [7], example? := some (str% "50123456") },
    noInternational := some { nationalNumber := some (str% "8001[07]\\d{4}"), possibleLength := [9] },
    id := some (str% "BO"),
    countryCode := some 591,
    internationalPrefix := some (str% "00(?:1\\d)?"),
    nationalPrefix := some (str% "0"),
    nationalPrefixForParsing := some (str% "0(1\\d)?"),
    formats := [
      { pattern := some (str% "(\\d)(\\d{7})"), format := some (str% "$1 $2"), leadingDigits := [str% "\n            [23]|\n            4[46]|\n            50\n          "], domesticCarrier := some (str% "$NP$CC $FG") },
      { pattern := some (str% "(\\d{8})"), format := some (str% "$1"), leadingDigits := [str% "[5-7]"], domesticCarrier := some (str% "$NP$CC $FG") },
      { pattern := some (str% "(\\d{3})(\\d{2})(\\d{4})"), format := some (str% "$1 $2 $3"), leadingDigits := [str% "8"], domesticCarrier := some (str% "$NP$CC $FG") }],
    internationalFormats := [
      { pattern := some (str% "(\\d)(\\d{7})"), format := some (str% "$1 $2"), leadingDigits := [str% "\n            [23]|\n            4[46]|\n            50\n          "], domesticCarrier := some (str% "$NP$CC $FG") },
      { pattern := some (str% "(\\d{8})"), format := some (str% "$1"), leadingDigits := [str% "[5-7]"], domesticCarrier := some (str% "$NP$CC $FG") },
      { pattern := some (str% "(\\d{3})(\\d{2})(\\d{4})"), format := some (str% "$1 $2 $3"), leadingDigits := [str% "8"], domesticCarrier := some (str% "$NP$CC $FG") }] }

/-- territory id=BQ countryCode=599 -/
noncomputable def BQ : Loader.Metadata :=
  { general := some { nationalNumber := some (str% "\n          (?:\n            [34]1|\n            7\\d\n          )\\d{5}\n        ") },
    fixedLine := some { nationalNumber := some (str% "\n          (?:\n            318[023]|\n            41(?:\n              6[023]|\n              70\n            )|\n            7(?:\n              1[578]|\n              2[05]|\n              50\n            )\\d\n          )\\d{3}\n        "), possibleLength := [7], example? := some (str% "7151234") },
    mobile := some { nationalNumber := some (str% "\n          (?:\n            31(?:\n              8[14-8]|\n              9[14578]\n            )|\n            416[14-9]|\n            7(?:\n              0[01]|\n              7[07]|\n              8\\d|\n              9[056]\n            )\\d\n          )\\d{3}\n        "), possibleLength := [7], example? := some (str% "3181234") },
    id := some (str% "BQ"),
    countryCode := some 599,
    internationalPrefix := some (str% "00"),
    leadingDigits := some (str% "[347]") }

/-- territory id=BR countryCode=55 -/
noncomputable def BR : Loader.Metadata :=
  { general := some { nationalNumber := some (str% "\n          [1-467]\\d{9,10}|\n          55[0-46-9]\\d{8}|\n          [34]\\d{7}|\n          55\\d{7,8}|\n          (?:\n            5[0-46-9]|\n            [89]\\d\n          )\\d{7,9}\n        ") },
    fixedLine := some { nationalNumber := some (str% "\n          (?:\n            [14689][1-9]|\n            2[12478]|\n            3[1-578]|\n            5[13-5]|\n            7[13-579]\n          )[2-5]\\d{7}\n        "), possibleLength := [10], possibleLocalLength := [8], example? := some (str% "1123456789") },
    mobile := some { nationalNumber := some (str% "\n          (?:\n            [14689][1-9]|\n            2[12478]|\n            3[1-578]|\n            5[13-5]|\n            7[13-579]\n          )(?:\n            7|\n            9\\d\n          )\\d{7}\n        "), possibleLength := [10, 11], possibleLocalLength := [8, 9], example? := some (str% "11961234567") },
    tollFree := some { nationalNumber := some (str% "800\\d{6,7}"), possibleLength := [9, 10], example? := some (str% "800123456") },
    premiumRate := some { nationalNumber := some (str% "[59]00\\d{6,7}"), possibleLength := [9, 10], example? := some (str% "500123456") },
    sharedCost := some { nationalNumber := some (str% "\n          (?:\n            30[03]\\d{3}|\n            4(?:\n              0(?:\n                0\\d|\n                20\n              )|\n              370|\n              864\n            )\n          )\\d{4}|\n          300\\d{5}\n        "), possibleLength := [8, 10], example? := some (str% "40041234") },
    noInternational := some { nationalNumber := some (str% "\n          (?:\n            30[03]\\d{3}|\n            4(?:\n              0(?:\n                0\\d|\n                20\n              )|\n              864\n            )\n          )\\d{4}|\n          800\\d{6,7}|\n          300\\d{5}\n        "), possibleLength := [8, 9, 10] },
    id := some (str% "BR"),
    countryCode := some 55,
    internationalPrefix := some (str% "00(?:1[245]|2[1-35]|31|4[13]|[56]5|99)"),
    nationalPrefix := some (str% "0"),
    nationalPrefixForParsing := some (str% "\n                 (?:\n                   0|\n                   90\n                 )(?:\n                   (\n                     1[245]|\n                     2[1-35]|\n                     31|\n                     4[13]|\n                     [56]5|\n                     99\n                   )(\n                     \\d{10,11}\n                   )\n                 )?"),
    nationalPrefixTransformRule := some (str% "$2"),
    formats := [
      { pattern := some (str% "(\\d{3,6})"), format := some (str% "$1"), leadingDigits := [str% "\n            1(?:\n              1[25-8]|\n              2[357-9]|\n              3[02-68]|\n              4[12568]|\n              5|\n              6[0-8]|\n              8[015]|\n              9[0-47-9]\n            )|\n            321|\n            610\n          "] },
      { pattern := some (str% "(\\d{4})(\\d{4})"), format := some (str% "$1-$2"), leadingDigits := [str% "\n            300|\n            4(?:\n              0[02]|\n              37|\n              86\n            )\n          ", str% "\n            300|\n            4(?:\n              0(?:\n                0|\n                20\n              )|\n              370|\n              864\n            )\n          "] },
      { pattern := some (str% "(\\d{4})(\\d{4})"), format := some (str% "$1-$2"), leadingDigits := [str% "[2-57]", str% "\n            [2357]|\n            4(?:\n              [0-24-9]|\n              3(?:\n                [0-689]|\n                7[1-9]\n              )\n            )\n          "] },
      { pattern := some (str% "(\\d{3})(\\d{2,3})(\\d{4})"), format := some (str% "$1 $2 $3"), leadingDigits := [str% "\n            (?:\n              [358]|\n              90\n            )0\n          "], nationalPrefixFormattingRule := some (str% "$NP$FG") },
      { pattern := some (str% "(\\d{5})(\\d{4})"), format := some (str% "$1-$2"), leadingDigits := [str% "9"] },
      { pattern := some (str% "(\\d{2})(\\d{4})(\\d{4})"), format := some (str% "$1 $2-$3"), leadingDigits := [str% "\n            (?:\n              [14689][1-9]|\n              2[12478]|\n              3[1-578]|\n              5[13-5]|\n              7[13-579]\n            )[2-57]\n          "], nationalPrefixFormattingRule := some (str% "($FG)"), domesticCarrier := some (str% "$NP $CC ($FG)") },
      { pattern := some (str% "(\\d{2})(\\d{5})(\\d{4})"), format := some (str% "$1 $2-$3"), leadingDigits := [str% "\n            [16][1-9]|\n            [2-57-9]\n          "], nationalPrefixFormattingRule := some (str% "($FG)"), domesticCarrier := some (str% "$NP $CC ($FG)") }],
    internationalFormats := [
      { pattern := some (str% "(\\d{4})(\\d{4})"), format := some (str% "$1-$2"), leadingDigits := [str% "\n            300|\n            4(?:\n              0[02]|\n              37|\n              86\n            )\n          ", str% "\n            300|\n            4(?:\n              0(?:\n                0|\n                20\n              )|\n              370|\n              864\n            )\n          "] },
      { pattern := some (str% "(\\d{3})(\\d{2,3})(\\d{4})"), format := some (str% "$1 $2 $3"), leadingDigits := [str% "\n            (?:\n              [358]|\n              90\n            )0\n          "], nationalPrefixFormattingRule := some (str% "$NP$FG") },
      { pattern := some (str% "(\\d{2})(\\d{4})(\\d{4})"), format := some (str% "$1 $2-$3"), leadingDigits := [str% "\n            (?:\n              [14689][1-9]|\n              2[12478]|\n              3[1-578]|\n              5[13-5]|\n              7[13-579]\n            )[2-57]\n          "], nationalPrefixFormattingRule := some (str% "($FG)"), domesticCarrier := some (str% "$NP $CC ($FG)") },
      { pattern := some (str% "(\\d{2})(\\d{5})(\\d{4})"), format := some (str% "$1 $2-$3"), leadingDigits := [str% "\n            [16][1-9]|\n            [2-57-9]\n          "], nationalPrefixFormattingRule := some (str% "($FG)"), domesticCarrier := some (str% "$NP $CC ($FG)") }],
    mobileNumberPortable := true }

/-- territory id=BS countryCode=1 -/
noncomputable def BS : Loader.Metadata :=
  { general := some { nationalNumber := some (str% "\n          (?:\n            242|\n            [58]\\d\\d|\n            900\n          )\\d{7}\n        ") },
    fixedLine := some { nationalNumber := some (str% "\n          242(?:\n            3(?:\n              02|\n              [236][1-9]|\n              4[0-24-9]|\n              5[0-68]|\n              7[347]|\n              8[0-4]|\n              9[2-467]\n            )|\n            461|\n            502|\n            6(?:\n              0[1-5]|\n              12|\n              2[013]|\n              [45]0|\n              7[67]|\n              8[78]|\n              9[89]\n            )|\n            7(?:\n              02|\n              88\n            )\n          )\\d{4}\n        "), possibleLength := [10], possibleLocalLength := [7], example? := some (str% "2423456789") },
    mobile := some { nationalNumber := some (str% "\n          242(?:\n            3(?:\n              5[79]|\n              7[56]|\n              95\n            )|\n            4(?:\n              [23][1-9]|\n              4[1-35-9]|\n              5[1-8]|\n              6[2-8]|\n              7\\d|\n              81\n            )|\n            5(?:\n              2[45]|\n              3[35]|\n              44|\n              5[1-46-9]|\n              65|\n              77\n            )|\n            6[34]6|\n            7(?:\n              27|\n              38\n            )|\n            8(?:\n              0[1-9]|\n              1[02-9]|\n              2\\d|\n              3[0-4]|\n              [89]9\n            )\n          )\\d{4}\n        "), possibleLength := [10], possibleLocalLength := [7], example? := some (str% "2423591234") },
    tollFree := some { nationalNumber := some (str% "\n          242300\\d{4}|\n          8(?:\n            00|\n            33|\n            44|\n            55|\n            66|\n            77|\n            88\n          )[2-9]\\d{6}\n        "), possibleLength := [10], possibleLocalLength := [7], example? := some (str% "8002123456") },
    premiumRate := some { nationalNumber := some (str% "900[2-9]\\d{6}"), possibleLength := [10], example? := some (str% "9002123456") },
    personalNumber := some { nationalNumber := some (str% "\n          52(?:\n            3(?:\n              [2-46-9][02-9]\\d|\n              5(?:\n                [02-46-9]\\d|\n                5[0-46-9]\n              )\n            )|\n            4(?:\n              [2-478][02-9]\\d|\n              5(?:\n                [034]\\d|\n                2[024-9]|\n                5[0-46-9]\n              )|\n              6(?:\n                0[1-9]|\n                [2-9]\\d\n              )|\n              9(?:\n                [05-9]\\d|\n                2[0-5]|\n                49\n              )\n            )\n          )\\d{4}|\n          52[34][2-9]1[02-9]\\d{4}|\n          5(?:\n            00|\n            2[125-9]|\n            3[23]|\n            44|\n            66|\n            77|\n            88\n          )[2-9]\\d{6}\n        "), possibleLength := [10], example? := some (str% "5002345678") },
    uan := some { nationalNumber := some (str% "242225\\d{4}"), possibleLength := [10], example? := some (str% "2422250123") },
    id := some (str% "BS"),
    countryCode := some 1,
    internationalPrefix := some (str% "011"),
    nationalPrefix := some (str% "1"),
    nationalPrefixForParsing := some (str% "([3-8]\\d{6})$|1"),
    nationalPrefixTransformRule := some (str% "242$1"),
    leadingDigits := some (str% "242"),
    mobileNumberPortable := true }

/-- territory id=BT countryCode=975 -/
noncomputable def BT : Loader.Metadata :=
  { general := some { nationalNumber := some (str% "\n          [178]\\d{7}|\n          [2-8]\\d{6}\n        ") },
    fixedLine := some { nationalNumber := some (str% "\n          (?:\n            2[3-6]|\n            [34][5-7]|\n            5[236]|\n            6[2-46]|\n            7[246]|\n            8[2-4]\n          )\\d{5}\n        "), possibleLength := [7], possibleLocalLength := [6], example? := some (str% "2345678") },
    mobile := some { nationalNumber := some (str% "\n          (?:\n            1[67]|\n            [78]7\n          )\\d{6}\n        "), possibleLength := [8], example? := some (str% "17123456") },
    id := some (str% "BT"),
    countryCode := some 975,
    internationalPrefix := some (str% "00"),
    formats := [
      { pattern := some (str% "(\\d{3})(\\d{3})"), format := some (str% "$1 $2"), leadingDigits := [str% "[2-7]"] },
      { pattern := some (str% "(\\d)(\\d{3})(\\d{3})"), format := some (str% "$1 $2 $3"), leadingDigits := [str% "\n            [2-6]|\n            7[246]|\n            8[2-4]\n          "] },
      { pattern := some (str% "(\\d{2})(\\d{2})(\\d{2})(\\d{2})"), format := some (str% "$1 $2 $3 $4"), leadingDigits := [str% "\n            1[67]|\n            [78]\n          "] }],
    internationalFormats := [
      { pattern := some (str% "(\\d)(\\d{3})(\\d{3})"), format := some (str% "$1 $2 $3"), leadingDigits := [str% "\n            [2-6]|\n            7[246]|\n            8[2-4]\n          "] },
      { pattern := some (str% "(\\d{2})(\\d{2})(\\d{2})(\\d{2})"), format := some (str% "$1 $2 $3 $4"), leadingDigits := [str% "\n            1[67]|\n            [78]\n          "] }] }

/-- territory id=BW countryCode=267 -/
noncomputable def BW : Loader.Metadata :=
  { general := some { nationalNumber := some (str% "\n          (?:\n            0800|\n            (?:\n              [37]|\n              800\n            )\\d\n          )\\d{6}|\n          (?:\n            [2-6]\\d|\n            90\n          )\\d{5}\n        ") },
    fixedLine := some { nationalNumber := some (str% "\n          (?:\n            2(?:\n              4[0-48]|\n              6[0-24]|\n              9[0578]\n            )|\n            3(?:\n              1[0-35-9]|\n              55|\n              [69]\\d|\n              7[013]|\n              81\n            )|\n            4(?:\n              6[03]|\n              7[1267]|\n              9[0-5]\n            )|\n            5(?:\n              3[03489]|\n              4[0489]|\n              7[1-47]|\n              88|\n              9[0-49]\n            )|\n            6(?:\n              2[1-35]|\n              5[149]|\n              8[013467]\n            )\n          )\\d{4}\n        "), possibleLength := [7], example? := some (str% "2401234") },
    mobile := some { nationalNumber := some (str% "\n          (?:\n            321|\n            7(?:\n              [1-8]\\d|\n              9[03]\n            )\n          )\\d{5}\n        "), possibleLength := [8], example? := some (str% "71123456") },
    tollFree := some { nationalNumber := some (str% "\n          (?:\n            0800|\n            800\\d\n          )\\d{6}\n        "), possibleLength := [10], example? := some (str% "0800012345") },
    premiumRate := some { nationalNumber := some (str% "90\\d{5}"), possibleLength := [7], example? := some (str% "9012345") },
    voip := some { nationalNumber := some (str% "\n          79(?:\n            1(?:\n              [0-2]\\d|\n              3[0-8]\n            )|\n            2[0-7]\\d\n          )\\d{3}\n        "), possibleLength := [8], example? := some (str% "79101234") },
    id := some (str% "BW"),
    countryCode := some 267,
    internationalPrefix := some (str% "00"),
    formats := [
      { pattern := some (str% "(\\d{2})(\\d{5})"), format := some (str% "$1 $2"), leadingDigits := [str% "90"] },
      { pattern := some (str% "(\\d{3})(\\d{4})"), format := some (str% "$1 $2"), leadingDigits := [str% "\n            [24-6]|\n            3[15-9]\n          "] },
      { pattern := some (str% "(\\d{2})(\\d{3})(\\d{3})"), format := some (str% "$1 $2 $3"), leadingDigits := [str% "[37]"] },
      { pattern := some (str% "(\\d{4})(\\d{3})(\\d{3})"), format := some (str% "$1 $2 $3"), leadingDigits := [str% "0"] },
      { pattern := some (str% "(\\d{3})(\\d{4})(\\d{3})"), format := some (str% "$1 $2 $3"), leadingDigits := [str% "8"] }],
    internationalFormats := [
      { pattern := some (str% "(\\d{2})(\\d{5})"), format := some (str% "$1 $2"), leadingDigits := [str% "90"] },
      { pattern := some (str% "(\\d{3})(\\d{4})"), format := some (str% "$1 $2"), leadingDigits := [str% "\n            [24-6]|\n            3[15-9]\n          "] },
      { pattern := some (str% "(\\d{2})(\\d{3})(\\d{3})"), format := some (str% "$1 $2 $3"), leadingDigits := [str% "[37]"] },
      { pattern := some (str% "(\\d{4})(\\d{3})(\\d{3})"), format := some (str% "$1 $2 $3"), leadingDigits := [str% "0"] },
      { pattern := some (str% "(\\d{3})(\\d{4})(\\d{3})"), format := some (str% "$1 $2 $3"), leadingDigits := [str% "8"] }] }

/-- territory id=BY countryCode=375 -/
noncomputable def BY : Loader.Metadata :=
  { general := some { nationalNumber := some (str% "\n          (?:\n            [12]\\d|\n            33|\n            44|\n            902\n          )\\d{7}|\n          8(?:\n            0[0-79]\\d{5,7}|\n            [1-7]\\d{9}\n          )|\n          8(?:\n            1[0-489]|\n            [5-79]\\d\n          )\\d{7}|\n          8[1-79]\\d{6,7}|\n          8[0-79]\\d{5}|\n          8\\d{5}\n        ") },
    fixedLine := some { nationalNumber := some (str% "\n          (?:\n            1(?:\n              5(?:\n                1[1-5]|\n                [24]\\d|\n                6[2-4]|\n                9[1-7]\n              )|\n              6(?:\n                [235]\\d|\n                4[1-7]\n              )|\n              7\\d\\d\n            )|\n            2(?:\n              1(?:\n                [246]\\d|\n                3[0-35-9]|\n                5[1-9]\n              )|\n              2(?:\n                [235]\\d|\n                4[0-8]\n              )|\n              3(?:\n                [26]\\d|\n                3[02-79]|\n                4[024-7]|\n                5[03-7]\n              )\n            )\n          )\\d{5}\n        "), possibleLength := [9], possibleLocalLength := [5, 6, 7], example? := some (str% "152450911") },
    mobile := some { nationalNumber := some (str% "\n          (?:\n            2(?:\n              5[5-79]|\n              9[1-9]\n            )|\n            (?:\n              33|\n              44\n            )\\d\n          )\\d{6}\n        "), possibleLength := [9], example? := some (str% "294911911") },
    tollFree := some { nationalNumber := some (str% "\n          800\\d{3,7}|\n          8(?:\n            0[13]|\n            20\\d\n          )\\d{7}\n        "), possibleLength := [6, 7, 8, 9, 10, 11], example? := some (str% "8011234567") },
    premiumRate := some { nationalNumber := some (str% "\n          (?:\n            810|\n            902\n          )\\d{7}\n        "), possibleLength := [10], example? := some (str% "9021234567") },
    voip := some { nationalNumber := some (str% "249\\d{6}"), possibleLength := [9], example? := some (str% "249123456") },
    noInternational := some { nationalNumber := some (str% "\n          800\\d{3,7}|\n          (?:\n            8(?:\n              0[13]|\n              10|\n              20\\d\n            )|\n            902\n          )\\d{7}\n        "), possibleLength := [6, 7, 8, 9, 10, 11] },
    id := some (str% "BY"),
    countryCode := some 375,
    internationalPrefix := some (str% "810"),
    preferredInternationalPrefix := some (str% "8~10"),
    nationalPrefix := some (str% "8"),
    nationalPrefixForParsing := some (str% "0|80?"),
    formats := [
      { pattern := some (str% "(\\d{3})(\\d{3})"), format := some (str% "$1 $2"), leadingDigits := [str% "800"], nationalPrefixFormattingRule := some (str% "$NP $FG") },
      { pattern := some (str% "(\\d{3})(\\d{2})(\\d{2,4})"), format := some (str% "$1 $2 $3"), leadingDigits := [str% "800"], nationalPrefixFormattingRule := some (str% "$NP $FG") },
      { pattern := some (str% "(\\d{4})(\\d{2})(\\d{3})"), format := some (str% "$1 $2-$3"), leadingDigits := [str% "\n            1(?:\n              5[169]|\n              6[3-5]|\n              7[179]\n            )|\n            2(?:\n              1[35]|\n              2[34]|\n              3[3-5]\n            )\n          ", str% "\n            1(?:\n              5[169]|\n              6(?:\n                3[1-3]|\n                4|\n                5[125]\n              )|\n              7(?:\n                1[3-9]|\n                7[0-24-6]|\n                9[2-7]\n              )\n            )|\n            2(?:\n              1[35]|\n              2[34]|\n              3[3-5]\n            )\n          "], nationalPrefixFormattingRule := some (str% "$NP 0$FG") },
      { pattern := some (str% "(\\d{3})(\\d{2})(\\d{2})(\\d{2})"), format := some (str% "$1 $2-$3-$4"), leadingDigits := [str% "\n            1(?:\n              [56]|\n              7[467]\n            )|\n            2[1-3]\n          "], nationalPrefixFormattingRule := some (str% "$NP 0$FG") },
      { pattern := some (str% "(\\d{2})(\\d{3})(\\d{2})(\\d{2})"), format := some (str% "$1 $2-$3-$4"), leadingDigits := [str% "[1-4]"], nationalPrefixFormattingRule := some (str% "$NP 0$FG") },
      { pattern := some (str% "(\\d{3})(\\d{3,4})(\\d{4})"), format := some (str% "$1 $2 $3"), leadingDigits := [str% "[89]"], nationalPrefixFormattingRule := some (str% "$NP $FG") }],
    internationalFormats := [
      { pattern := some (str% "(\\d{3})(\\d{3})"), format := some (str% "$1 $2"), leadingDigits := [str% "800"], nationalPrefixFormattingRule := some (str% "$NP $FG") },
      { pattern := some (str% "(\\d{3})(\\d{2})(\\d{2,4})"), format := some (str% "$1 $2 $3"), leadingDigits := [str% "800"], nationalPrefixFormattingRule := some (str% "$NP $FG") },
      { pattern := some (str% "(\\d{4})(\\d{2})(\\d{3})"), format := some (str% "$1 $2-$3"), leadingDigits := [str% "\n            1(?:\n              5[169]|\n              6[3-5]|\n              7[179]\n            )|\n            2(?:\n              1[35]|\n              2[34]|\n              3[3-5]\n            )\n          ", str% "\n            1(?:\n              5[169]|\n              6(?:\n                3[1-3]|\n                4|\n                5[125]\n              )|\n              7(?:\n                1[3-9]|\n                7[0-24-6]|\n                9[2-7]\n              )\n            )|\n            2(?:\n              1[35]|\n              2[34]|\n              3[3-5]\n            )\n          "], nationalPrefixFormattingRule := some (str% "$NP 0$FG") },
      { pattern := some (str% "(\\d{3})(\\d{2})(\\d{2})(\\d{2})"), format := some (str% "$1 $2-$3-$4"), leadingDigits := [str% "\n            1(?:\n              [56]|\n              7[467]\n            )|\n            2[1-3]\n          "], nationalPrefixFormattingRule := some (str% "$NP 0$FG") },
      { pattern := some (str% "(\\d{2})(\\d{3})(\\d{2})(\\d{2})"), format := some (str% "$1 $2-$3-$4"), leadingDigits := [str% "[1-4]"], nationalPrefixFormattingRule := some (str% "$NP 0$FG") },
      { pattern := some (str% "(\\d{3})(\\d{3,4})(\\d{4})"), format := some (str% "$1 $2 $3"), leadingDigits := [str% "[89]"], nationalPrefixFormattingRule := some (str% "$NP $FG") }],
    mobileNumberPortable := true }

/-- territory id=BZ countryCode=501 -/
noncomputable def BZ : Loader.Metadata :=
  { general := some { nationalNumber := some (str% "\n          (?:\n            0800\\d|\n            [2-8]\n          )\\d{6}\n        ") },
    fixedLine := some { nationalNumber := some (str% "\n          (?:\n            2(?:\n              [02]\\d|\n              36|\n              [68]0\n            )|\n            [3-58](?:\n              [02]\\d|\n              [68]0\n            )|\n            7(?:\n              [02]\\d|\n              32|\n              [68]0\n            )\n          )\\d{4}\n        "), possibleLength := [7], example? := some (str% "2221234") },
    mobile := some { nationalNumber := some (str% "6[0-35-7]\\d{5}"), possibleLength := [7], example? := some (str% "6221234") },
    tollFree := some { nationalNumber := some (str% "0800\\d{7}"), possibleLength := [11], example? := some (str% "08001234123") },
    id := some (str% "BZ"),
    countryCode := some 501,
    internationalPrefix := some (str% "00"),
    formats := [
      { pattern := some (str% "(\\d{3})(\\d{4})"), format := some (str% "$1-$2"), leadingDigits := [str% "[2-8]"] },
      { pattern := some (str% "(\\d)(\\d{3})(\\d{4})(\\d{3})"), format := some (str% "$1-$2-$3-$4"), leadingDigits := [str% "0"] }],
    internationalFormats := [
      { pattern := some (str% "(\\d{3})(\\d{4})"), format := some (str% "$1-$2"), leadingDigits := [str% "[2-8]"] },
      { pattern := some (str% "(\\d)(\\d{3})(\\d{4})(\\d{3})"), format := some (str% "$1-$2-$3-$4"), leadingDigits := [str% "0"] }] }

/-- territory id=CA countryCode=1 -/
noncomputable def CA : Loader.Metadata :=
  { general := some { nationalNumber := some (str% "\n          [2-9]\\d{9}|\n          3\\d{6}\n        ") },
    fixedLine := some { nationalNumber := some (str% "\n          (?:\n            2(?:\n              04|\n              [23]6|\n              [48]9|\n              5[07]|\n              63\n            )|\n            3(?:\n              06|\n              43|\n              54|\n              6[578]|\n              82\n            )|\n            4(?:\n              03|\n              1[68]|\n              [26]8|\n              3[178]|\n              50|\n              74\n            )|\n            5(?:\n              06|\n              1[49]|\n              48|\n              79|\n              8[147]\n            )|\n            6(?:\n              04|\n              [18]3|\n              39|\n              47|\n              72\n            )|\n            7(?:\n              0[59]|\n              42|\n              53|\n              78|\n              8[02]\n            )|\n            8(?:\n              [06]7|\n              19|\n              25|\n              7[39]\n            )|\n            9(?:\n              0[25]|\n              42\n            )\n          )[2-9]\\d{6}\n        "), possibleLength := [10], possibleLocalLength := [7], example? := some (str% "5062345678") },
    mobile := some { nationalNumber := some (str% "\n          (?:\n            2(?:\n              04|\n              [23]6|\n              [48]9|\n              5[07]|\n              63\n            )|\n            3(?:\n              06|\n              43|\n              54|\n              6[578]|\n              82\n            )|\n            4(?:\n              03|\n              1[68]|\n              [26]8|\n              3[178]|\n              50|\n              74\n            )|\n            5(?:\n              06|\n              1[49]|\n              48|\n              79|\n              8[147]\n            )|\n            6(?:\n              04|\n              [18]3|\n              39|\n              47|\n              72\n            )|\n            7(?:\n              0[59]|\n              42|\n              53|\n              78|\n              8[02]\n            )|\n            8(?:\n              [06]7|\n              19|\n              25|\n              7[39]\n            )|\n            9(?:\n              0[25]|\n              42\n            )\n          )[2-9]\\d{6}\n        "), possibleLength := [10], possibleLocalLength := [7], example? := some (str% "5062345678") },
    tollFree := some { nationalNumber := some (str% "\n          8(?:\n            00|\n            33|\n            44|\n            55|\n            66|\n            77|\n            88\n          )[2-9]\\d{6}\n        "), possibleLength := [10], example? := some (str% "8002123456") },
    premiumRate := some { nationalNumber := some (str% "900[2-9]\\d{6}"), possibleLength := [10], example? := some (str% "9002123456") },
    personalNumber := some { nationalNumber := some (str% "\n          52(?:\n            3(?:\n              [2-46-9][02-9]\\d|\n              5(?:\n                [02-46-9]\\d|\n                5[0-46-9]\n              )\n            )|\n            4(?:\n              [2-478][02-9]\\d|\n              5(?:\n                [034]\\d|\n                2[024-9]|\n                5[0-46-9]\n              )|\n              6(?:\n                0[1-9]|\n                [2-9]\\d\n              )|\n              9(?:\n                [05-9]\\d|\n                2[0-5]|\n                49\n              )\n            )\n          )\\d{4}|\n          52[34][2-9]1[02-9]\\d{4}|\n          (?:\n            5(?:\n              2[125-9]|\n              3[23]|\n              44|\n              66|\n              77|\n              88\n            )|\n            6(?:\n              22|\n              33\n            )\n          )[2-9]\\d{6}\n        "), possibleLength := [10], example? := some (str% "5219023456") },
    voip := some { nationalNumber := some (str% "600[2-9]\\d{6}"), possibleLength := [10], example? := some (str% "6002012345") },
    uan := some { nationalNumber := some (str% "310\\d{4}"), possibleLength := [7], example? := some (str% "3101234") },
    id := some (str% "CA"),
    countryCode := some 1,
    internationalPrefix := some (str% "011"),
    nationalPrefix := some (str% "1"),
    mobileNumberPortable := true }

/-- territory id=CC countryCode=61 -/
noncomputable def CC : Loader.Metadata :=
  { general := some { nationalNumber := some (str% "\n          1(?:\n            [0-79]\\d{8}(?:\n              \\d{2}\n            )?|\n            8[0-24-9]\\d{7}\n          )|\n          [148]\\d{8}|\n          1\\d{5,7}\n        ") },
    fixedLine := some { nationalNumber := some (str% "\n          8(?:\n            51(?:\n              0(?:\n                02|\n                31|\n                60|\n                89\n              )|\n              1(?:\n                18|\n                76\n              )|\n              223\n            )|\n            91(?:\n              0(?:\n                1[0-2]|\n                29\n              )|\n              1(?:\n                [28]2|\n                50|\n                79\n              )|\n              2(?:\n                10|\n                64\n              )|\n              3(?:\n                [06]8|\n                22\n              )|\n              4[29]8|\n              62\\d|\n              70[23]|\n              959\n            )\n          )\\d{3}\n        "), possibleLength := [9], possibleLocalLength := [8], example? := some (str% "891621234") },
    mobile := some { nationalNumber := some (str% "\n          4(?:\n            79[01]|\n            83[0-36-9]|\n            95[0-3]\n          )\\d{5}|\n          4(?:\n            [0-36]\\d|\n            4[047-9]|\n            [58][0-24-9]|\n            7[02-8]|\n            9[0-47-9]\n          )\\d{6}\n        "), possibleLength := [9], example? := some (str% "412345678") },
    tollFree := some { nationalNumber := some (str% "\n          180(?:\n            0\\d{3}|\n            2\n          )\\d{3}\n        "), possibleLength := [7, 10], example? := some (str% "1800123456") },
    premiumRate := some { nationalNumber := some (str% "190[0-26]\\d{6}"), possibleLength := [10], example? := some (str% "1900123456") },
    sharedCost := some { nationalNumber := some (str% "\n          13(?:\n            00\\d{6}(?:\n              \\d{2}\n            )?|\n            45[0-4]\\d{3}\n          )|\n          13\\d{4}\n        "), possibleLength := [6, 8, 10, 12], example? := some (str% "1300123456") },
    voip := some { nationalNumber := some (str% "\n          14(?:\n            5(?:\n              1[0458]|\n              [23][458]\n            )|\n            71\\d\n          )\\d{4}\n        "), possibleLength := [9], example? := some (str% "147101234") },
    id := some (str% "CC"),
    countryCode := some 61,
    internationalPrefix := some (str% "001[14-689]|14(?:1[14]|34|4[17]|[56]6|7[47]|88)0011"),
    preferredInternationalPrefix := some (str% "0011"),
    nationalPrefix := some (str% "0"),
    nationalPrefixForParsing := some (str% "([59]\\d{7})$|0"),
    nationalPrefixTransformRule := some (str% "8$1") }

/-- territory id=CD countryCode=243 -/
noncomputable def CD : Loader.Metadata :=
  { general := some { nationalNumber := some (str% "\n          (?:\n            (?:\n              [189]|\n              5\\d\n            )\\d|\n            2\n          )\\d{7}|\n          [1-68]\\d{6}\n        ") },
    fixedLine := some { nationalNumber := some (str% "\n          (?:\n            (?:\n              12|\n              573\n            )\\d\\d|\n            276\n          )\\d{5}|\n          [1-6]\\d{6}\n        "), possibleLength := [7, 8, 9, 10], example? := some (str% "1234567") },
    mobile := some { nationalNumber := some (str% "\n          88\\d{5}|\n          (?:\n            8[0-69]|\n            9[016-9]\n          )\\d{7}\n        "), possibleLength := [7, 9], example? := some (str% "991234567") },
    id := some (str% "CD"),
    countryCode := some 243,
    internationalPrefix := some (str% "00"),
    nationalPrefix := some (str% "0"),
    formats := [
      { pattern := some (str% "(\\d{2})(\\d{2})(\\d{3})"), format := some (str% "$1 $2 $3"), leadingDigits := [str% "88"], nationalPrefixFormattingRule := some (str% "$NP$FG") },
      { pattern := some (str% "(\\d{2})(\\d{5})"), format := some (str% "$1 $2"), leadingDigits := [str% "[1-6]"], nationalPrefixFormattingRule := some (str% "$NP$FG") },
      { pattern := some (str% "(\\d{2})(\\d{2})(\\d{4})"), format := some (str% "$1 $2 $3"), leadingDigits := [str% "2"], nationalPrefixFormattingRule := some (str% "$NP$FG") },
      { pattern := some (str% "(\\d{2})(\\d{3})(\\d{4})"), format := some (str% "$1 $2 $3"), leadingDigits := [str% "1"], nationalPrefixFormattingRule := some (str% "$NP$FG") },
      { pattern := some (str% "(\\d{3})(\\d{3})(\\d{3})"), format := some (str% "$1 $2 $3"), leadingDigits := [str% "[89]"], nationalPrefixFormattingRule := some (str% "$NP$FG") },
      { pattern := some (str% "(\\d{2})(\\d{2})(\\d{3})(\\d{3})"), format := some (str% "$1 $2 $3 $4"), leadingDigits := [str% "5"], nationalPrefixFormattingRule := some (str% "$NP$FG") }],
    internationalFormats := [
      { pattern := some (str% "(\\d{2})(\\d{2})(\\d{3})"), format := some (str% "$1 $2 $3"), leadingDigits := [str% "88"], nationalPrefixFormattingRule := some (str% "$NP$FG") },
      { pattern := some (str% "(\\d{2})(\\d{5})"), format := some (str% "$1 $2"), leadingDigits := [str% "[1-6]"], nationalPrefixFormattingRule := some (str% "$NP$FG") },
      { pattern := some (str% "(\\d{2})(\\d{2})(\\d{4})"), format := some (str% "$1 $2 $3"), leadingDigits := [str% "2"], nationalPrefixFormattingRule := some (str% "$NP$FG") },
      { pattern := some (str% "(\\d{2})(\\d{3})(\\d{4})"), format := some (str% "$1 $2 $3"), leadingDigits := [str% "1"], nationalPrefixFormattingRule := some (str% "$NP$FG") },
      { pattern := some (str% "(\\d{3})(\\d{3})(\\d{3})"), format := some (str% "$1 $2 $3"), leadingDigits := [str% "[89]"], nationalPrefixFormattingRule := some (str% "$NP$FG") },
      { pattern := some (str% "(\\d{2})(\\d{2})(\\d{3})(\\d{3})"), format := some (str% "$1 $2 $3 $4"), leadingDigits := [str% "5"], nationalPrefixFormattingRule := some (str% "$NP$FG") }] }

/-- territory id=CF countryCode=236 -/
noncomputable def CF : Loader.Metadata :=
  { general := some { nationalNumber := some (str% "\n          8776\\d{4}|\n          (?:\n            [27]\\d|\n            61\n          )\\d{6}\n        ") },
    fixedLine := some { nationalNumber := some (str% "\n          (?:\n            2[12]|\n            61\n          )\\d{6}\n        "), possibleLength := [8], example? := some (str% "21612345") },
    mobile := some { nationalNumber := some (str% "7[02-7]\\d{6}"), possibleLength := [8], example? := some (str% "70012345") },
    premiumRate := some { nationalNumber := some (str% "8776\\d{4}"), possibleLength := [8], example? := some (str% "87761234") },
    id := some (str% "CF"),
    countryCode := some 236,
    internationalPrefix := some (str% "00"),
    formats := [
      { pattern := some (str% "(\\d{2})(\\d{2})(\\d{2})(\\d{2})"), format := some (str% "$1 $2 $3 $4"), leadingDigits := [str% "[26-8]"] }],
    internationalFormats := [
      { pattern := some (str% "(\\d{2})(\\d{2})(\\d{2})(\\d{2})"), format := some (str% "$1 $2 $3 $4"), leadingDigits := [str% "[26-8]"] }] }

/-- territory id=CG countryCode=242 -/
noncomputable def CG : Loader.Metadata :=
  { general := some { nationalNumber := some (str% "\n          222\\d{6}|\n          (?:\n            0\\d|\n            80\n          )\\d{7}\n        ") },
    fixedLine := some { nationalNumber := some (str% "222[1-589]\\d{5}"), possibleLength := [9], example? := some (str% "222123456") },
    mobile := some { nationalNumber := some (str% "\n          026(?:\n            1[0-5]|\n            6[6-9]\n          )\\d{4}|\n          0(?:\n            [14-6]\\d\\d|\n            2(?:\n              40|\n              5[5-8]|\n              6[07-9]\n            )\n          )\\d{5}\n        "), possibleLength := [9], example? := some (str% "061234567") },
    premiumRate := some { nationalNumber := some (str% "80[0-2]\\d{6}"), possibleLength := [9], example? := some (str% "800123456") },
    id := some (str% "CG"),
    countryCode := some 242,
    internationalPrefix := some (str% "00"),
    formats := [
      { pattern := some (str% "(\\d)(\\d{4})(\\d{4})"), format := some (str% "$1 $2 $3"), leadingDigits := [str% "8"] },
      { pattern := some (str% "(\\d{2})(\\d{3})(\\d{4})"), format := some (str% "$1 $2 $3"), leadingDigits := [str% "[02]"] }],
    internationalFormats := [
      { pattern := some (str% "(\\d)(\\d{4})(\\d{4})"), format := some (str% "$1 $2 $3"), leadingDigits := [str% "8"] },
      { pattern := some (str% "(\\d{2})(\\d{3})(\\d{4})"), format := some (str% "$1 $2 $3"), leadingDigits := [str% "[02]"] }] }

/-- territory id=CH countryCode=41 -/
noncomputable def CH : Loader.Metadata :=
  { general := some { nationalNumber := some (str% "\n          8\\d{11}|\n          [2-9]\\d{8}\n        ") },
    fixedLine := some { nationalNumber := some (str% "\n          (?:\n            2[12467]|\n            3[1-4]|\n            4[134]|\n            5[256]|\n            6[12]|\n            [7-9]1\n          )\\d{7}\n        "), possibleLength := [9], example? := some (str% "212345678") },
    mobile := some { nationalNumber := some (str% "\n          (?:\n            6[89]|\n            7[235-9]\n          )\\d{7}\n        "), possibleLength := [9], example? := some (str% "781234567") },
    tollFree := some { nationalNumber := some (str% "800\\d{6}"), possibleLength := [9], example? := some (str% "800123456") },
    premiumRate := some { nationalNumber := some (str% "90[016]\\d{6}"), possibleLength := [9], example? := some (str% "900123456") },
    sharedCost := some { nationalNumber := some (str% "84[0248]\\d{6}"), possibleLength := [9], example? := some (str% "840123456") },
    personalNumber := some { nationalNumber := some (str% "878\\d{6}"), possibleLength := [9], example? := some (str% "878123456") },
    pager := some { nationalNumber := some (str% "74[0248]\\d{6}"), possibleLength := [9], example? := some (str% "740123456") },
    uan := some { nationalNumber := some (str% "5[18]\\d{7}"), possibleLength := [9], example? := some (str% "581234567") },
    voicemail := some { nationalNumber := some (str% "860\\d{9}"), possibleLength := [12], example? := some (str% "860123456789") },
    id := some (str% "CH"),
    countryCode := some 41,
    internationalPrefix := some (str% "00"),
    nationalPrefix := some (str% "0"),
    formats := [
      { pattern := some (str% "(\\d{3})(\\d{3})(\\d{3})"), format := some (str% "$1 $2 $3"), leadingDigits := [str% "\n            8[047]|\n            90\n          "], nationalPrefixFormattingRule := some (str% "$NP$FG") },
      { pattern := some (str% "(\\d{2})(\\d{3})(\\d{2})(\\d{2})"), format := some (str% "$1 $2 $3 $4"), leadingDigits := [str% "\n            [2-79]|\n            81\n          "], nationalPrefixFormattingRule := some (str% "$NP$FG") },
      { pattern := some (str% "(\\d{3})(\\d{2})(\\d{3})(\\d{2})(\\d{2})"), format := some (str% "$1 $2 $3 $4 $5"), leadingDigits := [str% "8"], nationalPrefixFormattingRule := some (str% "$NP$FG") }],
    internationalFormats := [
      { pattern := some (str% "(\\d{3})(\\d{3})(\\d{3})"), format := some (str% "$1 $2 $3"), leadingDigits := [str% "\n            8[047]|\n            90\n          "], nationalPrefixFormattingRule := some (str% "$NP$FG") },
      { pattern := some (str% "(\\d{2})(\\d{3})(\\d{2})(\\d{2})"), format := some (str% "$1 $2 $3 $4"), leadingDigits := [str% "\n            [2-79]|\n            81\n          "], nationalPrefixFormattingRule := some (str% "$NP$FG") },
      { pattern := some (str% "(\\d{3})(\\d{2})(\\d{3})(\\d{2})(\\d{2})"), format := some (str% "$1 $2 $3 $4 $5"), leadingDigits := [str% "8"], nationalPrefixFormattingRule := some (str% "$NP$FG") }],
    mobileNumberPortable := true }

/-- territory id=CI countryCode=225 -/
noncomputable def CI : Loader.Metadata :=
  { general := some { nationalNumber := some (str% "[02]\\d{9}") },
    fixedLine := some { nationalNumber := some (str% "\n          2(?:\n            [15]\\d{3}|\n            7(?:\n              2(?:\n                0[23]|\n                1[2357]|\n                2[245]|\n                3[45]|\n                4[3-5]\n              )|\n              3(?:\n                06|\n                1[69]|\n                [2-6]7\n              )\n            )\n          )\\d{5}\n        "), possibleLength := [10], example? := some (str% "2123456789") },
    mobile := some { nationalNumber := some (str% "0[157]\\d{8}"), possibleLength := [10], example? := some (str% "0123456789") },
    id := some (str% "CI"),
    countryCode := some 225,
    internationalPrefix := some (str% "00"),
    formats := [
      { pattern := some (str% "(\\d{2})(\\d{2})(\\d)(\\d{5})"), format := some (str% "$1 $2 $3 $4"), leadingDigits := [str% "2"] },
      { pattern := some (str% "(\\d{2})(\\d{2})(\\d{2})(\\d{4})"), format := some (str% "$1 $2 $3 $4"), leadingDigits := [str% "0"] }],
    internationalFormats := [
      { pattern := some (str% "(\\d{2})(\\d{2})(\\d)(\\d{5})"), format := some (str% "$1 $2 $3 $4"), leadingDigits := [str% "2"] },
      { pattern := some (str% "(\\d{2})(\\d{2})(\\d{2})(\\d{4})"), format := some (str% "$1 $2 $3 $4"), leadingDigits := [str% "0"] }] }

/-- territory id=CK countryCode=682 -/
noncomputable def CK : Loader.Metadata :=
  { general := some { nationalNumber := some (str% "[2-578]\\d{4}") },
    fixedLine := some { nationalNumber := some (str% "\n          (?:\n            2\\d|\n            3[13-7]|\n            4[1-5]\n          )\\d{3}\n        "), possibleLength := [5], example? := some (str% "21234") },
    mobile := some { nationalNumber := some (str% "[578]\\d{4}"), possibleLength := [5], example? := some (str% "71234") },
    id := some (str% "CK"),
    countryCode := some 682,
    internationalPrefix := some (str% "00"),
    formats := [
      { pattern := some (str% "(\\d{2})(\\d{3})"), format := some (str% "$1 $2"), leadingDigits := [str% "[2-578]"] }],
    internationalFormats := [
      { pattern := some (str% "(\\d{2})(\\d{3})"), format := some (str% "$1 $2"), leadingDigits := [str% "[2-578]"] }] }

/-- territory id=CL countryCode=56 -/
noncomputable def CL : Loader.Metadata :=
  { general := some { nationalNumber := some (str% "\n          12300\\d{6}|\n          6\\d{9,10}|\n          [2-9]\\d{8}\n        ") },
    fixedLine := some { nationalNumber := some (str% "\n          2(?:\n            1982[0-6]|\n            3314[05-9]\n          )\\d{3}|\n          (?:\n            2(?:\n              1(?:\n                160|\n                962\n              )|\n              3(?:\n                (?:\n                  [24]\\d|\n                  50\n                )\\d|\n                3(?:\n                  [034679]\\d|\n                  1[0-35-9]|\n                  2[1-9]|\n                  5[0-24-9]|\n                  8[0-389]\n                )|\n                600\n              )|\n              646[59]\n            )|\n            (?:\n              600|\n              80[1-9]\n            )\\d\\d|\n            9(?:\n              (?:\n                10[0-2]|\n                7[1-9]\\d\n              )\\d|\n              3(?:\n                [0-57-9]\\d\\d|\n                6(?:\n                  0[02-9]|\n                  [1-9]\\d\n                )\n              )|\n              6(?:\n                [0-8]\\d\\d|\n                9(?:\n                  [02-79]\\d|\n                  1[05-9]\n                )\n              )|\n              9(?:\n                [03-9]\\d\\d|\n                1(?:\n                  [0235-9]\\d|\n                  4[0-24-9]\n                )|\n                2(?:\n                  [0-79]\\d|\n                  8[0-46-9]\n                )\n              )\n            )\n          )\\d{4}|\n          (?:\n            22|\n            3[2-5]|\n            [47][1-35]|\n            5[1-3578]|\n            6[13-57]|\n            8[1-9]|\n            9[2458]\n          )\\d{7}\n        "), possibleLength := [9], example? := some (str% "600123456") },
    mobile := some { nationalNumber := some (str% "\n          2(?:\n            1982[0-6]|\n            3314[05-9]\n          )\\d{3}|\n          (?:\n            2(?:\n              1(?:\n                160|\n                962\n              )|\n              3(?:\n                (?:\n                  [24]\\d|\n                  50\n                )\\d|\n                3(?:\n                  [034679]\\d|\n                  1[0-35-9]|\n                  2[1-9]|\n                  5[0-24-9]|\n                  8[0-389]\n                )|\n                600\n              )|\n              646[59]\n            )|\n            80[1-8]\\d\\d|\n            9(?:\n              (?:\n                10[0-2]|\n                7[1-9]\\d\n              )\\d|\n              3(?:\n                [0-57-9]\\d\\d|\n                6(?:\n                  0[02-9]|\n                  [1-9]\\d\n                )\n              )|\n              6(?:\n                [0-8]\\d\\d|\n                9(?:\n                  [02-79]\\d|\n                  1[05-9]\n                )\n              )|\n              9(?:\n                [03-9]\\d\\d|\n                1(?:\n                  [0235-9]\\d|\n                  4[0-24-9]\n                )|\n                2(?:\n                  [0-79]\\d|\n                  8[0-46-9]\n                )\n              )\n            )\n          )\\d{4}|\n          (?:\n            22|\n            3[2-5]|\n            [47][1-35]|\n            5[1-3578]|\n            6[13-57]|\n            8[1-9]|\n            9[2458]\n          )\\d{7}\n        "), possibleLength := [9], example? := some (str% "221234567") },
    tollFree := some { nationalNumber := some (str% "\n          (?:\n            123|\n            8\n          )00\\d{6}\n        "), possibleLength := [9, 11], example? := some (str% "800123456") },
    sharedCost := some { nationalNumber := some (str% "600\\d{7,8}"), possibleLength := [10, 11], example? := some (str% "6001234567") },
    voip := some { nationalNumber := some (str% "44\\d{7}"), possibleLength := [9], example? := some (str% "441234567") },
    noInternational := some { nationalNumber := some (str% "600\\d{7,8}"), possibleLength := [10, 11] },
    id := some (str% "CL"),
    countryCode := some 56,
    internationalPrefix := some (str% "(?:0|1(?:1[0-69]|2[02-5]|5[13-58]|69|7[0167]|8[018]))0"),
    formats := [
      { pattern := some (str% "(\\d{4})"), format := some (str% "$1"), leadingDigits := [str% "\n            1(?:\n              [03-589]|\n              21\n            )|\n            [29]0|\n            78\n          "] },
      { pattern := some (str% "(\\d{5})(\\d{4})"), format := some (str% "$1 $2"), leadingDigits := [str% "219", str% "2196"], nationalPrefixFormattingRule := some (str% "($FG)") },
      { pattern := some (str% "(\\d{3})(\\d{3})(\\d{3})"), format := some (str% "$1 $2 $3"), leadingDigits := [str% "\n            60|\n            809\n          "] },
      { pattern := some (str% "(\\d{2})(\\d{3})(\\d{4})"), format := some (str% "$1 $2 $3"), leadingDigits := [str% "44"] },
      { pattern := some (str% "(\\d)(\\d{4})(\\d{4})"), format := some (str% "$1 $2 $3"), leadingDigits := [str% "2[1-36]"], nationalPrefixFormattingRule := some (str% "($FG)") },
      { pattern := some (str% "(\\d)(\\d{4})(\\d{4})"), format := some (str% "$1 $2 $3"), leadingDigits := [str% "\n            9(?:\n              10|\n              [2-9]\n            )\n          "] },
      { pattern := some (str% "(\\d{2})(\\d{3})(\\d{4})"), format := some (str% "$1 $2 $3"), leadingDigits := [str% "\n            3[2-5]|\n            [47]|\n            5[1-3578]|\n            6[13-57]|\n            8(?:\n              0[1-8]|\n              [1-9]\n            )\n          "], nationalPrefixFormattingRule := some (str% "($FG)") },
      { pattern := some (str% "(\\d{3})(\\d{3})(\\d{3,4})"), format := some (str% "$1 $2 $3"), leadingDigits := [str% "\n            60|\n            8\n          "] },
      { pattern := some (str% "(\\d{4})(\\d{3})(\\d{4})"), format := some (str% "$1 $2 $3"), leadingDigits := [str% "1"] },
      { pattern := some (str% "(\\d{3})(\\d{3})(\\d{2})(\\d{3})"), format := some (str% "$1 $2 $3 $4"), leadingDigits := [str% "60"] }],
    internationalFormats := [
      { pattern := some (str% "(\\d{5})(\\d{4})"), format := some (str% "$1 $2"), leadingDigits := [str% "219", str% "2196"], nationalPrefixFormattingRule := some (str% "($FG)") },
      { pattern := some (str% "(\\d{3})(\\d{3})(\\d{3})"), format := some (str% "$1 $2 $3"), leadingDigits := [str% "\n            60|\n            809\n          "] },
      { pattern := some (str% "(\\d{2})(\\d{3})(\\d{4})"), format := some (str% "$1 $2 $3"), leadingDigits := [str% "44"] },
      { pattern := some (str% "(\\d)(\\d{4})(\\d{4})"), format := some (str% "$1 $2 $3"), leadingDigits := [str% "2[1-36]"], nationalPrefixFormattingRule := some (str% "($FG)") },
      { pattern := some (str% "(\\d)(\\d{4})(\\d{4})"), format := some (str% "$1 $2 $3"), leadingDigits := [str% "\n            9(?:\n              10|\n              [2-9]\n            )\n          "] },
      { pattern := some (str% "(\\d{2})(\\d{3})(\\d{4})"), format := some (str% "$1 $2 $3"), leadingDigits := [str% "\n            3[2-5]|\n            [47]|\n            5[1-3578]|\n            6[13-57]|\n            8(?:\n              0[1-8]|\n              [1-9]\n            )\n          "], nationalPrefixFormattingRule := some (str% "($FG)") },
      { pattern := some (str% "(\\d{3})(\\d{3})(\\d{3,4})"), format := some (str% "$1 $2 $3"), leadingDigits := [str% "\n            60|\n            8\n          "] },
      { pattern := some (str% "(\\d{4})(\\d{3})(\\d{4})"), format := some (str% "$1 $2 $3"), leadingDigits := [str% "1"] },
      { pattern := some (str% "(\\d{3})(\\d{3})(\\d{2})(\\d{3})"), format := some (str% "$1 $2 $3 $4"), leadingDigits := [str% "60"] }],
    mobileNumberPortable := true }

/-- territory id=CM countryCode=237 -/
noncomputable def CM : Loader.Metadata :=
  { general := some { nationalNumber := some (str% "\n          [26]\\d{8}|\n          88\\d{6,7}\n        ") },
    fixedLine := some { nationalNumber := some (str% "\n          2(?:\n            22|\n            33\n          )\\d{6}\n        "), possibleLength := [9], example? := some (str% "222123456") },
    mobile := some { nationalNumber := some (str% "\n          (?:\n            24[23]|\n            6(?:\n              [25-9]\\d|\n              4[01]\n            )\n          )\\d{6}\n        "), possibleLength := [9], example? := some (str% "671234567") },
    tollFree := some { nationalNumber := some (str% "88\\d{6,7}"), possibleLength := [8, 9], example? := some (str% "88012345") },
    id := some (str% "CM"),
    countryCode := some 237,
    internationalPrefix := some (str% "00"),
    formats := [
      { pattern := some (str% "(\\d{2})(\\d{2})(\\d{2})(\\d{2})"), format := some (str% "$1 $2 $3 $4"), leadingDigits := [str% "88"] },
      { pattern := some (str% "(\\d)(\\d{2})(\\d{2})(\\d{2})(\\d{2})"), format := some (str% "$1 $2 $3 $4 $5"), leadingDigits := [str% "\n            [26]|\n            88\n          "] }],
    internationalFormats := [
      { pattern := some (str% "(\\d{2})(\\d{2})(\\d{2})(\\d{2})"), format := some (str% "$1 $2 $3 $4"), leadingDigits := [str% "88"] },
      { pattern := some (str% "(\\d)(\\d{2})(\\d{2})(\\d{2})(\\d{2})"), format := some (str% "$1 $2 $3 $4 $5"), leadingDigits := [str% "\n            [26]|\n            88\n          "] }],
    mobileNumberPortable := true }

/-- the territories of this module, in document order -/
noncomputable def chunk02 : List Loader.Metadata :=
  [BM, BN, BO, BQ, BR, BS, BT, BW, BY, BZ, CA, CC, CD, CF, CG, CH, CI, CK, CL, CM]

end Phone.Data
