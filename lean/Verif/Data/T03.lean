import Verif.Model.Database
/-! Territories of `/repo/assets/PhoneNumberMetadata.xml` as `/repo/src/metadata/loader.rs` reads them.
Generated by `tools/gen_data.py`; do not edit. -/

set_option maxRecDepth 100000
namespace Phone.Data

/-- territory id=CN countryCode=86 -/
noncomputable def CN : Loader.Metadata :=
  { general := some { nationalNumber := some (str% "\n          (?:\n            (?:\n              1[03-689]|\n              2\\d\n            )\\d\\d|\n            6\n          )\\d{8}|\n          1\\d{10}|\n          [126]\\d{6}(?:\n            \\d(?:\n              \\d{2}\n            )?\n          )?|\n          86\\d{5,6}|\n          (?:\n            [3-579]\\d|\n            8[0-57-9]\n          )\\d{5,9}\n        ") },
    fixedLine := some { nationalNumber := some (str% "\n          (?:\n            10(?:\n              [02-79]\\d\\d|\n              [18](?:\n                0[1-9]|\n                [1-9]\\d\n              )\n            )|\n            2(?:\n              [02-57-9]\\d{3}|\n              1(?:\n                [18](?:\n                  0[1-9]|\n                  [1-9]\\d\n                )|\n                [2-79]\\d\\d\n              )\n            )|\n            (?:\n              41[03]|\n              8078|\n              9(?:\n                78|\n                94\n              )\n            )\\d\\d\n          )\\d{5}|\n          (?:\n            10|\n            2[0-57-9]\n          )(?:\n            1(?:\n              00|\n              23\n            )\\d\\d|\n            95\\d{3,4}\n          )|\n          (?:\n            41[03]|\n            9(?:\n              78|\n              94\n            )\n          )(?:\n            100\\d\\d|\n            95\\d{3,4}\n          )|\n          8078123|\n          (?:\n            43[35]|\n            754|\n            851\n          )\\d{7,8}|\n          (?:\n            43[35]|\n            754|\n            851\n          )(?:\n            1(?:\n              00\\d|\n              23\n            )\\d|\n            95\\d{3,4}\n          )|\n          (?:\n            3(?:\n              11|\n              7[179]\n            )|\n            4(?:\n              [15]1|\n              3[12]\n            )|\n            5(?:\n              1\\d|\n              2[37]|\n              3[12]|\n              51|\n              7[13-79]|\n              9[15]\n            )|\n            7(?:\n              [39]1|\n              5[57]|\n              6[09]\n            )|\n            8(?:\n              71|\n              98\n            )\n          )(?:\n            [02-8]\\d{7}|\n            1(?:\n              0(?:\n                0\\d\\d(?:\n                  \\d{3}\n                )?|\n                [1-9]\\d{5}\n              )|\n              [13-9]\\d{6}|\n              2(?:\n                [0-24-9]\\d{5}|\n                3\\d(?:\n                  \\d{4}\n                )?\n              )\n            )|\n            9(?:\n              [0-46-9]\\d{6}|\n              5\\d{3}(?:\n                \\d(?:\n                  \\d{2}\n                )?\n              )?\n            )\n          )|\n          (?:\n            3(?:\n              1[02-9]|\n              35|\n              49|\n              5\\d|\n              7[02-68]|\n              9[1-68]\n            )|\n            4(?:\n              1[24-9]|\n              2[179]|\n              3[46-9]|\n              5[2-9]|\n              6[47-9]|\n              7\\d|\n              8[23]\n            )|\n            5(?:\n              3[03-9]|\n              4[36]|\n              5[02-9]|\n              6[1-46]|\n              7[028]|\n              80|\n              9[2-46-9]\n            )|\n            6(?:\n              3[1-5]|\n              6[0238]|\n              9[12]\n            )|\n            7(?:\n              01|\n              [17]\\d|\n              2[248]|\n              3[04-9]|\n              4[3-6]|\n              5[0-3689]|\n              6[2368]|\n              9[02-9]\n            )|\n            8(?:\n              1[236-8]|\n              2[5-7]|\n              3\\d|\n              5[2-9]|\n              7[02-9]|\n              8[36-8]|\n              9[1-7]\n            )|\n            9(?:\n              0[1-3689]|\n              1[1-79]|\n              3\\d|\n              4[13]|\n              5[1-5]|\n              7[0-79]|\n              9[0-35-9]\n            )\n          )(?:\n            [02-8]\\d{6}|\n            1(?:\n              0(?:\n                0\\d\\d(?:\n                  \\d{2}\n                )?|\n                [1-9]\\d{4}\n              )|\n              [13-9]\\d{5}|\n              2(?:\n                [0-24-9]\\d{4}|\n                3\\d(?:\n                  \\d{3}\n                )?\n              )\n            )|\n            9(?:\n              [0-46-9]\\d{5}|\n              5\\d{3,5}\n            )\n          )\n        "), possibleLength := [7, 8, 9, 10, 11], possibleLocalLength := [5, 6], example? := some (str% "1012345678") },
    mobile := some { nationalNumber := some (str% "\n          1740[0-5]\\d{6}|\n          1(?:\n            [38]\\d|\n            4[57]|\n            [59][0-35-9]|\n            6[25-7]|\n            7[0-35-8]\n          )\\d{8}\n        "), possibleLength := [11], example? := some (str% "13123456789") },
    tollFree := some { nationalNumber := some (str% "\n          (?:\n            (?:\n              10|\n              21\n            )8|\n            8\n          )00\\d{7}\n        "), possibleLength := [10, 12], example? := some (str% "8001234567") },
    premiumRate := some { nationalNumber := some (str% "16[08]\\d{5}"), possibleLength := [8], example? := some (str% "16812345") },
    sharedCost := some { nationalNumber := some (str% "\n          10(?:\n            10\\d{4}|\n            96\\d{3,4}\n          )|\n          400\\d{7}|\n          950\\d{7,8}|\n          (?:\n            2[0-57-9]|\n            3(?:\n              [157]\\d|\n              35|\n              49|\n              9[1-68]\n            )|\n            4(?:\n              [17]\\d|\n              2[179]|\n              [35][1-9]|\n              6[47-9]|\n              8[23]\n            )|\n            5(?:\n              [1357]\\d|\n              2[37]|\n              4[36]|\n              6[1-46]|\n              80|\n              9[1-9]\n            )|\n            6(?:\n              3[1-5]|\n              6[0238]|\n              9[12]\n            )|\n            7(?:\n              01|\n              [1579]\\d|\n              2[248]|\n              3[014-9]|\n              4[3-6]|\n              6[023689]\n            )|\n            8(?:\n              1[236-8]|\n              2[5-7]|\n              [37]\\d|\n              5[14-9]|\n              8[36-8]|\n              9[1-8]\n            )|\n            9(?:\n              0[1-3689]|\n              1[1-79]|\n              [379]\\d|\n              4[13]|\n              5[1-5]\n            )\n          )96\\d{3,4}\n        "), possibleLength := [7, 8, 9, 10, 11], possibleLocalLength := [5, 6], example? := some (str% "4001234567") },
    noInternational := some { nationalNumber := some (str% "\n          (?:\n            (?:\n              10|\n              21\n            )8|\n            [48]\n          )00\\d{7}|\n          950\\d{7,8}\n        "), possibleLength := [10, 11, 12] },
    id := some (str% "CN"),
    countryCode := some 86,
    internationalPrefix := some (str% "00|1(?:[12]\\d|79)\\d\\d00"),
    preferredInternationalPrefix := some (str% "00"),
    nationalPrefix := some (str% "0"),
    nationalPrefixForParsing := some (str% "(1(?:[12]\\d|79)\\d\\d)|0"),
    formats := [
      { pattern := some (str% "(\\d{5,6})"), format := some (str% "$1"), leadingDigits := [str% "\n            1(?:\n              00|\n              2[13]\n            )|\n            9[56]\n          ", str% "\n            1(?:\n              00|\n              2(?:\n                1|\n                39\n              )\n            )|\n            9[56]\n          ", str% "\n            1(?:\n              00|\n              2(?:\n                1|\n                395\n              )\n            )|\n            9[56]\n          "] },
      { pattern := some (str% "(\\d{5,6})"), format := some (str% "$1"), leadingDigits := [str% "\n            1(?:\n              0|\n              23\n            )|\n            781|\n            [1-9]12\n          ", str% "\n            1(?:\n              0|\n              23\n            )|\n            7812|\n            [1-9]123\n          ", str% "\n            1(?:\n              0|\n              23(?:\n                [0-8]|\n                9[0-46-9]\n              )\n            )|\n            78123|\n            [1-9]123\n          "] },
      { pattern := some (str% "(\\d{2})(\\d{5,6})"), format := some (str% "$1 $2"), leadingDigits := [str% "\n            (?:\n              10|\n              2[0-57-9]\n            )[19]|\n            3(?:\n              [157]|\n              35|\n              49|\n              9[1-68]\n            )|\n            4(?:\n              1[124-9]|\n              2[179]|\n              6[47-9]|\n              7|\n              8[23]\n            )|\n            5(?:\n              [1357]|\n              2[37]|\n              4[36]|\n              6[1-46]|\n              80\n            )|\n            6(?:\n              3[1-5]|\n              6[0238]|\n              9[12]\n            )|\n            7(?:\n              01|\n              [1579]|\n              2[248]|\n              3[014-9]|\n              4[3-6]|\n              6[023689]\n            )|\n            8(?:\n              07|\n              1[236-8]|\n              2[5-7]|\n              [37]|\n              8[36-8]|\n              9[1-8]\n            )|\n            9(?:\n              0[1-3689]|\n              1[1-79]|\n              3|\n              4[13]|\n              5[1-5]|\n              7[0-79]|\n              9[0-35-9]\n            )|\n            (?:\n              4[35]|\n              59|\n              85\n            )[1-9]\n          ", str% "\n            (?:\n              10|\n              2[0-57-9]\n            )(?:\n              1[02]|\n              9[56]\n            )|\n            8078|\n            (?:\n              3(?:\n                [157]\\d|\n                35|\n                49|\n                9[1-68]\n              )|\n              4(?:\n                1[124-9]|\n                2[179]|\n                [35][1-9]|\n                6[47-9]|\n                7\\d|\n                8[23]\n              )|\n              5(?:\n                [1357]\\d|\n                2[37]|\n                4[36]|\n                6[1-46]|\n                80|\n                9[1-9]\n              )|\n              6(?:\n                3[1-5]|\n                6[0238]|\n                9[12]\n              )|\n              7(?:\n                01|\n                [1579]\\d|\n                2[248]|\n                3[014-9]|\n                4[3-6]|\n                6[023689]\n              )|\n              8(?:\n                1[236-8]|\n                2[5-7]|\n                [37]\\d|\n                5[1-9]|\n                8[36-8]|\n                9[1-8]\n              )|\n              9(?:\n                0[1-3689]|\n                1[1-79]|\n                3\\d|\n                4[13]|\n                5[1-5]|\n                7[0-79]|\n                9[0-35-9]\n              )\n            )1\n          ", str% "\n            10(?:\n              1(?:\n                0|\n                23\n              )|\n              9[56]\n            )|\n            2[0-57-9](?:\n              1(?:\n                00|\n                23\n              )|\n              9[56]\n            )|\n            80781|\n            (?:\n              3(?:\n                [157]\\d|\n                35|\n                49|\n                9[1-68]\n              )|\n              4(?:\n                1[124-9]|\n                2[179]|\n                [35][1-9]|\n                6[47-9]|\n                7\\d|\n                8[23]\n              )|\n              5(?:\n                [1357]\\d|\n                2[37]|\n                4[36]|\n                6[1-46]|\n                80|\n                9[1-9]\n              )|\n              6(?:\n                3[1-5]|\n                6[0238]|\n                9[12]\n              )|\n              7(?:\n                01|\n                [1579]\\d|\n                2[248]|\n                3[014-9]|\n                4[3-6]|\n                6[023689]\n              )|\n              8(?:\n                1[236-8]|\n                2[5-7]|\n                [37]\\d|\n                5[1-9]|\n                8[36-8]|\n                9[1-8]\n              )|\n              9(?:\n                0[1-3689]|\n                1[1-79]|\n                3\\d|\n                4[13]|\n                5[1-5]|\n                7[0-79]|\n                9[0-35-9]\n              )\n            )12\n          ", str% "\n            10(?:\n              1(?:\n                0|\n                23\n              )|\n              9[56]\n            )|\n            2[0-57-9](?:\n              1(?:\n                00|\n                23\n              )|\n              9[56]\n            )|\n            807812|\n            (?:\n              3(?:\n                [157]\\d|\n                35|\n                49|\n                9[1-68]\n              )|\n              4(?:\n                1[124-9]|\n                2[179]|\n                [35][1-9]|\n                6[47-9]|\n                7\\d|\n                8[23]\n              )|\n              5(?:\n                [1357]\\d|\n                2[37]|\n                4[36]|\n                6[1-46]|\n                80|\n                9[1-9]\n              )|\n              6(?:\n                3[1-5]|\n                6[0238]|\n                9[12]\n              )|\n              7(?:\n                01|\n                [1579]\\d|\n                2[248]|\n                3[014-9]|\n                4[3-6]|\n                6[023689]\n              )|\n              8(?:\n                1[236-8]|\n                2[5-7]|\n                [37]\\d|\n                5[1-9]|\n                8[36-8]|\n                9[1-8]\n              )|\n              9(?:\n                0[1-3689]|\n                1[1-79]|\n                3\\d|\n                4[13]|\n                5[1-5]|\n                7[0-79]|\n                9[0-35-9]\n              )\n            )123\n          ", str% "\n            10(?:\n              1(?:\n                0|\n                23\n              )|\n              9[56]\n            )|\n            2[0-57-9](?:\n              1(?:\n                00|\n                23\n              )|\n              9[56]\n            )|\n            (?:\n              3(?:\n                [157]\\d|\n                35|\n                49|\n                9[1-68]\n              )|\n              4(?:\n                1[124-9]|\n                2[179]|\n                [35][1-9]|\n                6[47-9]|\n                7\\d|\n                8[23]\n              )|\n              5(?:\n                [1357]\\d|\n                2[37]|\n                4[36]|\n                6[1-46]|\n                80|\n                9[1-9]\n              )|\n              6(?:\n                3[1-5]|\n                6[0238]|\n                9[12]\n              )|\n              7(?:\n                01|\n                [1579]\\d|\n                2[248]|\n                3[014-9]|\n                4[3-6]|\n                6[023689]\n              )|\n              8(?:\n                078|\n                1[236-8]|\n                2[5-7]|\n                [37]\\d|\n                5[1-9]|\n                8[36-8]|\n                9[1-8]\n              )|\n              9(?:\n                0[1-3689]|\n                1[1-79]|\n                3\\d|\n                4[13]|\n                5[1-5]|\n                7[0-79]|\n                9[0-35-9]\n              )\n            )123\n          "], nationalPrefixFormattingRule := some (str% "$NP$FG"), domesticCarrier := some (str% "$CC $FG") },
      { pattern := some (str% "(\\d{3})(\\d{4})"), format := some (str% "$1 $2"), leadingDigits := [str% "[1-9]", str% "\n            1[1-9]|\n            26|\n            [3-9]|\n            (?:\n              10|\n              2[0-57-9]\n            )(?:\n              [0-8]|\n              9[0-47-9]\n            )\n          ", str% "\n            1(?:\n              0(?:\n                [02-8]|\n                1(?:\n                  [013-9]|\n                  2[0-24-9]\n                )|\n                9[0-47-9]\n              )|\n              [1-9]\n            )|\n            2(?:\n              [0-57-9](?:\n                [02-8]|\n                1(?:\n                  0[1-9]|\n                  [13-9]|\n                  2[0-24-9]\n                )|\n                9[0-47-9]\n              )|\n              6\n            )|\n            [3-9]\n          ", str% "\n            1(?:\n              0(?:\n                [02-8]|\n                1(?:\n                  [013-9]|\n                  2[0-24-9]\n                )|\n                9[0-47-9]\n              )|\n              [1-9]\n            )|\n            2(?:\n              [0-57-9](?:\n                [02-8]|\n                1(?:\n                  0[1-9]|\n                  [13-9]|\n                  2[0-24-9]\n                )|\n                9[0-47-9]\n              )|\n              6\n            )|\n            3(?:\n              [0268]|\n              3[0-46-9]|\n              4[0-8]|\n              9[079]\n            )|\n            4(?:\n              [049]|\n              1[03]|\n              2[02-68]|\n              [35]0|\n              6[0-356]|\n              8[014-9]\n            )|\n            5(?:\n              0|\n              2[0-24-689]|\n              4[0-2457-9]|\n              6[057-9]|\n              8[1-9]|\n              90\n            )|\n            6(?:\n              [0-24578]|\n              3[06-9]|\n              6[14-79]|\n              9[03-9]\n            )|\n            7(?:\n              0[02-9]|\n              2[0135-79]|\n              3[23]|\n              4[0-27-9]|\n              6[1457]|\n              8\n            )|\n            8(?:\n              [046]|\n              1[01459]|\n              2[0-489]|\n              50|\n              8[0-2459]|\n              9[09]\n            )|\n            9(?:\n              0[0457]|\n              1[08]|\n              [268]|\n              4[024-9]|\n              5[06-9]|\n              78|\n              94\n            )|\n            (?:\n              3(?:\n                [157]\\d|\n                35|\n                49|\n                9[1-68]\n              )|\n              4(?:\n                1[124-9]|\n                2[179]|\n                [35][1-9]|\n                6[47-9]|\n                7\\d|\n                8[23]\n              )|\n              5(?:\n                [1357]\\d|\n                2[37]|\n                4[36]|\n                6[1-46]|\n                80|\n                9[1-9]\n              )|\n              6(?:\n                3[1-5]|\n                6[0238]|\n                9[12]\n              )|\n              7(?:\n                01|\n                [1579]\\d|\n                2[248]|\n                3[014-9]|\n                4[3-6]|\n                6[023689]\n              )|\n              8(?:\n                1[236-8]|\n                2[5-7]|\n                [37]\\d|\n                5[1-9]|\n                8[36-8]|\n                9[1-8]\n              )|\n              9(?:\n                0[1-3689]|\n                1[1-79]|\n                3\\d|\n                4[13]|\n                5[1-5]|\n                7[0-79]|\n                9[0-35-9]\n              )\n            )(?:\n              [02-9]|\n              1(?:\n                [013-9]|\n                2[0-24-9]\n              )\n            )\n          ", str% "\n            1(?:\n              0(?:\n                [02-8]|\n                1(?:\n                  [013-9]|\n                  2[0-24-9]\n                )|\n                9[0-47-9]\n              )|\n              [1-9]\n            )|\n            2(?:\n              [0-57-9](?:\n                [02-8]|\n                1(?:\n                  0[1-9]|\n                  [13-9]|\n                  2[0-24-9]\n                )|\n                9[0-47-9]\n              )|\n              6\n            )|\n            3(?:\n              [0268]|\n              3[0-46-9]|\n              4[0-8]|\n              9[079]\n            )|\n            4(?:\n              [049]|\n              1[03]|\n              2[02-68]|\n              [35]0|\n              6[0-356]|\n              8[014-9]\n            )|\n            5(?:\n              0|\n              2[0-24-689]|\n              4[0-2457-9]|\n              6[057-9]|\n              8[1-9]|\n              90\n            )|\n            6(?:\n              [0-24578]|\n              3[06-9]|\n              6[14-79]|\n              9[03-9]\n            )|\n            7(?:\n              0[02-9]|\n              2[0135-79]|\n              3[23]|\n              4[0-27-9]|\n              6[1457]|\n              8\n            )|\n            8(?:\n              0(?:\n                [0-689]|\n                7[0-79]\n              )|\n              1[01459]|\n              2[0-489]|\n              [46]|\n              50|\n              8[0-2459]|\n              9[09]\n            )|\n            9(?:\n              0[0457]|\n              1[08]|\n              [268]|\n              4[024-9]|\n              5[06-9]|\n              78|\n              94\n            )|\n            (?:\n              3(?:\n                [157]\\d|\n                35|\n                49|\n                9[1-68]\n              )|\n              4(?:\n                1[124-9]|\n                2[179]|\n                [35][1-9]|\n                6[47-9]|\n                7\\d|\n                8[23]\n              )|\n              5(?:\n                [1357]\\d|\n                2[37]|\n                4[36]|\n                6[1-46]|\n                80|\n                9[1-9]\n              )|\n              6(?:\n                3[1-5]|\n                6[0238]|\n                9[12]\n              )|\n              7(?:\n                01|\n                [1579]\\d|\n                2[248]|\n                3[014-9]|\n                4[3-6]|\n                6[023689]\n              )|\n              8(?:\n                078|\n                1[236-8]|\n                2[5-7]|\n                [37]\\d|\n                5[1-9]|\n                8[36-8]|\n                9[1-8]\n              )|\n              9(?:\n                0[1-3689]|\n                1[1-79]|\n                3\\d|\n                4[13]|\n                5[1-5]|\n                7[0-79]|\n                9[0-35-9]\n              )\n            )(?:\n              [02-9]|\n              1(?:\n                [013-9]|\n                2[0-24-9]\n              )\n            )\n          "] },
      { pattern := some (str% "(\\d{4})(\\d{4})"), format := some (str% "$1 $2"), leadingDigits := [str% "16[08]"] },
      { pattern := some (str% "(\\d{3})(\\d{5,6})"), format := some (str% "$1 $2"), leadingDigits := [str% "\n            3(?:\n              [157]|\n              35|\n              49|\n              9[1-68]\n            )|\n            4(?:\n              [17]|\n              2[179]|\n              6[47-9]|\n              8[23]\n            )|\n            5(?:\n              [1357]|\n              2[37]|\n              4[36]|\n              6[1-46]|\n              80\n            )|\n            6(?:\n              3[1-5]|\n              6[0238]|\n              9[12]\n            )|\n            7(?:\n              01|\n              [1579]|\n              2[248]|\n              3[014-9]|\n              4[3-6]|\n              6[023689]\n            )|\n            8(?:\n              1[236-8]|\n              2[5-7]|\n              [37]|\n              8[36-8]|\n              9[1-8]\n            )|\n            9(?:\n              0[1-3689]|\n              1[1-79]|\n              [379]|\n              4[13]|\n              5[1-5]\n            )|\n            (?:\n              4[35]|\n              59|\n              85\n            )[1-9]\n          ", str% "\n            (?:\n              3(?:\n                [157]\\d|\n                35|\n                49|\n                9[1-68]\n              )|\n              4(?:\n                [17]\\d|\n                2[179]|\n                [35][1-9]|\n                6[47-9]|\n                8[23]\n              )|\n              5(?:\n                [1357]\\d|\n                2[37]|\n                4[36]|\n                6[1-46]|\n                80|\n                9[1-9]\n              )|\n              6(?:\n                3[1-5]|\n                6[0238]|\n                9[12]\n              )|\n              7(?:\n                01|\n                [1579]\\d|\n                2[248]|\n                3[014-9]|\n                4[3-6]|\n                6[023689]\n              )|\n              8(?:\n                1[236-8]|\n                2[5-7]|\n                [37]\\d|\n                5[1-9]|\n                8[36-8]|\n                9[1-8]\n              )|\n              9(?:\n                0[1-3689]|\n                1[1-79]|\n                [379]\\d|\n                4[13]|\n                5[1-5]\n              )\n            )[19]\n          ", str% "\n            85[23](?:\n              10|\n              95\n            )|\n            (?:\n              3(?:\n                [157]\\d|\n                35|\n                49|\n                9[1-68]\n              )|\n              4(?:\n                [17]\\d|\n                2[179]|\n                [35][1-9]|\n                6[47-9]|\n                8[23]\n              )|\n              5(?:\n                [1357]\\d|\n                2[37]|\n                4[36]|\n                6[1-46]|\n                80|\n                9[1-9]\n              )|\n              6(?:\n                3[1-5]|\n                6[0238]|\n                9[12]\n              )|\n              7(?:\n                01|\n                [1579]\\d|\n                2[248]|\n                3[014-9]|\n                4[3-6]|\n                6[023689]\n              )|\n              8(?:\n                1[236-8]|\n                2[5-7]|\n                [37]\\d|\n                5[14-9]|\n                8[36-8]|\n                9[1-8]\n              )|\n              9(?:\n                0[1-3689]|\n                1[1-79]|\n                [379]\\d|\n                4[13]|\n                5[1-5]\n              )\n            )(?:\n              10|\n              9[56]\n            )\n          ", str% "\n            85[23](?:\n              100|\n              95\n            )|\n            (?:\n              3(?:\n                [157]\\d|\n                35|\n                49|\n                9[1-68]\n              )|\n              4(?:\n                [17]\\d|\n                2[179]|\n                [35][1-9]|\n                6[47-9]|\n                8[23]\n              )|\n              5(?:\n                [1357]\\d|\n                2[37]|\n                4[36]|\n                6[1-46]|\n                80|\n                9[1-9]\n              )|\n              6(?:\n                3[1-5]|\n                6[0238]|\n                9[12]\n              )|\n              7(?:\n                01|\n                [1579]\\d|\n                2[248]|\n                3[014-9]|\n                4[3-6]|\n                6[023689]\n              )|\n              8(?:\n                1[236-8]|\n                2[5-7]|\n                [37]\\d|\n                5[14-9]|\n                8[36-8]|\n                9[1-8]\n              )|\n              9(?:\n                0[1-3689]|\n                1[1-79]|\n                [379]\\d|\n                4[13]|\n                5[1-5]\n              )\n            )(?:\n              100|\n              9[56]\n            )\n          "], nationalPrefixFormattingRule := some (str% "$NP$FG"), domesticCarrier := some (str% "$CC $FG") },
      { pattern := some (str% "(\\d{4})(\\d{4})"), format := some (str% "$1 $2"), leadingDigits := [str% "[1-9]", str% "\n            1(?:\n              0(?:\n                [02-8]|\n                1[1-9]|\n                9[0-47-9]\n              )|\n              [1-9]\n            )|\n            2(?:\n              [0-57-9](?:\n                [0-8]|\n                9[0-47-9]\n              )|\n              6\n            )|\n            [3-9]\n          ", str% "\n            1(?:\n              0(?:\n                [02-8]|\n                1[1-9]|\n                9[0-47-9]\n              )|\n              [1-9]\n            )|\n            26|\n            3(?:\n              [0268]|\n              4[0-8]|\n              9[079]\n            )|\n            4(?:\n              [049]|\n              2[02-68]|\n              [35]0|\n              6[0-356]|\n              8[014-9]\n            )|\n            5(?:\n              0|\n              2[0-24-689]|\n              4[0-2457-9]|\n              6[057-9]|\n              8[1-9]|\n              90\n            )|\n            6(?:\n              [0-24578]|\n              3[06-9]|\n              6[14-79]|\n              9[03-9]\n            )|\n            7(?:\n              0[02-9]|\n              2[0135-79]|\n              3[23]|\n              4[0-27-9]|\n              6[1457]|\n              8\n            )|\n            8(?:\n              [046]|\n              1[01459]|\n              2[0-489]|\n              5(?:\n                0|\n                [23][0-8]\n              )|\n              8[0-2459]|\n              9[09]\n            )|\n            9(?:\n              0[0457]|\n              1[08]|\n              [268]|\n              4[024-9]|\n              5[06-9]\n            )|\n            (?:\n              33|\n              85[23]9\n            )[0-46-9]|\n            (?:\n              2[0-57-9]|\n              3(?:\n                [157]\\d|\n                35|\n                49|\n                9[1-68]\n              )|\n              4(?:\n                [17]\\d|\n                2[179]|\n                [35][1-9]|\n                6[47-9]|\n                8[23]\n              )|\n              5(?:\n                [1357]\\d|\n                2[37]|\n                4[36]|\n                6[1-46]|\n                80|\n                9[1-9]\n              )|\n              6(?:\n                3[1-5]|\n                6[0238]|\n                9[12]\n              )|\n              7(?:\n                01|\n                [1579]\\d|\n                2[248]|\n                3[014-9]|\n                4[3-6]|\n                6[023689]\n              )|\n              8(?:\n                1[236-8]|\n                2[5-7]|\n                [37]\\d|\n                5[14-9]|\n                8[36-8]|\n                9[1-8]\n              )|\n              9(?:\n                0[1-3689]|\n                1[1-79]|\n                [379]\\d|\n                4[13]|\n                5[1-5]\n              )\n            )(?:\n              [0-8]|\n              9[0-47-9]\n            )\n          ", str% "\n            1(?:\n              0[02-8]|\n              [1-9]\n            )|\n            2(?:\n              [0-57-9][0-8]|\n              6\n            )|\n            3(?:\n              [0268]|\n              3[0-46-9]|\n              4[0-8]|\n              9[079]\n            )|\n            4(?:\n              [049]|\n              2[02-68]|\n              [35]0|\n              6[0-356]|\n              8[014-9]\n            )|\n            5(?:\n              0|\n              2[0-24-689]|\n              4[0-2457-9]|\n              6[057-9]|\n              90\n            )|\n            6(?:\n              [0-24578]|\n              3[06-9]|\n              6[14-79]|\n              9[03-9]\n            )|\n            7(?:\n              0[02-9]|\n              2[0135-79]|\n              3[23]|\n              4[0-27-9]|\n              6[1457]|\n              8\n            )|\n            8(?:\n              [046]|\n              1[01459]|\n              2[0-489]|\n              5(?:\n                0|\n                [23](?:\n                  [02-8]|\n                  1[1-9]|\n                  9[0-46-9]\n                )\n              )|\n              8[0-2459]|\n              9[09]\n            )|\n            9(?:\n              0[0457]|\n              1[08]|\n              [268]|\n              4[024-9]|\n              5[06-9]\n            )|\n            (?:\n              10|\n              2[0-57-9]\n            )9[0-47-9]|\n            (?:\n              101|\n              58|\n              85[23]10\n            )[1-9]|\n            (?:\n              3(?:\n                [157]\\d|\n                35|\n                49|\n                9[1-68]\n              )|\n              4(?:\n                [17]\\d|\n                2[179]|\n                [35][1-9]|\n                6[47-9]|\n                8[23]\n              )|\n              5(?:\n                [1357]\\d|\n                2[37]|\n                4[36]|\n                6[1-46]|\n                80|\n                9[1-9]\n              )|\n              6(?:\n                3[1-5]|\n                6[0238]|\n                9[12]\n              )|\n              7(?:\n                01|\n                [1579]\\d|\n                2[248]|\n                3[014-9]|\n                4[3-6]|\n                6[023689]\n              )|\n              8(?:\n                1[236-8]|\n                2[5-7]|\n                [37]\\d|\n                5[14-9]|\n                8[36-8]|\n                9[1-8]\n              )|\n              9(?:\n                0[1-3689]|\n                1[1-79]|\n                [379]\\d|\n                4[13]|\n                5[1-5]\n              )\n            )(?:\n              [02-8]|\n              1(?:\n                0[1-9]|\n                [1-9]\n              )|\n              9[0-47-9]\n            )\n          "] },
      { pattern := some (str% "(\\d{3})(\\d{3})(\\d{4})"), format := some (str% "$1 $2 $3"), leadingDigits := [str% "\n            (?:\n              4|\n              80\n            )0\n          "] },
      { pattern := some (str% "(\\d{2})(\\d{4})(\\d{4})"), format := some (str% "$1 $2 $3"), leadingDigits := [str% "\n            10|\n            2(?:\n              [02-57-9]|\n              1[1-9]\n            )\n          ", str% "\n            10|\n            2(?:\n              [02-57-9]|\n              1[1-9]\n            )\n          ", str% "\n            10[0-79]|\n            2(?:\n              [02-57-9]|\n              1[1-79]\n            )|\n            (?:\n              10|\n              21\n            )8(?:\n              0[1-9]|\n              [1-9]\n            )\n          "], nationalPrefixFormattingRule := some (str% "$NP$FG"), nationalPrefixOptionalWhenFormatting := true, domesticCarrier := some (str% "$CC $FG") },
      { pattern := some (str% "(\\d{3})(\\d{3})(\\d{4})"), format := some (str% "$1 $2 $3"), leadingDigits := [str% "\n            3(?:\n              [3-59]|\n              7[02-68]\n            )|\n            4(?:\n              [26-8]|\n              3[3-9]|\n              5[2-9]\n            )|\n            5(?:\n              3[03-9]|\n              [468]|\n              7[028]|\n              9[2-46-9]\n            )|\n            6|\n            7(?:\n              [0-247]|\n              3[04-9]|\n              5[0-4689]|\n              6[2368]\n            )|\n            8(?:\n              [1-358]|\n              9[1-7]\n            )|\n            9(?:\n              [013479]|\n              5[1-5]\n            )|\n            (?:\n              [34]1|\n              55|\n              79|\n              87\n            )[02-9]\n          "], nationalPrefixFormattingRule := some (str% "$NP$FG"), nationalPrefixOptionalWhenFormatting := true, domesticCarrier := some (str% "$CC $FG") },
      { pattern := some (str% "(\\d{3})(\\d{7,8})"), format := some (str% "$1 $2"), leadingDigits := [str% "9"] },
      { pattern := some (str% "(\\d{4})(\\d{3})(\\d{4})"), format := some (str% "$1 $2 $3"), leadingDigits := [str% "80"], nationalPrefixFormattingRule := some (str% "$NP$FG"), nationalPrefixOptionalWhenFormatting := true, domesticCarrier := some (str% "$CC $FG") },
      { pattern := some (str% "(\\d{3})(\\d{4})(\\d{4})"), format := some (str% "$1 $2 $3"), leadingDigits := [str% "[3-578]"], nationalPrefixFormattingRule := some (str% "$NP$FG"), nationalPrefixOptionalWhenFormatting := true, domesticCarrier := some (str% "$CC $FG") },
      { pattern := some (str% "(\\d{3})(\\d{4})(\\d{4})"), format := some (str% "$1 $2 $3"), leadingDigits := [str% "1[3-9]"], domesticCarrier := some (str% "$CC $FG") },
      { pattern := some (str% "(\\d{2})(\\d{3})(\\d{3})(\\d{4})"), format := some (str% "$1 $2 $3 $4"), leadingDigits := [str% "[12]"], nationalPrefixFormattingRule := some (str% "$NP$FG"), nationalPrefixOptionalWhenFormatting := true }],
    internationalFormats := [
      { pattern := some (str% "(\\d{2})(\\d{5,6})"), format := some (str% "$1 $2"), leadingDigits := [str% "\n            (?:\n              10|\n              2[0-57-9]\n            )[19]|\n            3(?:\n              [157]|\n              35|\n              49|\n              9[1-68]\n            )|\n            4(?:\n              1[124-9]|\n              2[179]|\n              6[47-9]|\n              7|\n              8[23]\n            )|\n            5(?:\n              [1357]|\n              2[37]|\n              4[36]|\n              6[1-46]|\n              80\n            )|\n            6(?:\n              3[1-5]|\n              6[0238]|\n              9[12]\n            )|\n            7(?:\n              01|\n              [1579]|\n              2[248]|\n              3[014-9]|\n              4[3-6]|\n              6[023689]\n            )|\n            8(?:\n              07|\n              1[236-8]|\n              2[5-7]|\n              [37]|\n              8[36-8]|\n              9[1-8]\n            )|\n            9(?:\n              0[1-3689]|\n              1[1-79]|\n              3|\n              4[13]|\n              5[1-5]|\n              7[0-79]|\n              9[0-35-9]\n            )|\n            (?:\n              4[35]|\n              59|\n              85\n            )[1-9]\n          ", str% "\n            (?:\n              10|\n              2[0-57-9]\n            )(?:\n              1[02]|\n              9[56]\n            )|\n            8078|\n            (?:\n              3(?:\n                [157]\\d|\n                35|\n                49|\n                9[1-68]\n              )|\n              4(?:\n                1[124-9]|\n                2[179]|\n                [35][1-9]|\n                6[47-9]|\n                7\\d|\n                8[23]\n              )|\n              5(?:\n                [1357]\\d|\n                2[37]|\n                4[36]|\n                6[1-46]|\n                80|\n                9[1-9]\n              )|\n              6(?:\n                3[1-5]|\n                6[0238]|\n                9[12]\n              )|\n              7(?:\n                01|\n                [1579]\\d|\n                2[248]|\n                3[014-9]|\n                4[3-6]|\n                6[023689]\n              )|\n              8(?:\n                1[236-8]|\n                2[5-7]|\n                [37]\\d|\n                5[1-9]|\n                8[36-8]|\n                9[1-8]\n              )|\n              9(?:\n                0[1-3689]|\n                1[1-79]|\n                3\\d|\n                4[13]|\n                5[1-5]|\n                7[0-79]|\n                9[0-35-9]\n              )\n            )1\n          ", str% "\n            10(?:\n              1(?:\n                0|\n                23\n              )|\n              9[56]\n            )|\n            2[0-57-9](?:\n              1(?:\n                00|\n                23\n              )|\n              9[56]\n            )|\n            80781|\n            (?:\n              3(?:\n                [157]\\d|\n                35|\n                49|\n                9[1-68]\n              )|\n              4(?:\n                1[124-9]|\n                2[179]|\n                [35][1-9]|\n                6[47-9]|\n                7\\d|\n                8[23]\n              )|\n              5(?:\n                [1357]\\d|\n                2[37]|\n                4[36]|\n                6[1-46]|\n                80|\n                9[1-9]\n              )|\n              6(?:\n                3[1-5]|\n                6[0238]|\n                9[12]\n              )|\n              7(?:\n                01|\n                [1579]\\d|\n                2[248]|\n                3[014-9]|\n                4[3-6]|\n                6[023689]\n              )|\n              8(?:\n                1[236-8]|\n                2[5-7]|\n                [37]\\d|\n                5[1-9]|\n                8[36-8]|\n                9[1-8]\n              )|\n              9(?:\n                0[1-3689]|\n                1[1-79]|\n                3\\d|\n                4[13]|\n                5[1-5]|\n                7[0-79]|\n                9[0-35-9]\n              )\n            )12\n          ", str% "\n            10(?:\n              1(?:\n                0|\n                23\n              )|\n              9[56]\n            )|\n            2[0-57-9](?:\n              1(?:\n                00|\n                23\n              )|\n              9[56]\n            )|\n            807812|\n            (?:\n              3(?:\n                [157]\\d|\n                35|\n                49|\n                9[1-68]\n              )|\n              4(?:\n                1[124-9]|\n                2[179]|\n                [35][1-9]|\n                6[47-9]|\n                7\\d|\n                8[23]\n              )|\n              5(?:\n                [1357]\\d|\n                2[37]|\n                4[36]|\n                6[1-46]|\n                80|\n                9[1-9]\n              )|\n              6(?:\n                3[1-5]|\n                6[0238]|\n                9[12]\n              )|\n              7(?:\n                01|\n                [1579]\\d|\n                2[248]|\n                3[014-9]|\n                4[3-6]|\n                6[023689]\n              )|\n              8(?:\n                1[236-8]|\n                2[5-7]|\n                [37]\\d|\n                5[1-9]|\n                8[36-8]|\n                9[1-8]\n              )|\n              9(?:\n                0[1-3689]|\n                1[1-79]|\n                3\\d|\n                4[13]|\n                5[1-5]|\n                7[0-79]|\n                9[0-35-9]\n              )\n            )123\n          ", str% "\n            10(?:\n              1(?:\n                0|\n                23\n              )|\n              9[56]\n            )|\n            2[0-57-9](?:\n              1(?:\n                00|\n                23\n              )|\n              9[56]\n            )|\n            (?:\n              3(?:\n                [157]\\d|\n                35|\n                49|\n                9[1-68]\n              )|\n              4(?:\n                1[124-9]|\n                2[179]|\n                [35][1-9]|\n                6[47-9]|\n                7\\d|\n                8[23]\n              )|\n              5(?:\n                [1357]\\d|\n                2[37]|\n                4[36]|\n                6[1-46]|\n                80|\n                9[1-9]\n              )|\n              6(?:\n                3[1-5]|\n                6[0238]|\n                9[12]\n              )|\n              7(?:\n                01|\n                [1579]\\d|\n                2[248]|\n                3[014-9]|\n                4[3-6]|\n                6[023689]\n              )|\n              8(?:\n                078|\n                1[236-8]|\n                2[5-7]|\n                [37]\\d|\n                5[1-9]|\n                8[36-8]|\n                9[1-8]\n              )|\n              9(?:\n                0[1-3689]|\n                1[1-79]|\n                3\\d|\n                4[13]|\n                5[1-5]|\n                7[0-79]|\n                9[0-35-9]\n              )\n            )123\n          "], nationalPrefixFormattingRule := some (str% "$NP$FG"), domesticCarrier := some (str% "$CC $FG") },
      { pattern := some (str% "(\\d{3})(\\d{5,6})"), format := some (str% "$1 $2"), leadingDigits := [str% "\n            3(?:\n              [157]|\n              35|\n              49|\n              9[1-68]\n            )|\n            4(?:\n              [17]|\n              2[179]|\n              6[47-9]|\n              8[23]\n            )|\n            5(?:\n              [1357]|\n              2[37]|\n              4[36]|\n              6[1-46]|\n              80\n            )|\n            6(?:\n              3[1-5]|\n              6[0238]|\n              9[12]\n            )|\n            7(?:\n              01|\n              [1579]|\n              2[248]|\n              3[014-9]|\n              4[3-6]|\n              6[023689]\n            )|\n            8(?:\n              1[236-8]|\n              2[5-7]|\n              [37]|\n              8[36-8]|\n              9[1-8]\n            )|\n            9(?:\n              0[1-3689]|\n              1[1-79]|\n              [379]|\n              4[13]|\n              5[1-5]\n            )|\n            (?:\n              4[35]|\n              59|\n              85\n            )[1-9]\n          ", str% "\n            (?:\n              3(?:\n                [157]\\d|\n                35|\n                49|\n                9[1-68]\n              )|\n              4(?:\n                [17]\\d|\n                2[179]|\n                [35][1-9]|\n                6[47-9]|\n                8[23]\n              )|\n              5(?:\n                [1357]\\d|\n                2[37]|\n                4[36]|\n                6[1-46]|\n                80|\n                9[1-9]\n              )|\n              6(?:\n                3[1-5]|\n                6[0238]|\n                9[12]\n              )|\n              7(?:\n                01|\n                [1579]\\d|\n                2[248]|\n                3[014-9]|\n                4[3-6]|\n                6[023689]\n              )|\n              8(?:\n                1[236-8]|\n                2[5-7]|\n                [37]\\d|\n                5[1-9]|\n                8[36-8]|\n                9[1-8]\n              )|\n              9(?:\n                0[1-3689]|\n                1[1-79]|\n                [379]\\d|\n                4[13]|\n                5[1-5]\n              )\n            )[19]\n          ", str% "\n            85[23](?:\n              10|\n              95\n            )|\n            (?:\n              3(?:\n                [157]\\d|\n                35|\n                49|\n                9[1-68]\n              )|\n              4(?:\n                [17]\\d|\n                2[179]|\n                [35][1-9]|\n                6[47-9]|\n                8[23]\n              )|\n              5(?:\n                [1357]\\d|\n                2[37]|\n                4[36]|\n                6[1-46]|\n                80|\n                9[1-9]\n              )|\n              6(?:\n                3[1-5]|\n                6[0238]|\n                9[12]\n              )|\n              7(?:\n                01|\n                [1579]\\d|\n                2[248]|\n                3[014-9]|\n                4[3-6]|\n                6[023689]\n              )|\n              8(?:\n                1[236-8]|\n                2[5-7]|\n                [37]\\d|\n                5[14-9]|\n                8[36-8]|\n                9[1-8]\n              )|\n              9(?:\n                0[1-3689]|\n                1[1-79]|\n                [379]\\d|\n                4[13]|\n                5[1-5]\n              )\n            )(?:\n              10|\n              9[56]\n            )\n          ", str% "\n            85[23](?:\n              100|\n              95\n            )|\n            (?:\n              3(?:\n                [157]\\d|\n                35|\n                49|\n                9[1-68]\n              )|\n              4(?:\n                [17]\\d|\n                2[179]|\n                [35][1-9]|\n                6[47-9]|\n                8[23]\n              )|\n              5(?:\n                [1357]\\d|\n                2[37]|\n                4[36]|\n                6[1-46]|\n                80|\n                9[1-9]\n              )|\n              6(?:\n                3[1-5]|\n                6[0238]|\n                9[12]\n              )|\n              7(?:\n                01|\n                [1579]\\d|\n                2[248]|\n                3[014-9]|\n                4[3-6]|\n                6[023689]\n              )|\n              8(?:\n                1[236-8]|\n                2[5-7]|\n                [37]\\d|\n                5[14-9]|\n                8[36-8]|\n                9[1-8]\n              )|\n              9(?:\n                0[1-3689]|\n                1[1-79]|\n                [379]\\d|\n                4[13]|\n                5[1-5]\n              )\n            )(?:\n              100|\n              9[56]\n            )\n          "], nationalPrefixFormattingRule := some (str% "$NP$FG"), domesticCarrier := some (str% "$CC $FG") },
      { pattern := some (str% "(\\d{3})(\\d{3})(\\d{4})"), format := some (str% "$1 $2 $3"), leadingDigits := [str% "\n            (?:\n              4|\n              80\n            )0\n          "] },
      { pattern := some (str% "(\\d{2})(\\d{4})(\\d{4})"), format := some (str% "$1 $2 $3"), leadingDigits := [str% "\n            10|\n            2(?:\n              [02-57-9]|\n              1[1-9]\n            )\n          ", str% "\n            10|\n            2(?:\n              [02-57-9]|\n              1[1-9]\n            )\n          ", str% "\n            10[0-79]|\n            2(?:\n              [02-57-9]|\n              1[1-79]\n            )|\n            (?:\n              10|\n              21\n            )8(?:\n              0[1-9]|\n              [1-9]\n            )\n          "], nationalPrefixFormattingRule := some (str% "$NP$FG"), nationalPrefixOptionalWhenFormatting := true, domesticCarrier := some (str% "$CC $FG") },
      { pattern := some (str% "(\\d{3})(\\d{3})(\\d{4})"), format := some (str% "$1 $2 $3"), leadingDigits := [str% "\n            3(?:\n              [3-59]|\n              7[02-68]\n            )|\n            4(?:\n              [26-8]|\n              3[3-9]|\n              5[2-9]\n            )|\n            5(?:\n              3[03-9]|\n              [468]|\n              7[028]|\n              9[2-46-9]\n            )|\n            6|\n            7(?:\n              [0-247]|\n              3[04-9]|\n              5[0-4689]|\n              6[2368]\n            )|\n            8(?:\n              [1-358]|\n              9[1-7]\n            )|\n            9(?:\n              [013479]|\n              5[1-5]\n            )|\n            (?:\n              [34]1|\n              55|\n              79|\n              87\n            )[02-9]\n          "], nationalPrefixFormattingRule := some (str% "$NP$FG"), nationalPrefixOptionalWhenFormatting := true, domesticCarrier := some (str% "$CC $FG") },
      { pattern := some (str% "(\\d{3})(\\d{7,8})"), format := some (str% "$1 $2"), leadingDigits := [str% "9"] },
      { pattern := some (str% "(\\d{4})(\\d{3})(\\d{4})"), format := some (str% "$1 $2 $3"), leadingDigits := [str% "80"], nationalPrefixFormattingRule := some (str% "$NP$FG"), nationalPrefixOptionalWhenFormatting := true, domesticCarrier := some (str% "$CC $FG") },
      { pattern := some (str% "(\\d{3})(\\d{4})(\\d{4})"), format := some (str% "$1 $2 $3"), leadingDigits := [str% "[3-578]"], nationalPrefixFormattingRule := some (str% "$NP$FG"), nationalPrefixOptionalWhenFormatting := true, domesticCarrier := some (str% "$CC $FG") },
      { pattern := some (str% "(\\d{3})(\\d{4})(\\d{4})"), format := some (str% "$1 $2 $3"), leadingDigits := [str% "1[3-9]"], domesticCarrier := some (str% "$CC $FG") },
      { pattern := some (str% "(\\d{2})(\\d{3})(\\d{3})(\\d{4})"), format := some (str% "$1 $2 $3 $4"), leadingDigits := [str% "[12]"], nationalPrefixFormattingRule := some (str% "$NP$FG"), nationalPrefixOptionalWhenFormatting := true }] }

/-- territory id=CO countryCode=57 -/
noncomputable def CO : Loader.Metadata :=
  { general := some { nationalNumber := some (str% "\n          (?:\n            46|\n            60\\d\\d\n          )\\d{6}|\n          (?:\n            1\\d|\n            [39]\n          )\\d{9}\n        ") },
    fixedLine := some { nationalNumber := some (str% "\n          601055(?:\n            [0-4]\\d|\n            50\n          )\\d\\d|\n          6010(?:\n            [0-4]\\d|\n            5[0-4]\n          )\\d{4}|\n          (?:\n            46|\n            60(?:\n              [18][1-9]|\n              [24-7][2-9]\n            )\n          )\\d{6}\n        "), possibleLength := [8, 10], possibleLocalLength := [4, 7], example? := some (str% "6012345678") },
    mobile := some { nationalNumber := some (str% "\n          333301[0-5]\\d{3}|\n          3333(?:\n            00|\n            2[5-9]|\n            [3-9]\\d\n          )\\d{4}|\n          (?:\n            3(?:\n              (?:\n                0[0-5]|\n                1\\d|\n                5[01]|\n                70\n              )\\d|\n              2(?:\n                [0-3]\\d|\n                4[1-9]\n              )|\n              3(?:\n                00|\n                3[0-24-9]\n              )\n            )|\n            9(?:\n              101|\n              408\n            )\n          )\\d{6}\n        "), possibleLength := [10], example? := some (str% "3211234567") },
    tollFree := some { nationalNumber := some (str% "1800\\d{7}"), possibleLength := [11], example? := some (str% "18001234567") },
    premiumRate := some { nationalNumber := some (str% "\n          (?:\n            19(?:\n              0[01]|\n              4[78]\n            )|\n            901\n          )\\d{7}\n        "), possibleLength := [10, 11], example? := some (str% "19001234567") },
    id := some (str% "CO"),
    countryCode := some 57,
    internationalPrefix := some (str% "00(?:4(?:[14]4|56)|[579])"),
    nationalPrefix := some (str% "0"),
    nationalPrefixForParsing := some (str% "0([3579]|4(?:[14]4|56))?"),
    formats := [
      { pattern := some (str% "(\\d{4})(\\d{4})"), format := some (str% "$1 $2"), leadingDigits := [str% "46"] },
      { pattern := some (str% "(\\d{3})(\\d{7})"), format := some (str% "$1 $2"), leadingDigits := [str% "\n            6|\n            90\n          "], nationalPrefixFormattingRule := some (str% "($FG)"), domesticCarrier := some (str% "$NP$CC $FG") },
      { pattern := some (str% "(\\d{3})(\\d{7})"), format := some (str% "$1 $2"), leadingDigits := [str% "\n            3[0-357]|\n            9[14]\n          "], domesticCarrier := some (str% "$NP$CC $FG") },
      { pattern := some (str% "(\\d)(\\d{3})(\\d{7})"), format := some (str% "$1-$2-$3"), leadingDigits := [str% "1"], nationalPrefixFormattingRule := some (str% "$NP$FG") }],
    internationalFormats := [
      { pattern := some (str% "(\\d{4})(\\d{4})"), format := some (str% "$1 $2"), leadingDigits := [str% "46"] },
      { pattern := some (str% "(\\d{3})(\\d{7})"), format := some (str% "$1 $2"), leadingDigits := [str% "\n            6|\n            90\n          "], nationalPrefixFormattingRule := some (str% "($FG)"), domesticCarrier := some (str% "$NP$CC $FG") },
      { pattern := some (str% "(\\d{3})(\\d{7})"), format := some (str% "$1 $2"), leadingDigits := [str% "\n            3[0-357]|\n            9[14]\n          "], domesticCarrier := some (str% "$NP$CC $FG") },
      { pattern := some (str% "(\\d)(\\d{3})(\\d{7})"), format := some (str% "$1 $2 $3"), leadingDigits := [str% "1"], nationalPrefixFormattingRule := some (str% "$NP$FG") }],
    mobileNumberPortable := true }

/-- territory id=CR countryCode=506 -/
noncomputable def CR : Loader.Metadata :=
  { general := some { nationalNumber := some (str% "\n          (?:\n            8\\d|\n            90\n          )\\d{8}|\n          (?:\n            [24-8]\\d{3}|\n            3005\n          )\\d{4}\n        ") },
    fixedLine := some { nationalNumber := some (str% "\n          210[7-9]\\d{4}|\n          2(?:\n            [024-7]\\d|\n            1[1-9]\n          )\\d{5}\n        "), possibleLength := [8], example? := some (str% "22123456") },
    mobile := some { nationalNumber := some (str% "\n          (?:\n            3005\\d|\n            6500[01]\n          )\\d{3}|\n          (?:\n            5[07]|\n            6[0-4]|\n            7[0-3]|\n            8[3-9]\n          )\\d{6}\n        "), possibleLength := [8], example? := some (str% "83123456") },
    tollFree := some { nationalNumber := some (str% "800\\d{7}"), possibleLength := [10], example? := some (str% "8001234567") },
    premiumRate := some { nationalNumber := some (str% "90[059]\\d{7}"), possibleLength := [10], example? := some (str% "9001234567") },
    voip := some { nationalNumber := some (str% "\n          (?:\n            210[0-6]|\n            4\\d{3}|\n            5100\n          )\\d{4}\n        "), possibleLength := [8], example? := some (str% "40001234") },
    id := some (str% "CR"),
    countryCode := some 506,
    internationalPrefix := some (str% "00"),
    nationalPrefixForParsing := some (str% "(19(?:0[0-2468]|1[09]|20|66|77|99))"),
    formats := [
      { pattern := some (str% "(\\d{4})(\\d{4})"), format := some (str% "$1 $2"), leadingDigits := [str% "\n            [2-7]|\n            8[3-9]\n          "], domesticCarrier := some (str% "$CC $FG") },
      { pattern := some (str% "(\\d{3})(\\d{3})(\\d{4})"), format := some (str% "$1-$2-$3"), leadingDigits := [str% "[89]"], domesticCarrier := some (str% "$CC $FG") }],
    internationalFormats := [
      { pattern := some (str% "(\\d{4})(\\d{4})"), format := some (str% "$1 $2"), leadingDigits := [str% "\n            [2-7]|\n            8[3-9]\n          "], domesticCarrier := some (str% "$CC $FG") },
      { pattern := some (str% "(\\d{3})(\\d{3})(\\d{4})"), format := some (str% "$1-$2-$3"), leadingDigits := [str% "[89]"], domesticCarrier := some (str% "$CC $FG") }] }

/-- the territories of this module, in document order -/
noncomputable def chunk03 : List Loader.Metadata :=
  [CN, CO, CR]

end Phone.Data
