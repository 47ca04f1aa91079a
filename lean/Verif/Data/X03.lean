import Verif.Data.XNames
/-! Territories of `/repo/assets/PhoneNumberMetadata.xml` as trees. Generated by `tools/gen_xml.py`; do not edit. -/

set_option maxRecDepth 100000
namespace Phone.Data.X
open Phone.Xml

/-- what stands before this territory -/
noncomputable def CN_before : List Node :=
  [.l4, .comment, .s4, .comment, .s4, .comment, .s4, .comment, .s4]
/-- its attributes -/
noncomputable def CN_attrs : List (Str × Str) := [(n.id, str% "CN"), (n.countryCode, str% "86"), (n.preferredInternationalPrefix, str% "00"), (n.internationalPrefix, str% "00|1(?:[12]\\d|79)\\d\\d00"), (n.nationalPrefix, str% "0"), (n.nationalPrefixForParsing, str% "(1(?:[12]\\d|79)\\d\\d)|0")]
/-- its content -/
noncomputable def CN : List Node :=
  [.s6,
   .elem n.availableFormats []
    [.s8, .comment, .s8,
     .elem n.numberFormat [(n.pattern, str% "(\\d{5,6})")]
      [.s10,
       .leaf n.leadingDigits (str% "\n            1(?:\n              00|\n              2[13]\n            )|\n            9[56]\n          "), .s10,
       .leaf n.leadingDigits (str% "\n            1(?:\n              00|\n              2(?:\n                1|\n                39\n              )\n            )|\n            9[56]\n          "), .s10,
       .leaf n.leadingDigits (str% "\n            1(?:\n              00|\n              2(?:\n                1|\n                395\n              )\n            )|\n            9[56]\n          "), .s10,
       .leaf n.format (str% "$1"), .s10,
       .leaf n.intlFormat (str% "NA"), .s8], .s8,
     .elem n.numberFormat [(n.pattern, str% "(\\d{5,6})")]
      [.s10,
       .leaf n.leadingDigits (str% "\n            1(?:\n              0|\n              23\n            )|\n            781|\n            [1-9]12\n          "), .s10,
       .leaf n.leadingDigits (str% "\n            1(?:\n              0|\n              23\n            )|\n            7812|\n            [1-9]123\n          "), .s10,
       .leaf n.leadingDigits (str% "\n            1(?:\n              0|\n              23(?:\n                [0-8]|\n                9[0-46-9]\n              )\n            )|\n            78123|\n            [1-9]123\n          "), .s10,
       .leaf n.format (str% "$1"), .s10,
       .leaf n.intlFormat (str% "NA"), .s8], .s8, .comment, .s8,
     .elem n.numberFormat [(n.pattern, str% "(\\d{2})(\\d{5,6})"), (n.nationalPrefixFormattingRule, str% "$NP$FG"), (n.carrierCodeFormattingRule, str% "$CC $FG")]
      [.s10,
       .leaf n.leadingDigits (str% "\n            (?:\n              10|\n              2[0-57-9]\n            )[19]|\n            3(?:\n              [157]|\n              35|\n              49|\n              9[1-68]\n            )|\n            4(?:\n              1[124-9]|\n              2[179]|\n              6[47-9]|\n              7|\n              8[23]\n            )|\n            5(?:\n              [1357]|\n              2[37]|\n              4[36]|\n              6[1-46]|\n              80\n            )|\n            6(?:\n              3[1-5]|\n              6[0238]|\n              9[12]\n            )|\n            7(?:\n              01|\n              [1579]|\n              2[248]|\n              3[014-9]|\n              4[3-6]|\n              6[023689]\n            )|\n            8(?:\n              07|\n              1[236-8]|\n              2[5-7]|\n              [37]|\n              8[36-8]|\n              9[1-8]\n            )|\n            9(?:\n              0[1-3689]|\n              1[1-79]|\n              3|\n              4[13]|\n              5[1-5]|\n              7[0-79]|\n              9[0-35-9]\n            )|\n            (?:\n              4[35]|\n              59|\n              85\n            )[1-9]\n          "), .s10,
       .leaf n.leadingDigits (str% "\n            (?:\n              10|\n              2[0-57-9]\n            )(?:\n              1[02]|\n              9[56]\n            )|\n            8078|\n            (?:\n              3(?:\n                [157]\\d|\n                35|\n                49|\n                9[1-68]\n              )|\n              4(?:\n                1[124-9]|\n                2[179]|\n                [35][1-9]|\n                6[47-9]|\n                7\\d|\n                8[23]\n              )|\n              5(?:\n                [1357]\\d|\n                2[37]|\n                4[36]|\n                6[1-46]|\n                80|\n                9[1-9]\n              )|\n              6(?:\n                3[1-5]|\n                6[0238]|\n                9[12]\n              )|\n              7(?:\n                01|\n                [1579]\\d|\n                2[248]|\n                3[014-9]|\n                4[3-6]|\n                6[023689]\n              )|\n              8(?:\n                1[236-8]|\n                2[5-7]|\n                [37]\\d|\n                5[1-9]|\n                8[36-8]|\n                9[1-8]\n              )|\n              9(?:\n                0[1-3689]|\n                1[1-79]|\n                3\\d|\n                4[13]|\n                5[1-5]|\n                7[0-79]|\n                9[0-35-9]\n              )\n            )1\n          "), .s10,
       .leaf n.leadingDigits (str% "\n            10(?:\n              1(?:\n                0|\n                23\n              )|\n              9[56]\n            )|\n            2[0-57-9](?:\n              1(?:\n                00|\n                23\n              )|\n              9[56]\n            )|\n            80781|\n            (?:\n              3(?:\n                [157]\\d|\n                35|\n                49|\n                9[1-68]\n              )|\n              4(?:\n                1[124-9]|\n                2[179]|\n                [35][1-9]|\n                6[47-9]|\n                7\\d|\n                8[23]\n              )|\n              5(?:\n                [1357]\\d|\n                2[37]|\n                4[36]|\n                6[1-46]|\n                80|\n                9[1-9]\n              )|\n              6(?:\n                3[1-5]|\n                6[0238]|\n                9[12]\n              )|\n              7(?:\n                01|\n                [1579]\\d|\n                2[248]|\n                3[014-9]|\n                4[3-6]|\n                6[023689]\n              )|\n              8(?:\n                1[236-8]|\n                2[5-7]|\n                [37]\\d|\n                5[1-9]|\n                8[36-8]|\n                9[1-8]\n              )|\n              9(?:\n                0[1-3689]|\n                1[1-79]|\n                3\\d|\n                4[13]|\n                5[1-5]|\n                7[0-79]|\n                9[0-35-9]\n              )\n            )12\n          "), .s10,
       .leaf n.leadingDigits (str% "\n            10(?:\n              1(?:\n                0|\n                23\n              )|\n              9[56]\n            )|\n            2[0-57-9](?:\n              1(?:\n                00|\n                23\n              )|\n              9[56]\n            )|\n            807812|\n            (?:\n              3(?:\n                [157]\\d|\n                35|\n                49|\n                9[1-68]\n              )|\n              4(?:\n                1[124-9]|\n                2[179]|\n                [35][1-9]|\n                6[47-9]|\n                7\\d|\n                8[23]\n              )|\n              5(?:\n                [1357]\\d|\n                2[37]|\n                4[36]|\n                6[1-46]|\n                80|\n                9[1-9]\n              )|\n              6(?:\n                3[1-5]|\n                6[0238]|\n                9[12]\n              )|\n              7(?:\n                01|\n                [1579]\\d|\n                2[248]|\n                3[014-9]|\n                4[3-6]|\n                6[023689]\n              )|\n              8(?:\n                1[236-8]|\n                2[5-7]|\n                [37]\\d|\n                5[1-9]|\n                8[36-8]|\n                9[1-8]\n              )|\n              9(?:\n                0[1-3689]|\n                1[1-79]|\n                3\\d|\n                4[13]|\n                5[1-5]|\n                7[0-79]|\n                9[0-35-9]\n              )\n            )123\n          "), .s10,
       .leaf n.leadingDigits (str% "\n            10(?:\n              1(?:\n                0|\n                23\n              )|\n              9[56]\n            )|\n            2[0-57-9](?:\n              1(?:\n                00|\n                23\n              )|\n              9[56]\n            )|\n            (?:\n              3(?:\n                [157]\\d|\n                35|\n                49|\n                9[1-68]\n              )|\n              4(?:\n                1[124-9]|\n                2[179]|\n                [35][1-9]|\n                6[47-9]|\n                7\\d|\n                8[23]\n              )|\n              5(?:\n                [1357]\\d|\n                2[37]|\n                4[36]|\n                6[1-46]|\n                80|\n                9[1-9]\n              )|\n              6(?:\n                3[1-5]|\n                6[0238]|\n                9[12]\n              )|\n              7(?:\n                01|\n                [1579]\\d|\n                2[248]|\n                3[014-9]|\n                4[3-6]|\n                6[023689]\n              )|\n              8(?:\n                078|\n                1[236-8]|\n                2[5-7]|\n                [37]\\d|\n                5[1-9]|\n                8[36-8]|\n                9[1-8]\n              )|\n              9(?:\n                0[1-3689]|\n                1[1-79]|\n                3\\d|\n                4[13]|\n                5[1-5]|\n                7[0-79]|\n                9[0-35-9]\n              )\n            )123\n          "), .s10,
       .leaf n.format (str% "$1 $2"), .s8], .s8,
     .elem n.numberFormat [(n.pattern, str% "(\\d{3})(\\d{4})")]
      [.s10,
       .leaf n.leadingDigits (str% "[1-9]"), .s10,
       .leaf n.leadingDigits (str% "\n            1[1-9]|\n            26|\n            [3-9]|\n            (?:\n              10|\n              2[0-57-9]\n            )(?:\n              [0-8]|\n              9[0-47-9]\n            )\n          "), .s10,
       .leaf n.leadingDigits (str% "\n            1(?:\n              0(?:\n                [02-8]|\n                1(?:\n                  [013-9]|\n                  2[0-24-9]\n                )|\n                9[0-47-9]\n              )|\n              [1-9]\n            )|\n            2(?:\n              [0-57-9](?:\n                [02-8]|\n                1(?:\n                  0[1-9]|\n                  [13-9]|\n                  2[0-24-9]\n                )|\n                9[0-47-9]\n              )|\n              6\n            )|\n            [3-9]\n          "), .s10,
       .leaf n.leadingDigits (str% "\n            1(?:\n              0(?:\n                [02-8]|\n                1(?:\n                  [013-9]|\n                  2[0-24-9]\n                )|\n                9[0-47-9]\n              )|\n              [1-9]\n            )|\n            2(?:\n              [0-57-9](?:\n                [02-8]|\n                1(?:\n                  0[1-9]|\n                  [13-9]|\n                  2[0-24-9]\n                )|\n                9[0-47-9]\n              )|\n              6\n            )|\n            3(?:\n              [0268]|\n              3[0-46-9]|\n              4[0-8]|\n              9[079]\n            )|\n            4(?:\n              [049]|\n              1[03]|\n              2[02-68]|\n              [35]0|\n              6[0-356]|\n              8[014-9]\n            )|\n            5(?:\n              0|\n              2[0-24-689]|\n              4[0-2457-9]|\n              6[057-9]|\n              8[1-9]|\n              90\n            )|\n            6(?:\n              [0-24578]|\n              3[06-9]|\n              6[14-79]|\n              9[03-9]\n            )|\n            7(?:\n              0[02-9]|\n              2[0135-79]|\n              3[23]|\n              4[0-27-9]|\n              6[1457]|\n              8\n            )|\n            8(?:\n              [046]|\n              1[01459]|\n              2[0-489]|\n              50|\n              8[0-2459]|\n              9[09]\n            )|\n            9(?:\n              0[0457]|\n              1[08]|\n              [268]|\n              4[024-9]|\n              5[06-9]|\n              78|\n              94\n            )|\n            (?:\n              3(?:\n                [157]\\d|\n                35|\n                49|\n                9[1-68]\n              )|\n              4(?:\n                1[124-9]|\n                2[179]|\n                [35][1-9]|\n                6[47-9]|\n                7\\d|\n                8[23]\n              )|\n              5(?:\n                [1357]\\d|\n                2[37]|\n                4[36]|\n                6[1-46]|\n                80|\n                9[1-9]\n              )|\n              6(?:\n                3[1-5]|\n                6[0238]|\n                9[12]\n              )|\n              7(?:\n                01|\n                [1579]\\d|\n                2[248]|\n                3[014-9]|\n                4[3-6]|\n                6[023689]\n              )|\n              8(?:\n                1[236-8]|\n                2[5-7]|\n                [37]\\d|\n                5[1-9]|\n                8[36-8]|\n                9[1-8]\n              )|\n              9(?:\n                0[1-3689]|\n                1[1-79]|\n                3\\d|\n                4[13]|\n                5[1-5]|\n                7[0-79]|\n                9[0-35-9]\n              )\n            )(?:\n              [02-9]|\n              1(?:\n                [013-9]|\n                2[0-24-9]\n              )\n            )\n          "), .s10,
       .leaf n.leadingDigits (str% "\n            1(?:\n              0(?:\n                [02-8]|\n                1(?:\n                  [013-9]|\n                  2[0-24-9]\n                )|\n                9[0-47-9]\n              )|\n              [1-9]\n            )|\n            2(?:\n              [0-57-9](?:\n                [02-8]|\n                1(?:\n                  0[1-9]|\n                  [13-9]|\n                  2[0-24-9]\n                )|\n                9[0-47-9]\n              )|\n              6\n            )|\n            3(?:\n              [0268]|\n              3[0-46-9]|\n              4[0-8]|\n              9[079]\n            )|\n            4(?:\n              [049]|\n              1[03]|\n              2[02-68]|\n              [35]0|\n              6[0-356]|\n              8[014-9]\n            )|\n            5(?:\n              0|\n              2[0-24-689]|\n              4[0-2457-9]|\n              6[057-9]|\n              8[1-9]|\n              90\n            )|\n            6(?:\n              [0-24578]|\n              3[06-9]|\n              6[14-79]|\n              9[03-9]\n            )|\n            7(?:\n              0[02-9]|\n              2[0135-79]|\n              3[23]|\n              4[0-27-9]|\n              6[1457]|\n              8\n            )|\n            8(?:\n              0(?:\n                [0-689]|\n                7[0-79]\n              )|\n              1[01459]|\n              2[0-489]|\n              [46]|\n              50|\n              8[0-2459]|\n              9[09]\n            )|\n            9(?:\n              0[0457]|\n              1[08]|\n              [268]|\n              4[024-9]|\n              5[06-9]|\n              78|\n              94\n            )|\n            (?:\n              3(?:\n                [157]\\d|\n                35|\n                49|\n                9[1-68]\n              )|\n              4(?:\n                1[124-9]|\n                2[179]|\n                [35][1-9]|\n                6[47-9]|\n                7\\d|\n                8[23]\n              )|\n              5(?:\n                [1357]\\d|\n                2[37]|\n                4[36]|\n                6[1-46]|\n                80|\n                9[1-9]\n              )|\n              6(?:\n                3[1-5]|\n                6[0238]|\n                9[12]\n              )|\n              7(?:\n                01|\n                [1579]\\d|\n                2[248]|\n                3[014-9]|\n                4[3-6]|\n                6[023689]\n              )|\n              8(?:\n                078|\n                1[236-8]|\n                2[5-7]|\n                [37]\\d|\n                5[1-9]|\n                8[36-8]|\n                9[1-8]\n              )|\n              9(?:\n                0[1-3689]|\n                1[1-79]|\n                3\\d|\n                4[13]|\n                5[1-5]|\n                7[0-79]|\n                9[0-35-9]\n              )\n            )(?:\n              [02-9]|\n              1(?:\n                [013-9]|\n                2[0-24-9]\n              )\n            )\n          "), .s10,
       .leaf n.format (str% "$1 $2"), .s10,
       .leaf n.intlFormat (str% "NA"), .s8], .s8, .comment, .s8,
     .elem n.numberFormat [(n.pattern, str% "(\\d{4})(\\d{4})")]
      [.s10,
       .leaf n.leadingDigits (str% "16[08]"), .s10,
       .leaf n.format (str% "$1 $2"), .s10,
       .leaf n.intlFormat (str% "NA"), .s8], .s8, .comment, .s8,
     .elem n.numberFormat [(n.pattern, str% "(\\d{3})(\\d{5,6})"), (n.nationalPrefixFormattingRule, str% "$NP$FG"), (n.carrierCodeFormattingRule, str% "$CC $FG")]
      [.s10,
       .leaf n.leadingDigits (str% "\n            3(?:\n              [157]|\n              35|\n              49|\n              9[1-68]\n            )|\n            4(?:\n              [17]|\n              2[179]|\n              6[47-9]|\n              8[23]\n            )|\n            5(?:\n              [1357]|\n              2[37]|\n              4[36]|\n              6[1-46]|\n              80\n            )|\n            6(?:\n              3[1-5]|\n              6[0238]|\n              9[12]\n            )|\n            7(?:\n              01|\n              [1579]|\n              2[248]|\n              3[014-9]|\n              4[3-6]|\n              6[023689]\n            )|\n            8(?:\n              1[236-8]|\n              2[5-7]|\n              [37]|\n              8[36-8]|\n              9[1-8]\n            )|\n            9(?:\n              0[1-3689]|\n              1[1-79]|\n              [379]|\n              4[13]|\n              5[1-5]\n            )|\n            (?:\n              4[35]|\n              59|\n              85\n            )[1-9]\n          "), .s10,
       .leaf n.leadingDigits (str% "\n            (?:\n              3(?:\n                [157]\\d|\n                35|\n                49|\n                9[1-68]\n              )|\n              4(?:\n                [17]\\d|\n                2[179]|\n                [35][1-9]|\n                6[47-9]|\n                8[23]\n              )|\n              5(?:\n                [1357]\\d|\n                2[37]|\n                4[36]|\n                6[1-46]|\n                80|\n                9[1-9]\n              )|\n              6(?:\n                3[1-5]|\n                6[0238]|\n                9[12]\n              )|\n              7(?:\n                01|\n                [1579]\\d|\n                2[248]|\n                3[014-9]|\n                4[3-6]|\n                6[023689]\n              )|\n              8(?:\n                1[236-8]|\n                2[5-7]|\n                [37]\\d|\n                5[1-9]|\n                8[36-8]|\n                9[1-8]\n              )|\n              9(?:\n                0[1-3689]|\n                1[1-79]|\n                [379]\\d|\n                4[13]|\n                5[1-5]\n              )\n            )[19]\n          "), .s10,
       .leaf n.leadingDigits (str% "\n            85[23](?:\n              10|\n              95\n            )|\n            (?:\n              3(?:\n                [157]\\d|\n                35|\n                49|\n                9[1-68]\n              )|\n              4(?:\n                [17]\\d|\n                2[179]|\n                [35][1-9]|\n                6[47-9]|\n                8[23]\n              )|\n              5(?:\n                [1357]\\d|\n                2[37]|\n                4[36]|\n                6[1-46]|\n                80|\n                9[1-9]\n              )|\n              6(?:\n                3[1-5]|\n                6[0238]|\n                9[12]\n              )|\n              7(?:\n                01|\n                [1579]\\d|\n                2[248]|\n                3[014-9]|\n                4[3-6]|\n                6[023689]\n              )|\n              8(?:\n                1[236-8]|\n                2[5-7]|\n                [37]\\d|\n                5[14-9]|\n                8[36-8]|\n                9[1-8]\n              )|\n              9(?:\n                0[1-3689]|\n                1[1-79]|\n                [379]\\d|\n                4[13]|\n                5[1-5]\n              )\n            )(?:\n              10|\n              9[56]\n            )\n          "), .s10,
       .leaf n.leadingDigits (str% "\n            85[23](?:\n              100|\n              95\n            )|\n            (?:\n              3(?:\n                [157]\\d|\n                35|\n                49|\n                9[1-68]\n              )|\n              4(?:\n                [17]\\d|\n                2[179]|\n                [35][1-9]|\n                6[47-9]|\n                8[23]\n              )|\n              5(?:\n                [1357]\\d|\n                2[37]|\n                4[36]|\n                6[1-46]|\n                80|\n                9[1-9]\n              )|\n              6(?:\n                3[1-5]|\n                6[0238]|\n                9[12]\n              )|\n              7(?:\n                01|\n                [1579]\\d|\n                2[248]|\n                3[014-9]|\n                4[3-6]|\n                6[023689]\n              )|\n              8(?:\n                1[236-8]|\n                2[5-7]|\n                [37]\\d|\n                5[14-9]|\n                8[36-8]|\n                9[1-8]\n              )|\n              9(?:\n                0[1-3689]|\n                1[1-79]|\n                [379]\\d|\n                4[13]|\n                5[1-5]\n              )\n            )(?:\n              100|\n              9[56]\n            )\n          "), .s10,
       .leaf n.format (str% "$1 $2"), .s8], .s8,
     .elem n.numberFormat [(n.pattern, str% "(\\d{4})(\\d{4})")]
      [.s10,
       .leaf n.leadingDigits (str% "[1-9]"), .s10,
       .leaf n.leadingDigits (str% "\n            1(?:\n              0(?:\n                [02-8]|\n                1[1-9]|\n                9[0-47-9]\n              )|\n              [1-9]\n            )|\n            2(?:\n              [0-57-9](?:\n                [0-8]|\n                9[0-47-9]\n              )|\n              6\n            )|\n            [3-9]\n          "), .s10,
       .leaf n.leadingDigits (str% "\n            1(?:\n              0(?:\n                [02-8]|\n                1[1-9]|\n                9[0-47-9]\n              )|\n              [1-9]\n            )|\n            26|\n            3(?:\n              [0268]|\n              4[0-8]|\n              9[079]\n            )|\n            4(?:\n              [049]|\n              2[02-68]|\n              [35]0|\n              6[0-356]|\n              8[014-9]\n            )|\n            5(?:\n              0|\n              2[0-24-689]|\n              4[0-2457-9]|\n              6[057-9]|\n              8[1-9]|\n              90\n            )|\n            6(?:\n              [0-24578]|\n              3[06-9]|\n              6[14-79]|\n              9[03-9]\n            )|\n            7(?:\n              0[02-9]|\n              2[0135-79]|\n              3[23]|\n              4[0-27-9]|\n              6[1457]|\n              8\n            )|\n            8(?:\n              [046]|\n              1[01459]|\n              2[0-489]|\n              5(?:\n                0|\n                [23][0-8]\n              )|\n              8[0-2459]|\n              9[09]\n            )|\n            9(?:\n              0[0457]|\n              1[08]|\n              [268]|\n              4[024-9]|\n              5[06-9]\n            )|\n            (?:\n              33|\n              85[23]9\n            )[0-46-9]|\n            (?:\n              2[0-57-9]|\n              3(?:\n                [157]\\d|\n                35|\n                49|\n                9[1-68]\n              )|\n              4(?:\n                [17]\\d|\n                2[179]|\n                [35][1-9]|\n                6[47-9]|\n                8[23]\n              )|\n              5(?:\n                [1357]\\d|\n                2[37]|\n                4[36]|\n                6[1-46]|\n                80|\n                9[1-9]\n              )|\n              6(?:\n                3[1-5]|\n                6[0238]|\n                9[12]\n              )|\n              7(?:\n                01|\n                [1579]\\d|\n                2[248]|\n                3[014-9]|\n                4[3-6]|\n                6[023689]\n              )|\n              8(?:\n                1[236-8]|\n                2[5-7]|\n                [37]\\d|\n                5[14-9]|\n                8[36-8]|\n                9[1-8]\n              )|\n              9(?:\n                0[1-3689]|\n                1[1-79]|\n                [379]\\d|\n                4[13]|\n                5[1-5]\n              )\n            )(?:\n              [0-8]|\n              9[0-47-9]\n            )\n          "), .s10,
       .leaf n.leadingDigits (str% "\n            1(?:\n              0[02-8]|\n              [1-9]\n            )|\n            2(?:\n              [0-57-9][0-8]|\n              6\n            )|\n            3(?:\n              [0268]|\n              3[0-46-9]|\n              4[0-8]|\n              9[079]\n            )|\n            4(?:\n              [049]|\n              2[02-68]|\n              [35]0|\n              6[0-356]|\n              8[014-9]\n            )|\n            5(?:\n              0|\n              2[0-24-689]|\n              4[0-2457-9]|\n              6[057-9]|\n              90\n            )|\n            6(?:\n              [0-24578]|\n              3[06-9]|\n              6[14-79]|\n              9[03-9]\n            )|\n            7(?:\n              0[02-9]|\n              2[0135-79]|\n              3[23]|\n              4[0-27-9]|\n              6[1457]|\n              8\n            )|\n            8(?:\n              [046]|\n              1[01459]|\n              2[0-489]|\n              5(?:\n                0|\n                [23](?:\n                  [02-8]|\n                  1[1-9]|\n                  9[0-46-9]\n                )\n              )|\n              8[0-2459]|\n              9[09]\n            )|\n            9(?:\n              0[0457]|\n              1[08]|\n              [268]|\n              4[024-9]|\n              5[06-9]\n            )|\n            (?:\n              10|\n              2[0-57-9]\n            )9[0-47-9]|\n            (?:\n              101|\n              58|\n              85[23]10\n            )[1-9]|\n            (?:\n              3(?:\n                [157]\\d|\n                35|\n                49|\n                9[1-68]\n              )|\n              4(?:\n                [17]\\d|\n                2[179]|\n                [35][1-9]|\n                6[47-9]|\n                8[23]\n              )|\n              5(?:\n                [1357]\\d|\n                2[37]|\n                4[36]|\n                6[1-46]|\n                80|\n                9[1-9]\n              )|\n              6(?:\n                3[1-5]|\n                6[0238]|\n                9[12]\n              )|\n              7(?:\n                01|\n                [1579]\\d|\n                2[248]|\n                3[014-9]|\n                4[3-6]|\n                6[023689]\n              )|\n              8(?:\n                1[236-8]|\n                2[5-7]|\n                [37]\\d|\n                5[14-9]|\n                8[36-8]|\n                9[1-8]\n              )|\n              9(?:\n                0[1-3689]|\n                1[1-79]|\n                [379]\\d|\n                4[13]|\n                5[1-5]\n              )\n            )(?:\n              [02-8]|\n              1(?:\n                0[1-9]|\n                [1-9]\n              )|\n              9[0-47-9]\n            )\n          "), .s10,
       .leaf n.format (str% "$1 $2"), .s10,
       .leaf n.intlFormat (str% "NA"), .s8], .s8, .comment, .s8,
     .elem n.numberFormat [(n.pattern, str% "(\\d{3})(\\d{3})(\\d{4})")]
      [.s10,
       .leaf n.leadingDigits (str% "\n            (?:\n              4|\n              80\n            )0\n          "), .s10,
       .leaf n.format (str% "$1 $2 $3"), .s8], .s8, .comment, .s8,
     .elem n.numberFormat [(n.pattern, str% "(\\d{2})(\\d{4})(\\d{4})"), (n.nationalPrefixFormattingRule, str% "$NP$FG"), (n.nationalPrefixOptionalWhenFormatting, str% "true"), (n.carrierCodeFormattingRule, str% "$CC $FG")]
      [.s10,
       .leaf n.leadingDigits (str% "\n            10|\n            2(?:\n              [02-57-9]|\n              1[1-9]\n            )\n          "), .s10,
       .leaf n.leadingDigits (str% "\n            10|\n            2(?:\n              [02-57-9]|\n              1[1-9]\n            )\n          "), .s10,
       .leaf n.leadingDigits (str% "\n            10[0-79]|\n            2(?:\n              [02-57-9]|\n              1[1-79]\n            )|\n            (?:\n              10|\n              21\n            )8(?:\n              0[1-9]|\n              [1-9]\n            )\n          "), .s10,
       .leaf n.format (str% "$1 $2 $3"), .s8], .s8, .comment, .s8,
     .elem n.numberFormat [(n.pattern, str% "(\\d{3})(\\d{3})(\\d{4})"), (n.nationalPrefixFormattingRule, str% "$NP$FG"), (n.nationalPrefixOptionalWhenFormatting, str% "true"), (n.carrierCodeFormattingRule, str% "$CC $FG")]
      [.s10,
       .leaf n.leadingDigits (str% "\n            3(?:\n              [3-59]|\n              7[02-68]\n            )|\n            4(?:\n              [26-8]|\n              3[3-9]|\n              5[2-9]\n            )|\n            5(?:\n              3[03-9]|\n              [468]|\n              7[028]|\n              9[2-46-9]\n            )|\n            6|\n            7(?:\n              [0-247]|\n              3[04-9]|\n              5[0-4689]|\n              6[2368]\n            )|\n            8(?:\n              [1-358]|\n              9[1-7]\n            )|\n            9(?:\n              [013479]|\n              5[1-5]\n            )|\n            (?:\n              [34]1|\n              55|\n              79|\n              87\n            )[02-9]\n          "), .s10,
       .leaf n.format (str% "$1 $2 $3"), .s8], .s8, .comment, .s8,
     .elem n.numberFormat [(n.pattern, str% "(\\d{3})(\\d{7,8})")]
      [.s10,
       .leaf n.leadingDigits (str% "9"), .s10,
       .leaf n.format (str% "$1 $2"), .s8], .s8, .comment, .s8,
     .elem n.numberFormat [(n.pattern, str% "(\\d{4})(\\d{3})(\\d{4})"), (n.nationalPrefixFormattingRule, str% "$NP$FG"), (n.nationalPrefixOptionalWhenFormatting, str% "true"), (n.carrierCodeFormattingRule, str% "$CC $FG")]
      [.s10,
       .leaf n.leadingDigits (str% "80"), .s10,
       .leaf n.format (str% "$1 $2 $3"), .s8], .s8, .comment, .s8,
     .elem n.numberFormat [(n.pattern, str% "(\\d{3})(\\d{4})(\\d{4})"), (n.nationalPrefixFormattingRule, str% "$NP$FG"), (n.nationalPrefixOptionalWhenFormatting, str% "true"), (n.carrierCodeFormattingRule, str% "$CC $FG")]
      [.s10,
       .leaf n.leadingDigits (str% "[3-578]"), .s10,
       .leaf n.format (str% "$1 $2 $3"), .s8], .s8, .comment, .s8,
     .elem n.numberFormat [(n.pattern, str% "(\\d{3})(\\d{4})(\\d{4})"), (n.carrierCodeFormattingRule, str% "$CC $FG")]
      [.s10,
       .leaf n.leadingDigits (str% "1[3-9]"), .s10,
       .leaf n.format (str% "$1 $2 $3"), .s8], .s8, .comment, .s8,
     .elem n.numberFormat [(n.pattern, str% "(\\d{2})(\\d{3})(\\d{3})(\\d{4})"), (n.nationalPrefixFormattingRule, str% "$NP$FG"), (n.nationalPrefixOptionalWhenFormatting, str% "true")]
      [.s10,
       .leaf n.leadingDigits (str% "[12]"), .s10,
       .leaf n.format (str% "$1 $2 $3 $4"), .s8], .s6], .s6,
   .elem n.generalDesc []
    [.s8,
     .leaf n.nationalNumberPattern (str% "\n          (?:\n            (?:\n              1[03-689]|\n              2\\d\n            )\\d\\d|\n            6\n          )\\d{8}|\n          1\\d{10}|\n          [126]\\d{6}(?:\n            \\d(?:\n              \\d{2}\n            )?\n          )?|\n          86\\d{5,6}|\n          (?:\n            [3-579]\\d|\n            8[0-57-9]\n          )\\d{5,9}\n        "), .s6], .s6,
   .elem n.noInternationalDialling []
    [.s8,
     .empty n.possibleLengths [(n.national, str% "[10-12]")], .s8,
     .leaf n.nationalNumberPattern (str% "\n          (?:\n            (?:\n              10|\n              21\n            )8|\n            [48]\n          )00\\d{7}|\n          950\\d{7,8}\n        "), .s6], .s6, .comment, .s6,
   .elem n.fixedLine []
    [.s8,
     .empty n.possibleLengths [(n.national, str% "[7-11]"), (n.localOnly, str% "5,6")], .s8,
     .leaf n.exampleNumber (str% "1012345678"), .s8,
     .leaf n.nationalNumberPattern (str% "\n          (?:\n            10(?:\n              [02-79]\\d\\d|\n              [18](?:\n                0[1-9]|\n                [1-9]\\d\n              )\n            )|\n            2(?:\n              [02-57-9]\\d{3}|\n              1(?:\n                [18](?:\n                  0[1-9]|\n                  [1-9]\\d\n                )|\n                [2-79]\\d\\d\n              )\n            )|\n            (?:\n              41[03]|\n              8078|\n              9(?:\n                78|\n                94\n              )\n            )\\d\\d\n          )\\d{5}|\n          (?:\n            10|\n            2[0-57-9]\n          )(?:\n            1(?:\n              00|\n              23\n            )\\d\\d|\n            95\\d{3,4}\n          )|\n          (?:\n            41[03]|\n            9(?:\n              78|\n              94\n            )\n          )(?:\n            100\\d\\d|\n            95\\d{3,4}\n          )|\n          8078123|\n          (?:\n            43[35]|\n            754|\n            851\n          )\\d{7,8}|\n          (?:\n            43[35]|\n            754|\n            851\n          )(?:\n            1(?:\n              00\\d|\n              23\n            )\\d|\n            95\\d{3,4}\n          )|\n          (?:\n            3(?:\n              11|\n              7[179]\n            )|\n            4(?:\n              [15]1|\n              3[12]\n            )|\n            5(?:\n              1\\d|\n              2[37]|\n              3[12]|\n              51|\n              7[13-79]|\n              9[15]\n            )|\n            7(?:\n              [39]1|\n              5[57]|\n              6[09]\n            )|\n            8(?:\n              71|\n              98\n            )\n          )(?:\n            [02-8]\\d{7}|\n            1(?:\n              0(?:\n                0\\d\\d(?:\n                  \\d{3}\n                )?|\n                [1-9]\\d{5}\n              )|\n              [13-9]\\d{6}|\n              2(?:\n                [0-24-9]\\d{5}|\n                3\\d(?:\n                  \\d{4}\n                )?\n              )\n            )|\n            9(?:\n              [0-46-9]\\d{6}|\n              5\\d{3}(?:\n                \\d(?:\n                  \\d{2}\n                )?\n              )?\n            )\n          )|\n          (?:\n            3(?:\n              1[02-9]|\n              35|\n              49|\n              5\\d|\n              7[02-68]|\n              9[1-68]\n            )|\n            4(?:\n              1[24-9]|\n              2[179]|\n              3[46-9]|\n              5[2-9]|\n              6[47-9]|\n              7\\d|\n              8[23]\n            )|\n            5(?:\n              3[03-9]|\n              4[36]|\n              5[02-9]|\n              6[1-46]|\n              7[028]|\n              80|\n              9[2-46-9]\n            )|\n            6(?:\n              3[1-5]|\n              6[0238]|\n              9[12]\n            )|\n            7(?:\n              01|\n              [17]\\d|\n              2[248]|\n              3[04-9]|\n              4[3-6]|\n              5[0-3689]|\n              6[2368]|\n              9[02-9]\n            )|\n            8(?:\n              1[236-8]|\n              2[5-7]|\n              3\\d|\n              5[2-9]|\n              7[02-9]|\n              8[36-8]|\n              9[1-7]\n            )|\n            9(?:\n              0[1-3689]|\n              1[1-79]|\n              3\\d|\n              4[13]|\n              5[1-5]|\n              7[0-79]|\n              9[0-35-9]\n            )\n          )(?:\n            [02-8]\\d{6}|\n            1(?:\n              0(?:\n                0\\d\\d(?:\n                  \\d{2}\n                )?|\n                [1-9]\\d{4}\n              )|\n              [13-9]\\d{5}|\n              2(?:\n                [0-24-9]\\d{4}|\n                3\\d(?:\n                  \\d{3}\n                )?\n              )\n            )|\n            9(?:\n              [0-46-9]\\d{5}|\n              5\\d{3,5}\n            )\n          )\n        "), .s6], .s6, .comment, .s6,
   .elem n.mobile []
    [.s8,
     .empty n.possibleLengths [(n.national, str% "11")], .s8,
     .leaf n.exampleNumber (str% "13123456789"), .s8,
     .leaf n.nationalNumberPattern (str% "\n          1740[0-5]\\d{6}|\n          1(?:\n            [38]\\d|\n            4[57]|\n            [59][0-35-9]|\n            6[25-7]|\n            7[0-35-8]\n          )\\d{8}\n        "), .s6], .s6, .comment, .s6, .comment, .s6,
   .elem n.tollFree []
    [.s8,
     .empty n.possibleLengths [(n.national, str% "10,12")], .s8,
     .leaf n.exampleNumber (str% "8001234567"), .s8,
     .leaf n.nationalNumberPattern (str% "\n          (?:\n            (?:\n              10|\n              21\n            )8|\n            8\n          )00\\d{7}\n        "), .s6], .s6,
   .elem n.premiumRate []
    [.s8,
     .empty n.possibleLengths [(n.national, str% "8")], .s8,
     .leaf n.exampleNumber (str% "16812345"), .s8,
     .leaf n.nationalNumberPattern (str% "16[08]\\d{5}"), .s6], .s6, .comment, .s6,
   .elem n.sharedCost []
    [.s8,
     .empty n.possibleLengths [(n.national, str% "[7-11]"), (n.localOnly, str% "5,6")], .s8,
     .leaf n.exampleNumber (str% "4001234567"), .s8,
     .leaf n.nationalNumberPattern (str% "\n          10(?:\n            10\\d{4}|\n            96\\d{3,4}\n          )|\n          400\\d{7}|\n          950\\d{7,8}|\n          (?:\n            2[0-57-9]|\n            3(?:\n              [157]\\d|\n              35|\n              49|\n              9[1-68]\n            )|\n            4(?:\n              [17]\\d|\n              2[179]|\n              [35][1-9]|\n              6[47-9]|\n              8[23]\n            )|\n            5(?:\n              [1357]\\d|\n              2[37]|\n              4[36]|\n              6[1-46]|\n              80|\n              9[1-9]\n            )|\n            6(?:\n              3[1-5]|\n              6[0238]|\n              9[12]\n            )|\n            7(?:\n              01|\n              [1579]\\d|\n              2[248]|\n              3[014-9]|\n              4[3-6]|\n              6[023689]\n            )|\n            8(?:\n              1[236-8]|\n              2[5-7]|\n              [37]\\d|\n              5[14-9]|\n              8[36-8]|\n              9[1-8]\n            )|\n            9(?:\n              0[1-3689]|\n              1[1-79]|\n              [379]\\d|\n              4[13]|\n              5[1-5]\n            )\n          )96\\d{3,4}\n        "), .s6], .s4]

/-- what stands before this territory -/
noncomputable def CO_before : List Node :=
  [.l4, .comment, .s4, .comment, .s4, .comment, .s4]
/-- its attributes -/
noncomputable def CO_attrs : List (Str × Str) := [(n.id, str% "CO"), (n.countryCode, str% "57"), (n.internationalPrefix, str% "00(?:4(?:[14]4|56)|[579])"), (n.nationalPrefix, str% "0"), (n.nationalPrefixForParsing, str% "0([3579]|4(?:[14]4|56))?"), (n.mobileNumberPortableRegion, str% "true")]
/-- its content -/
noncomputable def CO : List Node :=
  [.s6,
   .elem n.availableFormats []
    [.s8,
     .elem n.numberFormat [(n.pattern, str% "(\\d{4})(\\d{4})")]
      [.s10,
       .leaf n.leadingDigits (str% "46"), .s10,
       .leaf n.format (str% "$1 $2"), .s8], .s8,
     .elem n.numberFormat [(n.pattern, str% "(\\d{3})(\\d{7})"), (n.nationalPrefixFormattingRule, str% "($FG)"), (n.carrierCodeFormattingRule, str% "$NP$CC $FG")]
      [.s10,
       .leaf n.leadingDigits (str% "\n            6|\n            90\n          "), .s10,
       .leaf n.format (str% "$1 $2"), .s8], .s8,
     .elem n.numberFormat [(n.pattern, str% "(\\d{3})(\\d{7})"), (n.carrierCodeFormattingRule, str% "$NP$CC $FG")]
      [.s10,
       .leaf n.leadingDigits (str% "\n            3[0-357]|\n            9[14]\n          "), .s10,
       .leaf n.format (str% "$1 $2"), .s8], .s8,
     .elem n.numberFormat [(n.pattern, str% "(\\d)(\\d{3})(\\d{7})"), (n.nationalPrefixFormattingRule, str% "$NP$FG")]
      [.s10,
       .leaf n.leadingDigits (str% "1"), .s10,
       .leaf n.format (str% "$1-$2-$3"), .s10,
       .leaf n.intlFormat (str% "$1 $2 $3"), .s8], .s6], .s6,
   .elem n.generalDesc []
    [.s8,
     .leaf n.nationalNumberPattern (str% "\n          (?:\n            46|\n            60\\d\\d\n          )\\d{6}|\n          (?:\n            1\\d|\n            [39]\n          )\\d{9}\n        "), .s6], .s6,
   .elem n.fixedLine []
    [.s8,
     .empty n.possibleLengths [(n.national, str% "8,10"), (n.localOnly, str% "4,7")], .s8,
     .leaf n.exampleNumber (str% "6012345678"), .s8,
     .leaf n.nationalNumberPattern (str% "\n          601055(?:\n            [0-4]\\d|\n            50\n          )\\d\\d|\n          6010(?:\n            [0-4]\\d|\n            5[0-4]\n          )\\d{4}|\n          (?:\n            46|\n            60(?:\n              [18][1-9]|\n              [24-7][2-9]\n            )\n          )\\d{6}\n        "), .s6], .s6, .comment, .s6,
   .elem n.mobile []
    [.s8,
     .empty n.possibleLengths [(n.national, str% "10")], .s8,
     .leaf n.exampleNumber (str% "3211234567"), .s8,
     .leaf n.nationalNumberPattern (str% "\n          333301[0-5]\\d{3}|\n          3333(?:\n            00|\n            2[5-9]|\n            [3-9]\\d\n          )\\d{4}|\n          (?:\n            3(?:\n              (?:\n                0[0-5]|\n                1\\d|\n                5[01]|\n                70\n              )\\d|\n              2(?:\n                [0-3]\\d|\n                4[1-9]\n              )|\n              3(?:\n                00|\n                3[0-24-9]\n              )\n            )|\n            9(?:\n              101|\n              408\n            )\n          )\\d{6}\n        "), .s6], .s6,
   .elem n.tollFree []
    [.s8,
     .empty n.possibleLengths [(n.national, str% "11")], .s8,
     .leaf n.exampleNumber (str% "18001234567"), .s8,
     .leaf n.nationalNumberPattern (str% "1800\\d{7}"), .s6], .s6,
   .elem n.premiumRate []
    [.s8,
     .empty n.possibleLengths [(n.national, str% "10,11")], .s8,
     .leaf n.exampleNumber (str% "19001234567"), .s8,
     .leaf n.nationalNumberPattern (str% "\n          (?:\n            19(?:\n              0[01]|\n              4[78]\n            )|\n            901\n          )\\d{7}\n        "), .s6], .s4]

/-- what stands before this territory -/
noncomputable def CR_before : List Node :=
  [.l4, .comment, .s4, .comment, .s4, .comment, .s4]
/-- its attributes -/
noncomputable def CR_attrs : List (Str × Str) := [(n.id, str% "CR"), (n.countryCode, str% "506"), (n.internationalPrefix, str% "00"), (n.nationalPrefixForParsing, str% "(19(?:0[0-2468]|1[09]|20|66|77|99))")]
/-- its content -/
noncomputable def CR : List Node :=
  [.s6,
   .elem n.availableFormats []
    [.s8,
     .elem n.numberFormat [(n.pattern, str% "(\\d{4})(\\d{4})"), (n.carrierCodeFormattingRule, str% "$CC $FG")]
      [.s10,
       .leaf n.leadingDigits (str% "\n            [2-7]|\n            8[3-9]\n          "), .s10,
       .leaf n.format (str% "$1 $2"), .s8], .s8,
     .elem n.numberFormat [(n.pattern, str% "(\\d{3})(\\d{3})(\\d{4})"), (n.carrierCodeFormattingRule, str% "$CC $FG")]
      [.s10,
       .leaf n.leadingDigits (str% "[89]"), .s10,
       .leaf n.format (str% "$1-$2-$3"), .s8], .s6], .s6,
   .elem n.generalDesc []
    [.s8,
     .leaf n.nationalNumberPattern (str% "\n          (?:\n            8\\d|\n            90\n          )\\d{8}|\n          (?:\n            [24-8]\\d{3}|\n            3005\n          )\\d{4}\n        "), .s6], .s6, .comment, .s6,
   .elem n.fixedLine []
    [.s8,
     .empty n.possibleLengths [(n.national, str% "8")], .s8,
     .leaf n.exampleNumber (str% "22123456"), .s8,
     .leaf n.nationalNumberPattern (str% "\n          210[7-9]\\d{4}|\n          2(?:\n            [024-7]\\d|\n            1[1-9]\n          )\\d{5}\n        "), .s6], .s6,
   .elem n.mobile []
    [.s8,
     .empty n.possibleLengths [(n.national, str% "8")], .s8,
     .leaf n.exampleNumber (str% "83123456"), .s8,
     .leaf n.nationalNumberPattern (str% "\n          (?:\n            3005\\d|\n            6500[01]\n          )\\d{3}|\n          (?:\n            5[07]|\n            6[0-4]|\n            7[0-3]|\n            8[3-9]\n          )\\d{6}\n        "), .s6], .s6,
   .elem n.tollFree []
    [.s8,
     .empty n.possibleLengths [(n.national, str% "10")], .s8,
     .leaf n.exampleNumber (str% "8001234567"), .s8,
     .leaf n.nationalNumberPattern (str% "800\\d{7}"), .s6], .s6, .comment, .s6,
   .elem n.premiumRate []
    [.s8,
     .empty n.possibleLengths [(n.national, str% "10")], .s8,
     .leaf n.exampleNumber (str% "9001234567"), .s8,
     .leaf n.nationalNumberPattern (str% "90[059]\\d{7}"), .s6], .s6, .comment, .s6, .comment, .s6, .comment, .s6,
   .elem n.voip []
    [.s8,
     .empty n.possibleLengths [(n.national, str% "8")], .s8,
     .leaf n.exampleNumber (str% "40001234"), .s8,
     .leaf n.nationalNumberPattern (str% "\n          (?:\n            210[0-6]|\n            4\\d{3}|\n            5100\n          )\\d{4}\n        "), .s6], .s4]

/-- the nodes of this module -/
noncomputable def chunk03 : List (List Node × List (Str × Str) × List Node) :=
  [(CN_before, CN_attrs, CN), (CO_before, CO_attrs, CO), (CR_before, CR_attrs, CR)]

end Phone.Data.X
