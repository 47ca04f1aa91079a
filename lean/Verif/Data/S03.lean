import Verif.Basic.Str
/-! Text of `/repo/assets/PhoneNumberMetadata.xml`, in lines. Generated by `tools/gen_xml.py`; do not edit. -/

set_option maxRecDepth 100000
namespace Phone.Data.S

/-- the text up to the end of territory id=CN countryCode=86 -/
noncomputable def CN : List Str :=
  [str% "\n",
   str% "\n",
   str% "    <!-- China (CN) -->\n",
   str% "    <!-- The international/national prefix patterns must not collide with valid prefixes such\n",
   str% "         as 17[0678] and 19[89]. 179XX00 is a valid calling prefix, see: www.chahaoba.com/179 -->\n",
   str% "    <!-- http://www.itu.int/oth/T020200002B/en -->\n",
   str% "    <!-- https://en.wikipedia.org/wiki/Telephone_numbers_in_China -->\n",
   str% "    <territory id=\"CN\" countryCode=\"86\" preferredInternationalPrefix=\"00\"\n",
   str% "               internationalPrefix=\"00|1(?:[12]\\d|79)\\d\\d00\" nationalPrefix=\"0\"\n",
   str% "               nationalPrefixForParsing=\"(1(?:[12]\\d|79)\\d\\d)|0\">\n",
   str% "      <availableFormats>\n",
   str% "        <!-- 5-6 digit short number -->\n",
   str% "        <numberFormat pattern=\"(\\d{5,6})\">\n",
   str% "          <leadingDigits>\n",
   str% "            1(?:\n",
   str% "              00|\n",
   str% "              2[13]\n",
   str% "            )|\n",
   str% "            9[56]\n",
   str% "          </leadingDigits>\n",
   str% "          <leadingDigits>\n",
   str% "            1(?:\n",
   str% "              00|\n",
   str% "              2(?:\n",
   str% "                1|\n",
   str% "                39\n",
   str% "              )\n",
   str% "            )|\n",
   str% "            9[56]\n",
   str% "          </leadingDigits>\n",
   str% "          <leadingDigits>\n",
   str% "            1(?:\n",
   str% "              00|\n",
   str% "              2(?:\n",
   str% "                1|\n",
   str% "                395\n",
   str% "              )\n",
   str% "            )|\n",
   str% "            9[56]\n",
   str% "          </leadingDigits>\n",
   str% "          <format>$1</format>\n",
   str% "          <intlFormat>NA</intlFormat>\n",
   str% "        </numberFormat>\n",
   str% "        <numberFormat pattern=\"(\\d{5,6})\">\n",
   str% "          <leadingDigits>\n",
   str% "            1(?:\n",
   str% "              0|\n",
   str% "              23\n",
   str% "            )|\n",
   str% "            781|\n",
   str% "            [1-9]12\n",
   str% "          </leadingDigits>\n",
   str% "          <leadingDigits>\n",
   str% "            1(?:\n",
   str% "              0|\n",
   str% "              23\n",
   str% "            )|\n",
   str% "            7812|\n",
   str% "            [1-9]123\n",
   str% "          </leadingDigits>\n",
   str% "          <leadingDigits>\n",
   str% "            1(?:\n",
   str% "              0|\n",
   str% "              23(?:\n",
   str% "                [0-8]|\n",
   str% "                9[0-46-9]\n",
   str% "              )\n",
   str% "            )|\n",
   str% "            78123|\n",
   str% "            [1-9]123\n",
   str% "          </leadingDigits>\n",
   str% "          <format>$1</format>\n",
   str% "          <intlFormat>NA</intlFormat>\n",
   str% "        </numberFormat>\n",
   str% "        <!-- 100xx and 9[56]xxx(x) numbers with two-digit area codes. -->\n",
   str% "        <numberFormat pattern=\"(\\d{2})(\\d{5,6})\" nationalPrefixFormattingRule=\"$NP$FG\"\n",
   str% "                      carrierCodeFormattingRule=\"$CC $FG\">\n",
   str% "          <leadingDigits>\n",
   str% "            (?:\n",
   str% "              10|\n",
   str% "              2[0-57-9]\n",
   str% "            )[19]|\n",
   str% "            3(?:\n",
   str% "              [157]|\n",
   str% "              35|\n",
   str% "              49|\n",
   str% "              9[1-68]\n",
   str% "            )|\n",
   str% "            4(?:\n",
   str% "              1[124-9]|\n",
   str% "              2[179]|\n",
   str% "              6[47-9]|\n",
   str% "              7|\n",
   str% "              8[23]\n",
   str% "            )|\n",
   str% "            5(?:\n",
   str% "              [1357]|\n",
   str% "              2[37]|\n",
   str% "              4[36]|\n",
   str% "              6[1-46]|\n",
   str% "              80\n",
   str% "            )|\n",
   str% "            6(?:\n",
   str% "              3[1-5]|\n",
   str% "              6[0238]|\n",
   str% "              9[12]\n",
   str% "            )|\n",
   str% "            7(?:\n",
   str% "              01|\n",
   str% "              [1579]|\n",
   str% "              2[248]|\n",
   str% "              3[014-9]|\n",
   str% "              4[3-6]|\n",
   str% "              6[023689]\n",
   str% "            )|\n",
   str% "            8(?:\n",
   str% "              07|\n",
   str% "              1[236-8]|\n",
   str% "              2[5-7]|\n",
   str% "              [37]|\n",
   str% "              8[36-8]|\n",
   str% "              9[1-8]\n",
   str% "            )|\n",
   str% "            9(?:\n",
   str% "              0[1-3689]|\n",
   str% "              1[1-79]|\n",
   str% "              3|\n",
   str% "              4[13]|\n",
   str% "              5[1-5]|\n",
   str% "              7[0-79]|\n",
   str% "              9[0-35-9]\n",
   str% "            )|\n",
   str% "            (?:\n",
   str% "              4[35]|\n",
   str% "              59|\n",
   str% "              85\n",
   str% "            )[1-9]\n",
   str% "          </leadingDigits>\n",
   str% "          <leadingDigits>\n",
   str% "            (?:\n",
   str% "              10|\n",
   str% "              2[0-57-9]\n",
   str% "            )(?:\n",
   str% "              1[02]|\n",
   str% "              9[56]\n",
   str% "            )|\n",
   str% "            8078|\n",
   str% "            (?:\n",
   str% "              3(?:\n",
   str% "                [157]\\d|\n",
   str% "                35|\n",
   str% "                49|\n",
   str% "                9[1-68]\n",
   str% "              )|\n",
   str% "              4(?:\n",
   str% "                1[124-9]|\n",
   str% "                2[179]|\n",
   str% "                [35][1-9]|\n",
   str% "                6[47-9]|\n",
   str% "                7\\d|\n",
   str% "                8[23]\n",
   str% "              )|\n",
   str% "              5(?:\n",
   str% "                [1357]\\d|\n",
   str% "                2[37]|\n",
   str% "                4[36]|\n",
   str% "                6[1-46]|\n",
   str% "                80|\n",
   str% "                9[1-9]\n",
   str% "              )|\n",
   str% "              6(?:\n",
   str% "                3[1-5]|\n",
   str% "                6[0238]|\n",
   str% "                9[12]\n",
   str% "              )|\n",
   str% "              7(?:\n",
   str% "                01|\n",
   str% "                [1579]\\d|\n",
   str% "                2[248]|\n",
   str% "                3[014-9]|\n",
   str% "                4[3-6]|\n",
   str% "                6[023689]\n",
   str% "              )|\n",
   str% "              8(?:\n",
   str% "                1[236-8]|\n",
   str% "                2[5-7]|\n",
   str% "                [37]\\d|\n",
   str% "                5[1-9]|\n",
   str% "                8[36-8]|\n",
   str% "                9[1-8]\n",
   str% "              )|\n",
   str% "              9(?:\n",
   str% "                0[1-3689]|\n",
   str% "                1[1-79]|\n",
   str% "                3\\d|\n",
   str% "                4[13]|\n",
   str% "                5[1-5]|\n",
   str% "                7[0-79]|\n",
   str% "                9[0-35-9]\n",
   str% "              )\n",
   str% "            )1\n",
   str% "          </leadingDigits>\n",
   str% "          <leadingDigits>\n",
   str% "            10(?:\n",
   str% "              1(?:\n",
   str% "                0|\n",
   str% "                23\n",
   str% "              )|\n",
   str% "              9[56]\n",
   str% "            )|\n",
   str% "            2[0-57-9](?:\n",
   str% "              1(?:\n",
   str% "                00|\n",
   str% "                23\n",
   str% "              )|\n",
   str% "              9[56]\n",
   str% "            )|\n",
   str% "            80781|\n",
   str% "            (?:\n",
   str% "              3(?:\n",
   str% "                [157]\\d|\n",
   str% "                35|\n",
   str% "                49|\n",
   str% "                9[1-68]\n",
   str% "              )|\n",
   str% "              4(?:\n",
   str% "                1[124-9]|\n",
   str% "                2[179]|\n",
   str% "                [35][1-9]|\n",
   str% "                6[47-9]|\n",
   str% "                7\\d|\n",
   str% "                8[23]\n",
   str% "              )|\n",
   str% "              5(?:\n",
   str% "                [1357]\\d|\n",
   str% "                2[37]|\n",
   str% "                4[36]|\n",
   str% "                6[1-46]|\n",
   str% "                80|\n",
   str% "                9[1-9]\n",
   str% "              )|\n",
   str% "              6(?:\n",
   str% "                3[1-5]|\n",
   str% "                6[0238]|\n",
   str% "                9[12]\n",
   str% "              )|\n",
   str% "              7(?:\n",
   str% "                01|\n",
   str% "                [1579]\\d|\n",
   str% "                2[248]|\n",
   str% "                3[014-9]|\n",
   str% "                4[3-6]|\n",
   str% "                6[023689]\n",
   str% "              )|\n",
   str% "              8(?:\n",
   str% "                1[236-8]|\n",
   str% "                2[5-7]|\n",
   str% "                [37]\\d|\n",
   str% "                5[1-9]|\n",
   str% "                8[36-8]|\n",
   str% "                9[1-8]\n",
   str% "              )|\n",
   str% "              9(?:\n",
   str% "                0[1-3689]|\n",
   str% "                1[1-79]|\n",
   str% "                3\\d|\n",
   str% "                4[13]|\n",
   str% "                5[1-5]|\n",
   str% "                7[0-79]|\n",
   str% "                9[0-35-9]\n",
   str% "              )\n",
   str% "            )12\n",
   str% "          </leadingDigits>\n",
   str% "          <leadingDigits>\n",
   str% "            10(?:\n",
   str% "              1(?:\n",
   str% "                0|\n",
   str% "                23\n",
   str% "              )|\n",
   str% "              9[56]\n",
   str% "            )|\n",
   str% "            2[0-57-9](?:\n",
   str% "              1(?:\n",
   str% "                00|\n",
   str% "                23\n",
   str% "              )|\n",
   str% "              9[56]\n",
   str% "            )|\n",
   str% "            807812|\n",
   str% "            (?:\n",
   str% "              3(?:\n",
   str% "                [157]\\d|\n",
   str% "                35|\n",
   str% "                49|\n",
   str% "                9[1-68]\n",
   str% "              )|\n",
   str% "              4(?:\n",
   str% "                1[124-9]|\n",
   str% "                2[179]|\n",
   str% "                [35][1-9]|\n",
   str% "                6[47-9]|\n",
   str% "                7\\d|\n",
   str% "                8[23]\n",
   str% "              )|\n",
   str% "              5(?:\n",
   str% "                [1357]\\d|\n",
   str% "                2[37]|\n",
   str% "                4[36]|\n",
   str% "                6[1-46]|\n",
   str% "                80|\n",
   str% "                9[1-9]\n",
   str% "              )|\n",
   str% "              6(?:\n",
   str% "                3[1-5]|\n",
   str% "                6[0238]|\n",
   str% "                9[12]\n",
   str% "              )|\n",
   str% "              7(?:\n",
   str% "                01|\n",
   str% "                [1579]\\d|\n",
   str% "                2[248]|\n",
   str% "                3[014-9]|\n",
   str% "                4[3-6]|\n",
   str% "                6[023689]\n",
   str% "              )|\n",
   str% "              8(?:\n",
   str% "                1[236-8]|\n",
   str% "                2[5-7]|\n",
   str% "                [37]\\d|\n",
   str% "                5[1-9]|\n",
   str% "                8[36-8]|\n",
   str% "                9[1-8]\n",
   str% "              )|\n",
   str% "              9(?:\n",
   str% "                0[1-3689]|\n",
   str% "                1[1-79]|\n",
   str% "                3\\d|\n",
   str% "                4[13]|\n",
   str% "                5[1-5]|\n",
   str% "                7[0-79]|\n",
   str% "                9[0-35-9]\n",
   str% "              )\n",
   str% "            )123\n",
   str% "          </leadingDigits>\n",
   str% "          <leadingDigits>\n",
   str% "            10(?:\n",
   str% "              1(?:\n",
   str% "                0|\n",
   str% "                23\n",
   str% "              )|\n",
   str% "              9[56]\n",
   str% "            )|\n",
   str% "            2[0-57-9](?:\n",
   str% "              1(?:\n",
   str% "                00|\n",
   str% "                23\n",
   str% "              )|\n",
   str% "              9[56]\n",
   str% "            )|\n",
   str% "            (?:\n",
   str% "              3(?:\n",
   str% "                [157]\\d|\n",
   str% "                35|\n",
   str% "                49|\n",
   str% "                9[1-68]\n",
   str% "              )|\n",
   str% "              4(?:\n",
   str% "                1[124-9]|\n",
   str% "                2[179]|\n",
   str% "                [35][1-9]|\n",
   str% "                6[47-9]|\n",
   str% "                7\\d|\n",
   str% "                8[23]\n",
   str% "              )|\n",
   str% "              5(?:\n",
   str% "                [1357]\\d|\n",
   str% "                2[37]|\n",
   str% "                4[36]|\n",
   str% "                6[1-46]|\n",
   str% "                80|\n",
   str% "                9[1-9]\n",
   str% "              )|\n",
   str% "              6(?:\n",
   str% "                3[1-5]|\n",
   str% "                6[0238]|\n",
   str% "                9[12]\n",
   str% "              )|\n",
   str% "              7(?:\n",
   str% "                01|\n",
   str% "                [1579]\\d|\n",
   str% "                2[248]|\n",
   str% "                3[014-9]|\n",
   str% "                4[3-6]|\n",
   str% "                6[023689]\n",
   str% "              )|\n",
   str% "              8(?:\n",
   str% "                078|\n",
   str% "                1[236-8]|\n",
   str% "                2[5-7]|\n",
   str% "                [37]\\d|\n",
   str% "                5[1-9]|\n",
   str% "                8[36-8]|\n",
   str% "                9[1-8]\n",
   str% "              )|\n",
   str% "              9(?:\n",
   str% "                0[1-3689]|\n",
   str% "                1[1-79]|\n",
   str% "                3\\d|\n",
   str% "                4[13]|\n",
   str% "                5[1-5]|\n",
   str% "                7[0-79]|\n",
   str% "                9[0-35-9]\n",
   str% "              )\n",
   str% "            )123\n",
   str% "          </leadingDigits>\n",
   str% "          <format>$1 $2</format>\n",
   str% "        </numberFormat>\n",
   str% "        <numberFormat pattern=\"(\\d{3})(\\d{4})\">\n",
   str% "          <leadingDigits>[1-9]</leadingDigits>\n",
   str% "          <leadingDigits>\n",
   str% "            1[1-9]|\n",
   str% "            26|\n",
   str% "            [3-9]|\n",
   str% "            (?:\n",
   str% "              10|\n",
   str% "              2[0-57-9]\n",
   str% "            )(?:\n",
   str% "              [0-8]|\n",
   str% "              9[0-47-9]\n",
   str% "            )\n",
   str% "          </leadingDigits>\n",
   str% "          <leadingDigits>\n",
   str% "            1(?:\n",
   str% "              0(?:\n",
   str% "                [02-8]|\n",
   str% "                1(?:\n",
   str% "                  [013-9]|\n",
   str% "                  2[0-24-9]\n",
   str% "                )|\n",
   str% "                9[0-47-9]\n",
   str% "              )|\n",
   str% "              [1-9]\n",
   str% "            )|\n",
   str% "            2(?:\n",
   str% "              [0-57-9](?:\n",
   str% "                [02-8]|\n",
   str% "                1(?:\n",
   str% "                  0[1-9]|\n",
   str% "                  [13-9]|\n",
   str% "                  2[0-24-9]\n",
   str% "                )|\n",
   str% "                9[0-47-9]\n",
   str% "              )|\n",
   str% "              6\n",
   str% "            )|\n",
   str% "            [3-9]\n",
   str% "          </leadingDigits>\n",
   str% "          <leadingDigits>\n",
   str% "            1(?:\n",
   str% "              0(?:\n",
   str% "                [02-8]|\n",
   str% "                1(?:\n",
   str% "                  [013-9]|\n",
   str% "                  2[0-24-9]\n",
   str% "                )|\n",
   str% "                9[0-47-9]\n",
   str% "              )|\n",
   str% "              [1-9]\n",
   str% "            )|\n",
   str% "            2(?:\n",
   str% "              [0-57-9](?:\n",
   str% "                [02-8]|\n",
   str% "                1(?:\n",
   str% "                  0[1-9]|\n",
   str% "                  [13-9]|\n",
   str% "                  2[0-24-9]\n",
   str% "                )|\n",
   str% "                9[0-47-9]\n",
   str% "              )|\n",
   str% "              6\n",
   str% "            )|\n",
   str% "            3(?:\n",
   str% "              [0268]|\n",
   str% "              3[0-46-9]|\n",
   str% "              4[0-8]|\n",
   str% "              9[079]\n",
   str% "            )|\n",
   str% "            4(?:\n",
   str% "              [049]|\n",
   str% "              1[03]|\n",
   str% "              2[02-68]|\n",
   str% "              [35]0|\n",
   str% "              6[0-356]|\n",
   str% "              8[014-9]\n",
   str% "            )|\n",
   str% "            5(?:\n",
   str% "              0|\n",
   str% "              2[0-24-689]|\n",
   str% "              4[0-2457-9]|\n",
   str% "              6[057-9]|\n",
   str% "              8[1-9]|\n",
   str% "              90\n",
   str% "            )|\n",
   str% "            6(?:\n",
   str% "              [0-24578]|\n",
   str% "              3[06-9]|\n",
   str% "              6[14-79]|\n",
   str% "              9[03-9]\n",
   str% "            )|\n",
   str% "            7(?:\n",
   str% "              0[02-9]|\n",
   str% "              2[0135-79]|\n",
   str% "              3[23]|\n",
   str% "              4[0-27-9]|\n",
   str% "              6[1457]|\n",
   str% "              8\n",
   str% "            )|\n",
   str% "            8(?:\n",
   str% "              [046]|\n",
   str% "              1[01459]|\n",
   str% "              2[0-489]|\n",
   str% "              50|\n",
   str% "              8[0-2459]|\n",
   str% "              9[09]\n",
   str% "            )|\n",
   str% "            9(?:\n",
   str% "              0[0457]|\n",
   str% "              1[08]|\n",
   str% "              [268]|\n",
   str% "              4[024-9]|\n",
   str% "              5[06-9]|\n",
   str% "              78|\n",
   str% "              94\n",
   str% "            )|\n",
   str% "            (?:\n",
   str% "              3(?:\n",
   str% "                [157]\\d|\n",
   str% "                35|\n",
   str% "                49|\n",
   str% "                9[1-68]\n",
   str% "              )|\n",
   str% "              4(?:\n",
   str% "                1[124-9]|\n",
   str% "                2[179]|\n",
   str% "                [35][1-9]|\n",
   str% "                6[47-9]|\n",
   str% "                7\\d|\n",
   str% "                8[23]\n",
   str% "              )|\n",
   str% "              5(?:\n",
   str% "                [1357]\\d|\n",
   str% "                2[37]|\n",
   str% "                4[36]|\n",
   str% "                6[1-46]|\n",
   str% "                80|\n",
   str% "                9[1-9]\n",
   str% "              )|\n",
   str% "              6(?:\n",
   str% "                3[1-5]|\n",
   str% "                6[0238]|\n",
   str% "                9[12]\n",
   str% "              )|\n",
   str% "              7(?:\n",
   str% "                01|\n",
   str% "                [1579]\\d|\n",
   str% "                2[248]|\n",
   str% "                3[014-9]|\n",
   str% "                4[3-6]|\n",
   str% "                6[023689]\n",
   str% "              )|\n",
   str% "              8(?:\n",
   str% "                1[236-8]|\n",
   str% "                2[5-7]|\n",
   str% "                [37]\\d|\n",
   str% "                5[1-9]|\n",
   str% "                8[36-8]|\n",
   str% "                9[1-8]\n",
   str% "              )|\n",
   str% "              9(?:\n",
   str% "                0[1-3689]|\n",
   str% "                1[1-79]|\n",
   str% "                3\\d|\n",
   str% "                4[13]|\n",
   str% "                5[1-5]|\n",
   str% "                7[0-79]|\n",
   str% "                9[0-35-9]\n",
   str% "              )\n",
   str% "            )(?:\n",
   str% "              [02-9]|\n",
   str% "              1(?:\n",
   str% "                [013-9]|\n",
   str% "                2[0-24-9]\n",
   str% "              )\n",
   str% "            )\n",
   str% "          </leadingDigits>\n",
   str% "          <leadingDigits>\n",
   str% "            1(?:\n",
   str% "              0(?:\n",
   str% "                [02-8]|\n",
   str% "                1(?:\n",
   str% "                  [013-9]|\n",
   str% "                  2[0-24-9]\n",
   str% "                )|\n",
   str% "                9[0-47-9]\n",
   str% "              )|\n",
   str% "              [1-9]\n",
   str% "            )|\n",
   str% "            2(?:\n",
   str% "              [0-57-9](?:\n",
   str% "                [02-8]|\n",
   str% "                1(?:\n",
   str% "                  0[1-9]|\n",
   str% "                  [13-9]|\n",
   str% "                  2[0-24-9]\n",
   str% "                )|\n",
   str% "                9[0-47-9]\n",
   str% "              )|\n",
   str% "              6\n",
   str% "            )|\n",
   str% "            3(?:\n",
   str% "              [0268]|\n",
   str% "              3[0-46-9]|\n",
   str% "              4[0-8]|\n",
   str% "              9[079]\n",
   str% "            )|\n",
   str% "            4(?:\n",
   str% "              [049]|\n",
   str% "              1[03]|\n",
   str% "              2[02-68]|\n",
   str% "              [35]0|\n",
   str% "              6[0-356]|\n",
   str% "              8[014-9]\n",
   str% "            )|\n",
   str% "            5(?:\n",
   str% "              0|\n",
   str% "              2[0-24-689]|\n",
   str% "              4[0-2457-9]|\n",
   str% "              6[057-9]|\n",
   str% "              8[1-9]|\n",
   str% "              90\n",
   str% "            )|\n",
   str% "            6(?:\n",
   str% "              [0-24578]|\n",
   str% "              3[06-9]|\n",
   str% "              6[14-79]|\n",
   str% "              9[03-9]\n",
   str% "            )|\n",
   str% "            7(?:\n",
   str% "              0[02-9]|\n",
   str% "              2[0135-79]|\n",
   str% "              3[23]|\n",
   str% "              4[0-27-9]|\n",
   str% "              6[1457]|\n",
   str% "              8\n",
   str% "            )|\n",
   str% "            8(?:\n",
   str% "              0(?:\n",
   str% "                [0-689]|\n",
   str% "                7[0-79]\n",
   str% "              )|\n",
   str% "              1[01459]|\n",
   str% "              2[0-489]|\n",
   str% "              [46]|\n",
   str% "              50|\n",
   str% "              8[0-2459]|\n",
   str% "              9[09]\n",
   str% "            )|\n",
   str% "            9(?:\n",
   str% "              0[0457]|\n",
   str% "              1[08]|\n",
   str% "              [268]|\n",
   str% "              4[024-9]|\n",
   str% "              5[06-9]|\n",
   str% "              78|\n",
   str% "              94\n",
   str% "            )|\n",
   str% "            (?:\n",
   str% "              3(?:\n",
   str% "                [157]\\d|\n",
   str% "                35|\n",
   str% "                49|\n",
   str% "                9[1-68]\n",
   str% "              )|\n",
   str% "              4(?:\n",
   str% "                1[124-9]|\n",
   str% "                2[179]|\n",
   str% "                [35][1-9]|\n",
   str% "                6[47-9]|\n",
   str% "                7\\d|\n",
   str% "                8[23]\n",
   str% "              )|\n",
   str% "              5(?:\n",
   str% "                [1357]\\d|\n",
   str% "                2[37]|\n",
   str% "                4[36]|\n",
   str% "                6[1-46]|\n",
   str% "                80|\n",
   str% "                9[1-9]\n",
   str% "              )|\n",
   str% "              6(?:\n",
   str% "                3[1-5]|\n",
   str% "                6[0238]|\n",
   str% "                9[12]\n",
   str% "              )|\n",
   str% "              7(?:\n",
   str% "                01|\n",
   str% "                [1579]\\d|\n",
   str% "                2[248]|\n",
   str% "                3[014-9]|\n",
   str% "                4[3-6]|\n",
   str% "                6[023689]\n",
   str% "              )|\n",
   str% "              8(?:\n",
   str% "                078|\n",
   str% "                1[236-8]|\n",
   str% "                2[5-7]|\n",
   str% "                [37]\\d|\n",
   str% "                5[1-9]|\n",
   str% "                8[36-8]|\n",
   str% "                9[1-8]\n",
   str% "              )|\n",
   str% "              9(?:\n",
   str% "                0[1-3689]|\n",
   str% "                1[1-79]|\n",
   str% "                3\\d|\n",
   str% "                4[13]|\n",
   str% "                5[1-5]|\n",
   str% "                7[0-79]|\n",
   str% "                9[0-35-9]\n",
   str% "              )\n",
   str% "            )(?:\n",
   str% "              [02-9]|\n",
   str% "              1(?:\n",
   str% "                [013-9]|\n",
   str% "                2[0-24-9]\n",
   str% "              )\n",
   str% "            )\n",
   str% "          </leadingDigits>\n",
   str% "          <format>$1 $2</format>\n",
   str% "          <intlFormat>NA</intlFormat>\n",
   str% "        </numberFormat>\n",
   str% "        <!-- 8-digit premium rate numbers. -->\n",
   str% "        <numberFormat pattern=\"(\\d{4})(\\d{4})\">\n",
   str% "          <leadingDigits>16[08]</leadingDigits>\n",
   str% "          <format>$1 $2</format>\n",
   str% "          <intlFormat>NA</intlFormat>\n",
   str% "        </numberFormat>\n",
   str% "        <!-- 100xx and 9[56]xxx(x) numbers with three-digit area codes. -->\n",
   str% "        <numberFormat pattern=\"(\\d{3})(\\d{5,6})\" nationalPrefixFormattingRule=\"$NP$FG\"\n",
   str% "                      carrierCodeFormattingRule=\"$CC $FG\">\n",
   str% "          <leadingDigits>\n",
   str% "            3(?:\n",
   str% "              [157]|\n",
   str% "              35|\n",
   str% "              49|\n",
   str% "              9[1-68]\n",
   str% "            )|\n",
   str% "            4(?:\n",
   str% "              [17]|\n",
   str% "              2[179]|\n",
   str% "              6[47-9]|\n",
   str% "              8[23]\n",
   str% "            )|\n",
   str% "            5(?:\n",
   str% "              [1357]|\n",
   str% "              2[37]|\n",
   str% "              4[36]|\n",
   str% "              6[1-46]|\n",
   str% "              80\n",
   str% "            )|\n",
   str% "            6(?:\n",
   str% "              3[1-5]|\n",
   str% "              6[0238]|\n",
   str% "              9[12]\n",
   str% "            )|\n",
   str% "            7(?:\n",
   str% "              01|\n",
   str% "              [1579]|\n",
   str% "              2[248]|\n",
   str% "              3[014-9]|\n",
   str% "              4[3-6]|\n",
   str% "              6[023689]\n",
   str% "            )|\n",
   str% "            8(?:\n",
   str% "              1[236-8]|\n",
   str% "              2[5-7]|\n",
   str% "              [37]|\n",
   str% "              8[36-8]|\n",
   str% "              9[1-8]\n",
   str% "            )|\n",
   str% "            9(?:\n",
   str% "              0[1-3689]|\n",
   str% "              1[1-79]|\n",
   str% "              [379]|\n",
   str% "              4[13]|\n",
   str% "              5[1-5]\n",
   str% "            )|\n",
   str% "            (?:\n",
   str% "              4[35]|\n",
   str% "              59|\n",
   str% "              85\n",
   str% "            )[1-9]\n",
   str% "          </leadingDigits>\n",
   str% "          <leadingDigits>\n",
   str% "            (?:\n",
   str% "              3(?:\n",
   str% "                [157]\\d|\n",
   str% "                35|\n",
   str% "                49|\n",
   str% "                9[1-68]\n",
   str% "              )|\n",
   str% "              4(?:\n",
   str% "                [17]\\d|\n",
   str% "                2[179]|\n",
   str% "                [35][1-9]|\n",
   str% "                6[47-9]|\n",
   str% "                8[23]\n",
   str% "              )|\n",
   str% "              5(?:\n",
   str% "                [1357]\\d|\n",
   str% "                2[37]|\n",
   str% "                4[36]|\n",
   str% "                6[1-46]|\n",
   str% "                80|\n",
   str% "                9[1-9]\n",
   str% "              )|\n",
   str% "              6(?:\n",
   str% "                3[1-5]|\n",
   str% "                6[0238]|\n",
   str% "                9[12]\n",
   str% "              )|\n",
   str% "              7(?:\n",
   str% "                01|\n",
   str% "                [1579]\\d|\n",
   str% "                2[248]|\n",
   str% "                3[014-9]|\n",
   str% "                4[3-6]|\n",
   str% "                6[023689]\n",
   str% "              )|\n",
   str% "              8(?:\n",
   str% "                1[236-8]|\n",
   str% "                2[5-7]|\n",
   str% "                [37]\\d|\n",
   str% "                5[1-9]|\n",
   str% "                8[36-8]|\n",
   str% "                9[1-8]\n",
   str% "              )|\n",
   str% "              9(?:\n",
   str% "                0[1-3689]|\n",
   str% "                1[1-79]|\n",
   str% "                [379]\\d|\n",
   str% "                4[13]|\n",
   str% "                5[1-5]\n",
   str% "              )\n",
   str% "            )[19]\n",
   str% "          </leadingDigits>\n",
   str% "          <leadingDigits>\n",
   str% "            85[23](?:\n",
   str% "              10|\n",
   str% "              95\n",
   str% "            )|\n",
   str% "            (?:\n",
   str% "              3(?:\n",
   str% "                [157]\\d|\n",
   str% "                35|\n",
   str% "                49|\n",
   str% "                9[1-68]\n",
   str% "              )|\n",
   str% "              4(?:\n",
   str% "                [17]\\d|\n",
   str% "                2[179]|\n",
   str% "                [35][1-9]|\n",
   str% "                6[47-9]|\n",
   str% "                8[23]\n",
   str% "              )|\n",
   str% "              5(?:\n",
   str% "                [1357]\\d|\n",
   str% "                2[37]|\n",
   str% "                4[36]|\n",
   str% "                6[1-46]|\n",
   str% "                80|\n",
   str% "                9[1-9]\n",
   str% "              )|\n",
   str% "              6(?:\n",
   str% "                3[1-5]|\n",
   str% "                6[0238]|\n",
   str% "                9[12]\n",
   str% "              )|\n",
   str% "              7(?:\n",
   str% "                01|\n",
   str% "                [1579]\\d|\n",
   str% "                2[248]|\n",
   str% "                3[014-9]|\n",
   str% "                4[3-6]|\n",
   str% "                6[023689]\n",
   str% "              )|\n",
   str% "              8(?:\n",
   str% "                1[236-8]|\n",
   str% "                2[5-7]|\n",
   str% "                [37]\\d|\n",
   str% "                5[14-9]|\n",
   str% "                8[36-8]|\n",
   str% "                9[1-8]\n",
   str% "              )|\n",
   str% "              9(?:\n",
   str% "                0[1-3689]|\n",
   str% "                1[1-79]|\n",
   str% "                [379]\\d|\n",
   str% "                4[13]|\n",
   str% "                5[1-5]\n",
   str% "              )\n",
   str% "            )(?:\n",
   str% "              10|\n",
   str% "              9[56]\n",
   str% "            )\n",
   str% "          </leadingDigits>\n",
   str% "          <leadingDigits>\n",
   str% "            85[23](?:\n",
   str% "              100|\n",
   str% "              95\n",
   str% "            )|\n",
   str% "            (?:\n",
   str% "              3(?:\n",
   str% "                [157]\\d|\n",
   str% "                35|\n",
   str% "                49|\n",
   str% "                9[1-68]\n",
   str% "              )|\n",
   str% "              4(?:\n",
   str% "                [17]\\d|\n",
   str% "                2[179]|\n",
   str% "                [35][1-9]|\n",
   str% "                6[47-9]|\n",
   str% "                8[23]\n",
   str% "              )|\n",
   str% "              5(?:\n",
   str% "                [1357]\\d|\n",
   str% "                2[37]|\n",
   str% "                4[36]|\n",
   str% "                6[1-46]|\n",
   str% "                80|\n",
   str% "                9[1-9]\n",
   str% "              )|\n",
   str% "              6(?:\n",
   str% "                3[1-5]|\n",
   str% "                6[0238]|\n",
   str% "                9[12]\n",
   str% "              )|\n",
   str% "              7(?:\n",
   str% "                01|\n",
   str% "                [1579]\\d|\n",
   str% "                2[248]|\n",
   str% "                3[014-9]|\n",
   str% "                4[3-6]|\n",
   str% "                6[023689]\n",
   str% "              )|\n",
   str% "              8(?:\n",
   str% "                1[236-8]|\n",
   str% "                2[5-7]|\n",
   str% "                [37]\\d|\n",
   str% "                5[14-9]|\n",
   str% "                8[36-8]|\n",
   str% "                9[1-8]\n",
   str% "              )|\n",
   str% "              9(?:\n",
   str% "                0[1-3689]|\n",
   str% "                1[1-79]|\n",
   str% "                [379]\\d|\n",
   str% "                4[13]|\n",
   str% "                5[1-5]\n",
   str% "              )\n",
   str% "            )(?:\n",
   str% "              100|\n",
   str% "              9[56]\n",
   str% "            )\n",
   str% "          </leadingDigits>\n",
   str% "          <format>$1 $2</format>\n",
   str% "        </numberFormat>\n",
   str% "        <numberFormat pattern=\"(\\d{4})(\\d{4})\">\n",
   str% "          <leadingDigits>[1-9]</leadingDigits>\n",
   str% "          <leadingDigits>\n",
   str% "            1(?:\n",
   str% "              0(?:\n",
   str% "                [02-8]|\n",
   str% "                1[1-9]|\n",
   str% "                9[0-47-9]\n",
   str% "              )|\n",
   str% "              [1-9]\n",
   str% "            )|\n",
   str% "            2(?:\n",
   str% "              [0-57-9](?:\n",
   str% "                [0-8]|\n",
   str% "                9[0-47-9]\n",
   str% "              )|\n",
   str% "              6\n",
   str% "            )|\n",
   str% "            [3-9]\n",
   str% "          </leadingDigits>\n",
   str% "          <leadingDigits>\n",
   str% "            1(?:\n",
   str% "              0(?:\n",
   str% "                [02-8]|\n",
   str% "                1[1-9]|\n",
   str% "                9[0-47-9]\n",
   str% "              )|\n",
   str% "              [1-9]\n",
   str% "            )|\n",
   str% "            26|\n",
   str% "            3(?:\n",
   str% "              [0268]|\n",
   str% "              4[0-8]|\n",
   str% "              9[079]\n",
   str% "            )|\n",
   str% "            4(?:\n",
   str% "              [049]|\n",
   str% "              2[02-68]|\n",
   str% "              [35]0|\n",
   str% "              6[0-356]|\n",
   str% "              8[014-9]\n",
   str% "            )|\n",
   str% "            5(?:\n",
   str% "              0|\n",
   str% "              2[0-24-689]|\n",
   str% "              4[0-2457-9]|\n",
   str% "              6[057-9]|\n",
   str% "              8[1-9]|\n",
   str% "              90\n",
   str% "            )|\n",
   str% "            6(?:\n",
   str% "              [0-24578]|\n",
   str% "              3[06-9]|\n",
   str% "              6[14-79]|\n",
   str% "              9[03-9]\n",
   str% "            )|\n",
   str% "            7(?:\n",
   str% "              0[02-9]|\n",
   str% "              2[0135-79]|\n",
   str% "              3[23]|\n",
   str% "              4[0-27-9]|\n",
   str% "              6[1457]|\n",
   str% "              8\n",
   str% "            )|\n",
   str% "            8(?:\n",
   str% "              [046]|\n",
   str% "              1[01459]|\n",
   str% "              2[0-489]|\n",
   str% "              5(?:\n",
   str% "                0|\n",
   str% "                [23][0-8]\n",
   str% "              )|\n",
   str% "              8[0-2459]|\n",
   str% "              9[09]\n",
   str% "            )|\n",
   str% "            9(?:\n",
   str% "              0[0457]|\n",
   str% "              1[08]|\n",
   str% "              [268]|\n",
   str% "              4[024-9]|\n",
   str% "              5[06-9]\n",
   str% "            )|\n",
   str% "            (?:\n",
   str% "              33|\n",
   str% "              85[23]9\n",
   str% "            )[0-46-9]|\n",
   str% "            (?:\n",
   str% "              2[0-57-9]|\n",
   str% "              3(?:\n",
   str% "                [157]\\d|\n",
   str% "                35|\n",
   str% "                49|\n",
   str% "                9[1-68]\n",
   str% "              )|\n",
   str% "              4(?:\n",
   str% "                [17]\\d|\n",
   str% "                2[179]|\n",
   str% "                [35][1-9]|\n",
   str% "                6[47-9]|\n",
   str% "                8[23]\n",
   str% "              )|\n",
   str% "              5(?:\n",
   str% "                [1357]\\d|\n",
   str% "                2[37]|\n",
   str% "                4[36]|\n",
   str% "                6[1-46]|\n",
   str% "                80|\n",
   str% "                9[1-9]\n",
   str% "              )|\n",
   str% "              6(?:\n",
   str% "                3[1-5]|\n",
   str% "                6[0238]|\n",
   str% "                9[12]\n",
   str% "              )|\n",
   str% "              7(?:\n",
   str% "                01|\n",
   str% "                [1579]\\d|\n",
   str% "                2[248]|\n",
   str% "                3[014-9]|\n",
   str% "                4[3-6]|\n",
   str% "                6[023689]\n",
   str% "              )|\n",
   str% "              8(?:\n",
   str% "                1[236-8]|\n",
   str% "                2[5-7]|\n",
   str% "                [37]\\d|\n",
   str% "                5[14-9]|\n",
   str% "                8[36-8]|\n",
   str% "                9[1-8]\n",
   str% "              )|\n",
   str% "              9(?:\n",
   str% "                0[1-3689]|\n",
   str% "                1[1-79]|\n",
   str% "                [379]\\d|\n",
   str% "                4[13]|\n",
   str% "                5[1-5]\n",
   str% "              )\n",
   str% "            )(?:\n",
   str% "              [0-8]|\n",
   str% "              9[0-47-9]\n",
   str% "            )\n",
   str% "          </leadingDigits>\n",
   str% "          <leadingDigits>\n",
   str% "            1(?:\n",
   str% "              0[02-8]|\n",
   str% "              [1-9]\n",
   str% "            )|\n",
   str% "            2(?:\n",
   str% "              [0-57-9][0-8]|\n",
   str% "              6\n",
   str% "            )|\n",
   str% "            3(?:\n",
   str% "              [0268]|\n",
   str% "              3[0-46-9]|\n",
   str% "              4[0-8]|\n",
   str% "              9[079]\n",
   str% "            )|\n",
   str% "            4(?:\n",
   str% "              [049]|\n",
   str% "              2[02-68]|\n",
   str% "              [35]0|\n",
   str% "              6[0-356]|\n",
   str% "              8[014-9]\n",
   str% "            )|\n",
   str% "            5(?:\n",
   str% "              0|\n",
   str% "              2[0-24-689]|\n",
   str% "              4[0-2457-9]|\n",
   str% "              6[057-9]|\n",
   str% "              90\n",
   str% "            )|\n",
   str% "            6(?:\n",
   str% "              [0-24578]|\n",
   str% "              3[06-9]|\n",
   str% "              6[14-79]|\n",
   str% "              9[03-9]\n",
   str% "            )|\n",
   str% "            7(?:\n",
   str% "              0[02-9]|\n",
   str% "              2[0135-79]|\n",
   str% "              3[23]|\n",
   str% "              4[0-27-9]|\n",
   str% "              6[1457]|\n",
   str% "              8\n",
   str% "            )|\n",
   str% "            8(?:\n",
   str% "              [046]|\n",
   str% "              1[01459]|\n",
   str% "              2[0-489]|\n",
   str% "              5(?:\n",
   str% "                0|\n",
   str% "                [23](?:\n",
   str% "                  [02-8]|\n",
   str% "                  1[1-9]|\n",
   str% "                  9[0-46-9]\n",
   str% "                )\n",
   str% "              )|\n",
   str% "              8[0-2459]|\n",
   str% "              9[09]\n",
   str% "            )|\n",
   str% "            9(?:\n",
   str% "              0[0457]|\n",
   str% "              1[08]|\n",
   str% "              [268]|\n",
   str% "              4[024-9]|\n",
   str% "              5[06-9]\n",
   str% "            )|\n",
   str% "            (?:\n",
   str% "              10|\n",
   str% "              2[0-57-9]\n",
   str% "            )9[0-47-9]|\n",
   str% "            (?:\n",
   str% "              101|\n",
   str% "              58|\n",
   str% "              85[23]10\n",
   str% "            )[1-9]|\n",
   str% "            (?:\n",
   str% "              3(?:\n",
   str% "                [157]\\d|\n",
   str% "                35|\n",
   str% "                49|\n",
   str% "                9[1-68]\n",
   str% "              )|\n",
   str% "              4(?:\n",
   str% "                [17]\\d|\n",
   str% "                2[179]|\n",
   str% "                [35][1-9]|\n",
   str% "                6[47-9]|\n",
   str% "                8[23]\n",
   str% "              )|\n",
   str% "              5(?:\n",
   str% "                [1357]\\d|\n",
   str% "                2[37]|\n",
   str% "                4[36]|\n",
   str% "                6[1-46]|\n",
   str% "                80|\n",
   str% "                9[1-9]\n",
   str% "              )|\n",
   str% "              6(?:\n",
   str% "                3[1-5]|\n",
   str% "                6[0238]|\n",
   str% "                9[12]\n",
   str% "              )|\n",
   str% "              7(?:\n",
   str% "                01|\n",
   str% "                [1579]\\d|\n",
   str% "                2[248]|\n",
   str% "                3[014-9]|\n",
   str% "                4[3-6]|\n",
   str% "                6[023689]\n",
   str% "              )|\n",
   str% "              8(?:\n",
   str% "                1[236-8]|\n",
   str% "                2[5-7]|\n",
   str% "                [37]\\d|\n",
   str% "                5[14-9]|\n",
   str% "                8[36-8]|\n",
   str% "                9[1-8]\n",
   str% "              )|\n",
   str% "              9(?:\n",
   str% "                0[1-3689]|\n",
   str% "                1[1-79]|\n",
   str% "                [379]\\d|\n",
   str% "                4[13]|\n",
   str% "                5[1-5]\n",
   str% "              )\n",
   str% "            )(?:\n",
   str% "              [02-8]|\n",
   str% "              1(?:\n",
   str% "                0[1-9]|\n",
   str% "                [1-9]\n",
   str% "              )|\n",
   str% "              9[0-47-9]\n",
   str% "            )\n",
   str% "          </leadingDigits>\n",
   str% "          <format>$1 $2</format>\n",
   str% "          <intlFormat>NA</intlFormat>\n",
   str% "        </numberFormat>\n",
   str% "        <!-- 10 digit toll free or shared cost range -->\n",
   str% "        <numberFormat pattern=\"(\\d{3})(\\d{3})(\\d{4})\">\n",
   str% "          <leadingDigits>\n",
   str% "            (?:\n",
   str% "              4|\n",
   str% "              80\n",
   str% "            )0\n",
   str% "          </leadingDigits>\n",
   str% "          <format>$1 $2 $3</format>\n",
   str% "        </numberFormat>\n",
   str% "        <!-- 10 digit fixed line range -->\n",
   str% "        <numberFormat pattern=\"(\\d{2})(\\d{4})(\\d{4})\" nationalPrefixFormattingRule=\"$NP$FG\"\n",
   str% "                      nationalPrefixOptionalWhenFormatting=\"true\"\n",
   str% "                      carrierCodeFormattingRule=\"$CC $FG\">\n",
   str% "          <leadingDigits>\n",
   str% "            10|\n",
   str% "            2(?:\n",
   str% "              [02-57-9]|\n",
   str% "              1[1-9]\n",
   str% "            )\n",
   str% "          </leadingDigits>\n",
   str% "          <leadingDigits>\n",
   str% "            10|\n",
   str% "            2(?:\n",
   str% "              [02-57-9]|\n",
   str% "              1[1-9]\n",
   str% "            )\n",
   str% "          </leadingDigits>\n",
   str% "          <leadingDigits>\n",
   str% "            10[0-79]|\n",
   str% "            2(?:\n",
   str% "              [02-57-9]|\n",
   str% "              1[1-79]\n",
   str% "            )|\n",
   str% "            (?:\n",
   str% "              10|\n",
   str% "              21\n",
   str% "            )8(?:\n",
   str% "              0[1-9]|\n",
   str% "              [1-9]\n",
   str% "            )\n",
   str% "          </leadingDigits>\n",
   str% "          <format>$1 $2 $3</format>\n",
   str% "        </numberFormat>\n",
   str% "        <!-- 10 digit fixed line range -->\n",
   str% "        <numberFormat pattern=\"(\\d{3})(\\d{3})(\\d{4})\" nationalPrefixFormattingRule=\"$NP$FG\"\n",
   str% "                      nationalPrefixOptionalWhenFormatting=\"true\"\n",
   str% "                      carrierCodeFormattingRule=\"$CC $FG\">\n",
   str% "          <leadingDigits>\n",
   str% "            3(?:\n",
   str% "              [3-59]|\n",
   str% "              7[02-68]\n",
   str% "            )|\n",
   str% "            4(?:\n",
   str% "              [26-8]|\n",
   str% "              3[3-9]|\n",
   str% "              5[2-9]\n",
   str% "            )|\n",
   str% "            5(?:\n",
   str% "              3[03-9]|\n",
   str% "              [468]|\n",
   str% "              7[028]|\n",
   str% "              9[2-46-9]\n",
   str% "            )|\n",
   str% "            6|\n",
   str% "            7(?:\n",
   str% "              [0-247]|\n",
   str% "              3[04-9]|\n",
   str% "              5[0-4689]|\n",
   str% "              6[2368]\n",
   str% "            )|\n",
   str% "            8(?:\n",
   str% "              [1-358]|\n",
   str% "              9[1-7]\n",
   str% "            )|\n",
   str% "            9(?:\n",
   str% "              [013479]|\n",
   str% "              5[1-5]\n",
   str% "            )|\n",
   str% "            (?:\n",
   str% "              [34]1|\n",
   str% "              55|\n",
   str% "              79|\n",
   str% "              87\n",
   str% "            )[02-9]\n",
   str% "          </leadingDigits>\n",
   str% "          <format>$1 $2 $3</format>\n",
   str% "        </numberFormat>\n",
   str% "        <!-- 10-11 digit shared cost range -->\n",
   str% "        <numberFormat pattern=\"(\\d{3})(\\d{7,8})\">\n",
   str% "          <leadingDigits>9</leadingDigits>\n",
   str% "          <format>$1 $2</format>\n",
   str% "        </numberFormat>\n",
   str% "        <!-- 11 digit fixed line range -->\n",
   str% "        <numberFormat pattern=\"(\\d{4})(\\d{3})(\\d{4})\" nationalPrefixFormattingRule=\"$NP$FG\"\n",
   str% "                      nationalPrefixOptionalWhenFormatting=\"true\"\n",
   str% "                      carrierCodeFormattingRule=\"$CC $FG\">\n",
   str% "          <leadingDigits>80</leadingDigits>\n",
   str% "          <format>$1 $2 $3</format>\n",
   str% "        </numberFormat>\n",
   str% "        <!-- 11 digit fixed line range -->\n",
   str% "        <numberFormat pattern=\"(\\d{3})(\\d{4})(\\d{4})\" nationalPrefixFormattingRule=\"$NP$FG\"\n",
   str% "                      nationalPrefixOptionalWhenFormatting=\"true\"\n",
   str% "                      carrierCodeFormattingRule=\"$CC $FG\">\n",
   str% "          <leadingDigits>[3-578]</leadingDigits>\n",
   str% "          <format>$1 $2 $3</format>\n",
   str% "        </numberFormat>\n",
   str% "        <!-- Mobile range -->\n",
   str% "        <numberFormat pattern=\"(\\d{3})(\\d{4})(\\d{4})\" carrierCodeFormattingRule=\"$CC $FG\">\n",
   str% "          <leadingDigits>1[3-9]</leadingDigits>\n",
   str% "          <format>$1 $2 $3</format>\n",
   str% "        </numberFormat>\n",
   str% "        <!-- 12 digit toll free range -->\n",
   str% "        <numberFormat pattern=\"(\\d{2})(\\d{3})(\\d{3})(\\d{4})\" nationalPrefixFormattingRule=\"$NP$FG\"\n",
   str% "                      nationalPrefixOptionalWhenFormatting=\"true\">\n",
   str% "          <leadingDigits>[12]</leadingDigits>\n",
   str% "          <format>$1 $2 $3 $4</format>\n",
   str% "        </numberFormat>\n",
   str% "      </availableFormats>\n",
   str% "      <generalDesc>\n",
   str% "        <nationalNumberPattern>\n",
   str% "          (?:\n",
   str% "            (?:\n",
   str% "              1[03-689]|\n",
   str% "              2\\d\n",
   str% "            )\\d\\d|\n",
   str% "            6\n",
   str% "          )\\d{8}|\n",
   str% "          1\\d{10}|\n",
   str% "          [126]\\d{6}(?:\n",
   str% "            \\d(?:\n",
   str% "              \\d{2}\n",
   str% "            )?\n",
   str% "          )?|\n",
   str% "          86\\d{5,6}|\n",
   str% "          (?:\n",
   str% "            [3-579]\\d|\n",
   str% "            8[0-57-9]\n",
   str% "          )\\d{5,9}\n",
   str% "        </nationalNumberPattern>\n",
   str% "      </generalDesc>\n",
   str% "      <noInternationalDialling>\n",
   str% "        <possibleLengths national=\"[10-12]\"/>\n",
   str% "        <nationalNumberPattern>\n",
   str% "          (?:\n",
   str% "            (?:\n",
   str% "              10|\n",
   str% "              21\n",
   str% "            )8|\n",
   str% "            [48]\n",
   str% "          )00\\d{7}|\n",
   str% "          950\\d{7,8}\n",
   str% "        </nationalNumberPattern>\n",
   str% "      </noInternationalDialling>\n",
   str% "      <!-- 0432 increased to 8 digits on October 24, 2009. 0791 increased to 8 digits on August\n",
   str% "           28, 2011. 0551 increased to 8 digits and 0565 was cancelled on Dec 8, 2012. 0871\n",
   str% "           increased to 8 digits on December 16, 2012. 0475 is the prefix for Tongliao but is not\n",
   str% "           in the ITU data.\n",
   str% "           10xxx, 123xx and 95xxx(x) numbers with area codes are also included here, as they\n",
   str% "           behave exactly like fixed-line numbers. We don't support them for 4-digit area codes\n",
   str% "           though, as they don't seem to be used there based on making actual phone calls. -->\n",
   str% "      <fixedLine>\n",
   str% "        <possibleLengths national=\"[7-11]\" localOnly=\"5,6\"/>\n",
   str% "        <exampleNumber>1012345678</exampleNumber>\n",
   str% "        <nationalNumberPattern>\n",
   str% "          (?:\n",
   str% "            10(?:\n",
   str% "              [02-79]\\d\\d|\n",
   str% "              [18](?:\n",
   str% "                0[1-9]|\n",
   str% "                [1-9]\\d\n",
   str% "              )\n",
   str% "            )|\n",
   str% "            2(?:\n",
   str% "              [02-57-9]\\d{3}|\n",
   str% "              1(?:\n",
   str% "                [18](?:\n",
   str% "                  0[1-9]|\n",
   str% "                  [1-9]\\d\n",
   str% "                )|\n",
   str% "                [2-79]\\d\\d\n",
   str% "              )\n",
   str% "            )|\n",
   str% "            (?:\n",
   str% "              41[03]|\n",
   str% "              8078|\n",
   str% "              9(?:\n",
   str% "                78|\n",
   str% "                94\n",
   str% "              )\n",
   str% "            )\\d\\d\n",
   str% "          )\\d{5}|\n",
   str% "          (?:\n",
   str% "            10|\n",
   str% "            2[0-57-9]\n",
   str% "          )(?:\n",
   str% "            1(?:\n",
   str% "              00|\n",
   str% "              23\n",
   str% "            )\\d\\d|\n",
   str% "            95\\d{3,4}\n",
   str% "          )|\n",
   str% "          (?:\n",
   str% "            41[03]|\n",
   str% "            9(?:\n",
   str% "              78|\n",
   str% "              94\n",
   str% "            )\n",
   str% "          )(?:\n",
   str% "            100\\d\\d|\n",
   str% "            95\\d{3,4}\n",
   str% "          )|\n",
   str% "          8078123|\n",
   str% "          (?:\n",
   str% "            43[35]|\n",
   str% "            754|\n",
   str% "            851\n",
   str% "          )\\d{7,8}|\n",
   str% "          (?:\n",
   str% "            43[35]|\n",
   str% "            754|\n",
   str% "            851\n",
   str% "          )(?:\n",
   str% "            1(?:\n",
   str% "              00\\d|\n",
   str% "              23\n",
   str% "            )\\d|\n",
   str% "            95\\d{3,4}\n",
   str% "          )|\n",
   str% "          (?:\n",
   str% "            3(?:\n",
   str% "              11|\n",
   str% "              7[179]\n",
   str% "            )|\n",
   str% "            4(?:\n",
   str% "              [15]1|\n",
   str% "              3[12]\n",
   str% "            )|\n",
   str% "            5(?:\n",
   str% "              1\\d|\n",
   str% "              2[37]|\n",
   str% "              3[12]|\n",
   str% "              51|\n",
   str% "              7[13-79]|\n",
   str% "              9[15]\n",
   str% "            )|\n",
   str% "            7(?:\n",
   str% "              [39]1|\n",
   str% "              5[57]|\n",
   str% "              6[09]\n",
   str% "            )|\n",
   str% "            8(?:\n",
   str% "              71|\n",
   str% "              98\n",
   str% "            )\n",
   str% "          )(?:\n",
   str% "            [02-8]\\d{7}|\n",
   str% "            1(?:\n",
   str% "              0(?:\n",
   str% "                0\\d\\d(?:\n",
   str% "                  \\d{3}\n",
   str% "                )?|\n",
   str% "                [1-9]\\d{5}\n",
   str% "              )|\n",
   str% "              [13-9]\\d{6}|\n",
   str% "              2(?:\n",
   str% "                [0-24-9]\\d{5}|\n",
   str% "                3\\d(?:\n",
   str% "                  \\d{4}\n",
   str% "                )?\n",
   str% "              )\n",
   str% "            )|\n",
   str% "            9(?:\n",
   str% "              [0-46-9]\\d{6}|\n",
   str% "              5\\d{3}(?:\n",
   str% "                \\d(?:\n",
   str% "                  \\d{2}\n",
   str% "                )?\n",
   str% "              )?\n",
   str% "            )\n",
   str% "          )|\n",
   str% "          (?:\n",
   str% "            3(?:\n",
   str% "              1[02-9]|\n",
   str% "              35|\n",
   str% "              49|\n",
   str% "              5\\d|\n",
   str% "              7[02-68]|\n",
   str% "              9[1-68]\n",
   str% "            )|\n",
   str% "            4(?:\n",
   str% "              1[24-9]|\n",
   str% "              2[179]|\n",
   str% "              3[46-9]|\n",
   str% "              5[2-9]|\n",
   str% "              6[47-9]|\n",
   str% "              7\\d|\n",
   str% "              8[23]\n",
   str% "            )|\n",
   str% "            5(?:\n",
   str% "              3[03-9]|\n",
   str% "              4[36]|\n",
   str% "              5[02-9]|\n",
   str% "              6[1-46]|\n",
   str% "              7[028]|\n",
   str% "              80|\n",
   str% "              9[2-46-9]\n",
   str% "            )|\n",
   str% "            6(?:\n",
   str% "              3[1-5]|\n",
   str% "              6[0238]|\n",
   str% "              9[12]\n",
   str% "            )|\n",
   str% "            7(?:\n",
   str% "              01|\n",
   str% "              [17]\\d|\n",
   str% "              2[248]|\n",
   str% "              3[04-9]|\n",
   str% "              4[3-6]|\n",
   str% "              5[0-3689]|\n",
   str% "              6[2368]|\n",
   str% "              9[02-9]\n",
   str% "            )|\n",
   str% "            8(?:\n",
   str% "              1[236-8]|\n",
   str% "              2[5-7]|\n",
   str% "              3\\d|\n",
   str% "              5[2-9]|\n",
   str% "              7[02-9]|\n",
   str% "              8[36-8]|\n",
   str% "              9[1-7]\n",
   str% "            )|\n",
   str% "            9(?:\n",
   str% "              0[1-3689]|\n",
   str% "              1[1-79]|\n",
   str% "              3\\d|\n",
   str% "              4[13]|\n",
   str% "              5[1-5]|\n",
   str% "              7[0-79]|\n",
   str% "              9[0-35-9]\n",
   str% "            )\n",
   str% "          )(?:\n",
   str% "            [02-8]\\d{6}|\n",
   str% "            1(?:\n",
   str% "              0(?:\n",
   str% "                0\\d\\d(?:\n",
   str% "                  \\d{2}\n",
   str% "                )?|\n",
   str% "                [1-9]\\d{4}\n",
   str% "              )|\n",
   str% "              [13-9]\\d{5}|\n",
   str% "              2(?:\n",
   str% "                [0-24-9]\\d{4}|\n",
   str% "                3\\d(?:\n",
   str% "                  \\d{3}\n",
   str% "                )?\n",
   str% "              )\n",
   str% "            )|\n",
   str% "            9(?:\n",
   str% "              [0-46-9]\\d{5}|\n",
   str% "              5\\d{3,5}\n",
   str% "            )\n",
   str% "          )\n",
   str% "        </nationalNumberPattern>\n",
   str% "      </fixedLine>\n",
   str% "      <!-- 170, 176 and 177 prefixes are introduced in early 2014 for 4G networks. ITU mentions 13\n",
   str% "           digit 10647, 1440 and 10 digit 14[68] ranges as \"Non-geographic number, Mobile (IoT\n",
   str% "           dedicated)\". Library does not support \"Internet of things (IoT)\" numbers which are\n",
   str% "           generally used for communication between the devices. So we don't include 146 here at\n",
   str% "           this time. -->\n",
   str% "      <mobile>\n",
   str% "        <possibleLengths national=\"11\"/>\n",
   str% "        <exampleNumber>13123456789</exampleNumber>\n",
   str% "        <nationalNumberPattern>\n",
   str% "          1740[0-5]\\d{6}|\n",
   str% "          1(?:\n",
   str% "            [38]\\d|\n",
   str% "            4[57]|\n",
   str% "            [59][0-35-9]|\n",
   str% "            6[25-7]|\n",
   str% "            7[0-35-8]\n",
   str% "          )\\d{8}\n",
   str% "        </nationalNumberPattern>\n",
   str% "      </mobile>\n",
   str% "      <!-- Toll free, premium rate, and VoIP numbers are not clearly defined in the official Chinese\n",
   str% "           number plan, and do not seem to have been standardized. The information below is\n",
   str% "           collected from searching the web. 12 digit 800 numbers with area codes of Shanghai(21)\n",
   str% "           and Beijing(10) are toll-free based on online references. -->\n",
   str% "      <!-- http://en.wikipedia.org/wiki/Toll-free_telephone_number -->\n",
   str% "      <tollFree>\n",
   str% "        <possibleLengths national=\"10,12\"/>\n",
   str% "        <exampleNumber>8001234567</exampleNumber>\n",
   str% "        <nationalNumberPattern>\n",
   str% "          (?:\n",
   str% "            (?:\n",
   str% "              10|\n",
   str% "              21\n",
   str% "            )8|\n",
   str% "            8\n",
   str% "          )00\\d{7}\n",
   str% "        </nationalNumberPattern>\n",
   str% "      </tollFree>\n",
   str% "      <premiumRate>\n",
   str% "        <possibleLengths national=\"8\"/>\n",
   str% "        <exampleNumber>16812345</exampleNumber>\n",
   str% "        <nationalNumberPattern>16[08]\\d{5}</nationalNumberPattern>\n",
   str% "      </premiumRate>\n",
   str% "      <!-- 96xxx(x) numbers with area codes are included here. Their costs are not well\n",
   str% "           documented, but they are thought to be mostly local costs with certain exceptions. We\n",
   str% "           don't support them for 4-digit area codes though, as they don't seem to be used there\n",
   str% "           based on online searches. -->\n",
   str% "      <sharedCost>\n",
   str% "        <possibleLengths national=\"[7-11]\" localOnly=\"5,6\"/>\n",
   str% "        <exampleNumber>4001234567</exampleNumber>\n",
   str% "        <nationalNumberPattern>\n",
   str% "          10(?:\n",
   str% "            10\\d{4}|\n",
   str% "            96\\d{3,4}\n",
   str% "          )|\n",
   str% "          400\\d{7}|\n",
   str% "          950\\d{7,8}|\n",
   str% "          (?:\n",
   str% "            2[0-57-9]|\n",
   str% "            3(?:\n",
   str% "              [157]\\d|\n",
   str% "              35|\n",
   str% "              49|\n",
   str% "              9[1-68]\n",
   str% "            )|\n",
   str% "            4(?:\n",
   str% "              [17]\\d|\n",
   str% "              2[179]|\n",
   str% "              [35][1-9]|\n",
   str% "              6[47-9]|\n",
   str% "              8[23]\n",
   str% "            )|\n",
   str% "            5(?:\n",
   str% "              [1357]\\d|\n",
   str% "              2[37]|\n",
   str% "              4[36]|\n",
   str% "              6[1-46]|\n",
   str% "              80|\n",
   str% "              9[1-9]\n",
   str% "            )|\n",
   str% "            6(?:\n",
   str% "              3[1-5]|\n",
   str% "              6[0238]|\n",
   str% "              9[12]\n",
   str% "            )|\n",
   str% "            7(?:\n",
   str% "              01|\n",
   str% "              [1579]\\d|\n",
   str% "              2[248]|\n",
   str% "              3[014-9]|\n",
   str% "              4[3-6]|\n",
   str% "              6[023689]\n",
   str% "            )|\n",
   str% "            8(?:\n",
   str% "              1[236-8]|\n",
   str% "              2[5-7]|\n",
   str% "              [37]\\d|\n",
   str% "              5[14-9]|\n",
   str% "              8[36-8]|\n",
   str% "              9[1-8]\n",
   str% "            )|\n",
   str% "            9(?:\n",
   str% "              0[1-3689]|\n",
   str% "              1[1-79]|\n",
   str% "              [379]\\d|\n",
   str% "              4[13]|\n",
   str% "              5[1-5]\n",
   str% "            )\n",
   str% "          )96\\d{3,4}\n",
   str% "        </nationalNumberPattern>\n",
   str% "      </sharedCost>\n",
   str% "    </territory>"]

/-- the text up to the end of territory id=CO countryCode=57 -/
noncomputable def CO : List Str :=
  [str% "\n",
   str% "\n",
   str% "    <!-- Colombia (CO) -->\n",
   str% "    <!-- http://www.itu.int/oth/T020200002C/en -->\n",
   str% "    <!-- http://en.wikipedia.org/wiki/Telephone_numbers_in_Colombia -->\n",
   str% "    <territory id=\"CO\" countryCode=\"57\" internationalPrefix=\"00(?:4(?:[14]4|56)|[579])\"\n",
   str% "               nationalPrefix=\"0\" nationalPrefixForParsing=\"0([3579]|4(?:[14]4|56))?\"\n",
   str% "               mobileNumberPortableRegion=\"true\">\n",
   str% "      <availableFormats>\n",
   str% "        <numberFormat pattern=\"(\\d{4})(\\d{4})\">\n",
   str% "          <leadingDigits>46</leadingDigits>\n",
   str% "          <format>$1 $2</format>\n",
   str% "        </numberFormat>\n",
   str% "        <numberFormat pattern=\"(\\d{3})(\\d{7})\" nationalPrefixFormattingRule=\"($FG)\"\n",
   str% "                      carrierCodeFormattingRule=\"$NP$CC $FG\">\n",
   str% "          <leadingDigits>\n",
   str% "            6|\n",
   str% "            90\n",
   str% "          </leadingDigits>\n",
   str% "          <format>$1 $2</format>\n",
   str% "        </numberFormat>\n",
   str% "        <numberFormat pattern=\"(\\d{3})(\\d{7})\" carrierCodeFormattingRule=\"$NP$CC $FG\">\n",
   str% "          <leadingDigits>\n",
   str% "            3[0-357]|\n",
   str% "            9[14]\n",
   str% "          </leadingDigits>\n",
   str% "          <format>$1 $2</format>\n",
   str% "        </numberFormat>\n",
   str% "        <numberFormat pattern=\"(\\d)(\\d{3})(\\d{7})\" nationalPrefixFormattingRule=\"$NP$FG\">\n",
   str% "          <leadingDigits>1</leadingDigits>\n",
   str% "          <format>$1-$2-$3</format>\n",
   str% "          <intlFormat>$1 $2 $3</intlFormat>\n",
   str% "        </numberFormat>\n",
   str% "      </availableFormats>\n",
   str% "      <generalDesc>\n",
   str% "        <nationalNumberPattern>\n",
   str% "          (?:\n",
   str% "            46|\n",
   str% "            60\\d\\d\n",
   str% "          )\\d{6}|\n",
   str% "          (?:\n",
   str% "            1\\d|\n",
   str% "            [39]\n",
   str% "          )\\d{9}\n",
   str% "        </nationalNumberPattern>\n",
   str% "      </generalDesc>\n",
   str% "      <fixedLine>\n",
   str% "        <possibleLengths national=\"8,10\" localOnly=\"4,7\"/>\n",
   str% "        <exampleNumber>6012345678</exampleNumber>\n",
   str% "        <nationalNumberPattern>\n",
   str% "          601055(?:\n",
   str% "            [0-4]\\d|\n",
   str% "            50\n",
   str% "          )\\d\\d|\n",
   str% "          6010(?:\n",
   str% "            [0-4]\\d|\n",
   str% "            5[0-4]\n",
   str% "          )\\d{4}|\n",
   str% "          (?:\n",
   str% "            46|\n",
   str% "            60(?:\n",
   str% "              [18][1-9]|\n",
   str% "              [24-7][2-9]\n",
   str% "            )\n",
   str% "          )\\d{6}\n",
   str% "        </nationalNumberPattern>\n",
   str% "      </fixedLine>\n",
   str% "      <!-- Added prefix 323 based on user report and online evidences. -->\n",
   str% "      <mobile>\n",
   str% "        <possibleLengths national=\"10\"/>\n",
   str% "        <exampleNumber>3211234567</exampleNumber>\n",
   str% "        <nationalNumberPattern>\n",
   str% "          333301[0-5]\\d{3}|\n",
   str% "          3333(?:\n",
   str% "            00|\n",
   str% "            2[5-9]|\n",
   str% "            [3-9]\\d\n",
   str% "          )\\d{4}|\n",
   str% "          (?:\n",
   str% "            3(?:\n",
   str% "              (?:\n",
   str% "                0[0-5]|\n",
   str% "                1\\d|\n",
   str% "                5[01]|\n",
   str% "                70\n",
   str% "              )\\d|\n",
   str% "              2(?:\n",
   str% "                [0-3]\\d|\n",
   str% "                4[1-9]\n",
   str% "              )|\n",
   str% "              3(?:\n",
   str% "                00|\n",
   str% "                3[0-24-9]\n",
   str% "              )\n",
   str% "            )|\n",
   str% "            9(?:\n",
   str% "              101|\n",
   str% "              408\n",
   str% "            )\n",
   str% "          )\\d{6}\n",
   str% "        </nationalNumberPattern>\n",
   str% "      </mobile>\n",
   str% "      <tollFree>\n",
   str% "        <possibleLengths national=\"11\"/>\n",
   str% "        <exampleNumber>18001234567</exampleNumber>\n",
   str% "        <nationalNumberPattern>1800\\d{7}</nationalNumberPattern>\n",
   str% "      </tollFree>\n",
   str% "      <premiumRate>\n",
   str% "        <possibleLengths national=\"10,11\"/>\n",
   str% "        <exampleNumber>19001234567</exampleNumber>\n",
   str% "        <nationalNumberPattern>\n",
   str% "          (?:\n",
   str% "            19(?:\n",
   str% "              0[01]|\n",
   str% "              4[78]\n",
   str% "            )|\n",
   str% "            901\n",
   str% "          )\\d{7}\n",
   str% "        </nationalNumberPattern>\n",
   str% "      </premiumRate>\n",
   str% "    </territory>"]

/-- the text up to the end of territory id=CR countryCode=506 -/
noncomputable def CR : List Str :=
  [str% "\n",
   str% "\n",
   str% "    <!-- Costa Rica (CR) -->\n",
   str% "    <!-- http://www.itu.int/oth/T0202000030/en -->\n",
   str% "    <!-- http://en.wikipedia.org/wiki/Telephone_numbers_in_Costa_Rica -->\n",
   str% "    <territory id=\"CR\" countryCode=\"506\" internationalPrefix=\"00\"\n",
   str% "               nationalPrefixForParsing=\"(19(?:0[0-2468]|1[09]|20|66|77|99))\">\n",
   str% "      <availableFormats>\n",
   str% "        <numberFormat pattern=\"(\\d{4})(\\d{4})\" carrierCodeFormattingRule=\"$CC $FG\">\n",
   str% "          <leadingDigits>\n",
   str% "            [2-7]|\n",
   str% "            8[3-9]\n",
   str% "          </leadingDigits>\n",
   str% "          <format>$1 $2</format>\n",
   str% "        </numberFormat>\n",
   str% "        <numberFormat pattern=\"(\\d{3})(\\d{3})(\\d{4})\" carrierCodeFormattingRule=\"$CC $FG\">\n",
   str% "          <leadingDigits>[89]</leadingDigits>\n",
   str% "          <format>$1-$2-$3</format>\n",
   str% "        </numberFormat>\n",
   str% "      </availableFormats>\n",
   str% "      <generalDesc>\n",
   str% "        <nationalNumberPattern>\n",
   str% "          (?:\n",
   str% "            8\\d|\n",
   str% "            90\n",
   str% "          )\\d{8}|\n",
   str% "          (?:\n",
   str% "            [24-8]\\d{3}|\n",
   str% "            3005\n",
   str% "          )\\d{4}\n",
   str% "        </nationalNumberPattern>\n",
   str% "      </generalDesc>\n",
   str% "      <!-- Added prefix 20 and 21 found online. Care must be taken to avoid overlapping with\n",
   str% "           210[0-6]xxxx, which is clearly marked as VOIP in the ITU document. -->\n",
   str% "      <fixedLine>\n",
   str% "        <possibleLengths national=\"8\"/>\n",
   str% "        <exampleNumber>22123456</exampleNumber>\n",
   str% "        <nationalNumberPattern>\n",
   str% "          210[7-9]\\d{4}|\n",
   str% "          2(?:\n",
   str% "            [024-7]\\d|\n",
   str% "            1[1-9]\n",
   str% "          )\\d{5}\n",
   str% "        </nationalNumberPattern>\n",
   str% "      </fixedLine>\n",
   str% "      <mobile>\n",
   str% "        <possibleLengths national=\"8\"/>\n",
   str% "        <exampleNumber>83123456</exampleNumber>\n",
   str% "        <nationalNumberPattern>\n",
   str% "          (?:\n",
   str% "            3005\\d|\n",
   str% "            6500[01]\n",
   str% "          )\\d{3}|\n",
   str% "          (?:\n",
   str% "            5[07]|\n",
   str% "            6[0-4]|\n",
   str% "            7[0-3]|\n",
   str% "            8[3-9]\n",
   str% "          )\\d{6}\n",
   str% "        </nationalNumberPattern>\n",
   str% "      </mobile>\n",
   str% "      <tollFree>\n",
   str% "        <possibleLengths national=\"10\"/>\n",
   str% "        <exampleNumber>8001234567</exampleNumber>\n",
   str% "        <nationalNumberPattern>800\\d{7}</nationalNumberPattern>\n",
   str% "      </tollFree>\n",
   str% "      <!-- Includes \"mass calls\" numbers with prefix 905. -->\n",
   str% "      <premiumRate>\n",
   str% "        <possibleLengths national=\"10\"/>\n",
   str% "        <exampleNumber>9001234567</exampleNumber>\n",
   str% "        <nationalNumberPattern>90[059]\\d{7}</nationalNumberPattern>\n",
   str% "      </premiumRate>\n",
   str% "      <!-- Including trunking service numbers starting with 5100. -->\n",
   str% "      <!-- Prefixes for VOIP simplified from wikipedia 4xxx xxxx -->\n",
   str% "      <!-- Prefix 210x xxxx present before, taken from ITU doc -->\n",
   str% "      <voip>\n",
   str% "        <possibleLengths national=\"8\"/>\n",
   str% "        <exampleNumber>40001234</exampleNumber>\n",
   str% "        <nationalNumberPattern>\n",
   str% "          (?:\n",
   str% "            210[0-6]|\n",
   str% "            4\\d{3}|\n",
   str% "            5100\n",
   str% "          )\\d{4}\n",
   str% "        </nationalNumberPattern>\n",
   str% "      </voip>\n",
   str% "    </territory>"]

/-- the text of this module -/
noncomputable def chunk03 : List (List Str) :=
  [CN, CO, CR]

end Phone.Data.S
