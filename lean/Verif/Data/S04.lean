import Verif.Basic.Str
/-! Text of `/repo/assets/PhoneNumberMetadata.xml`, in lines. Generated by `tools/gen_xml.py`; do not edit. -/

set_option maxRecDepth 100000
namespace Phone.Data.S

/-- the text up to the end of territory id=CU countryCode=53 -/
noncomputable def CU : List Str :=
  [str% "\n",
   str% "\n",
   str% "    <!-- Cuba (CU) -->\n",
   str% "    <!-- http://www.itu.int/oth/T0202000033/en -->\n",
   str% "    <territory id=\"CU\" countryCode=\"53\" internationalPrefix=\"119\" nationalPrefix=\"0\">\n",
   str% "      <availableFormats>\n",
   str% "        <numberFormat pattern=\"(\\d{2})(\\d{4,6})\" nationalPrefixFormattingRule=\"($NP$FG)\">\n",
   str% "          <leadingDigits>\n",
   str% "            2[1-4]|\n",
   str% "            [34]\n",
   str% "          </leadingDigits>\n",
   str% "          <format>$1 $2</format>\n",
   str% "        </numberFormat>\n",
   str% "        <numberFormat pattern=\"(\\d)(\\d{6,7})\" nationalPrefixFormattingRule=\"($NP$FG)\">\n",
   str% "          <leadingDigits>7</leadingDigits>\n",
   str% "          <format>$1 $2</format>\n",
   str% "        </numberFormat>\n",
   str% "        <numberFormat pattern=\"(\\d)(\\d{7})\" nationalPrefixFormattingRule=\"$NP$FG\">\n",
   str% "          <leadingDigits>[56]</leadingDigits>\n",
   str% "          <format>$1 $2</format>\n",
   str% "        </numberFormat>\n",
   str% "        <numberFormat pattern=\"(\\d{3})(\\d{7})\" nationalPrefixFormattingRule=\"$NP$FG\">\n",
   str% "          <leadingDigits>8</leadingDigits>\n",
   str% "          <format>$1 $2</format>\n",
   str% "        </numberFormat>\n",
   str% "      </availableFormats>\n",
   str% "      <generalDesc>\n",
   str% "        <nationalNumberPattern>\n",
   str% "          (?:\n",
   str% "            [2-7]|\n",
   str% "            8\\d\\d\n",
   str% "          )\\d{7}|\n",
   str% "          [2-47]\\d{6}|\n",
   str% "          [34]\\d{5}\n",
   str% "        </nationalNumberPattern>\n",
   str% "      </generalDesc>\n",
   str% "      <!-- Based on one of the data sources, 80[25] and 878 ranges are fixed-line as per\n",
   str% "           Government docs, though no other references are found. -->\n",
   str% "      <fixedLine>\n",
   str% "        <possibleLengths national=\"[6-8],10\" localOnly=\"4,5\"/>\n",
   str% "        <exampleNumber>71234567</exampleNumber>\n",
   str% "        <nationalNumberPattern>\n",
   str% "          (?:\n",
   str% "            3[23]|\n",
   str% "            4[89]\n",
   str% "          )\\d{4,6}|\n",
   str% "          (?:\n",
   str% "            31|\n",
   str% "            4[36]|\n",
   str% "            8(?:\n",
   str% "              0[25]|\n",
   str% "              78\n",
   str% "            )\\d\n",
   str% "          )\\d{6}|\n",
   str% "          (?:\n",
   str% "            2[1-4]|\n",
   str% "            4[1257]|\n",
   str% "            7\\d\n",
   str% "          )\\d{5,6}\n",
   str% "        </nationalNumberPattern>\n",
   str% "      </fixedLine>\n",
   str% "      <mobile>\n",
   str% "        <possibleLengths national=\"8\"/>\n",
   str% "        <exampleNumber>51234567</exampleNumber>\n",
   str% "        <nationalNumberPattern>\n",
   str% "          (?:\n",
   str% "            5\\d|\n",
   str% "            6[2-4]\n",
   str% "          )\\d{6}\n",
   str% "        </nationalNumberPattern>\n",
   str% "      </mobile>\n",
   str% "      <tollFree>\n",
   str% "        <possibleLengths national=\"10\"/>\n",
   str% "        <exampleNumber>8001234567</exampleNumber>\n",
   str% "        <nationalNumberPattern>800\\d{7}</nationalNumberPattern>\n",
   str% "      </tollFree>\n",
   str% "      <sharedCost>\n",
   str% "        <possibleLengths national=\"10\"/>\n",
   str% "        <exampleNumber>8071234567</exampleNumber>\n",
   str% "        <nationalNumberPattern>807\\d{7}</nationalNumberPattern>\n",
   str% "      </sharedCost>\n",
   str% "    </territory>"]

/-- the text up to the end of territory id=CV countryCode=238 -/
noncomputable def CV : List Str :=
  [str% "\n",
   str% "\n",
   str% "    <!-- Cape Verde (CV) -->\n",
   str% "    <!-- http://www.itu.int/oth/T0202000026/en -->\n",
   str% "    <territory id=\"CV\" countryCode=\"238\" internationalPrefix=\"0\">\n",
   str% "      <availableFormats>\n",
   str% "        <numberFormat pattern=\"(\\d{3})(\\d{2})(\\d{2})\">\n",
   str% "          <leadingDigits>[2-589]</leadingDigits>\n",
   str% "          <format>$1 $2 $3</format>\n",
   str% "        </numberFormat>\n",
   str% "      </availableFormats>\n",
   str% "      <generalDesc>\n",
   str% "        <nationalNumberPattern>\n",
   str% "          (?:\n",
   str% "            [2-59]\\d\\d|\n",
   str% "            800\n",
   str% "          )\\d{4}\n",
   str% "        </nationalNumberPattern>\n",
   str% "      </generalDesc>\n",
   str% "      <fixedLine>\n",
   str% "        <possibleLengths national=\"7\"/>\n",
   str% "        <exampleNumber>2211234</exampleNumber>\n",
   str% "        <nationalNumberPattern>\n",
   str% "          2(?:\n",
   str% "            2[1-7]|\n",
   str% "            3[0-8]|\n",
   str% "            4[12]|\n",
   str% "            5[1256]|\n",
   str% "            6\\d|\n",
   str% "            7[1-3]|\n",
   str% "            8[1-5]\n",
   str% "          )\\d{4}\n",
   str% "        </nationalNumberPattern>\n",
   str% "      </fixedLine>\n",
   str% "      <!-- It seems, contrary to their numbering plan, the entire 9X range is used for mobile\n",
   str% "           phones. SMS messages has been successfully sent to numbers starting with 95 and 97 for\n",
   str% "           example, and there are plenty of numbers on the internet that start with these\n",
   str% "           prefixes. -->\n",
   str% "      <mobile>\n",
   str% "        <possibleLengths national=\"7\"/>\n",
   str% "        <exampleNumber>9911234</exampleNumber>\n",
   str% "        <nationalNumberPattern>\n",
   str% "          (?:\n",
   str% "            36|\n",
   str% "            5[1-389]|\n",
   str% "            9\\d\n",
   str% "          )\\d{5}\n",
   str% "        </nationalNumberPattern>\n",
   str% "      </mobile>\n",
   str% "      <tollFree>\n",
   str% "        <possibleLengths national=\"7\"/>\n",
   str% "        <exampleNumber>8001234</exampleNumber>\n",
   str% "        <nationalNumberPattern>800\\d{4}</nationalNumberPattern>\n",
   str% "      </tollFree>\n",
   str% "      <voip>\n",
   str% "        <possibleLengths national=\"7\"/>\n",
   str% "        <exampleNumber>3401234</exampleNumber>\n",
   str% "        <nationalNumberPattern>\n",
   str% "          (?:\n",
   str% "            3[3-5]|\n",
   str% "            4[356]\n",
   str% "          )\\d{5}\n",
   str% "        </nationalNumberPattern>\n",
   str% "      </voip>\n",
   str% "    </territory>"]

/-- the text up to the end of territory id=CW countryCode=599 -/
noncomputable def CW : List Str :=
  [str% "\n",
   str% "\n",
   str% "    <!-- Cura\u00E7ao (CW) -->\n",
   str% "    <!-- Main region for 'BQ' -->\n",
   str% "    <!-- http://www.itu.int/oth/T02020000F5/en -->\n",
   str% "    <!-- All the formatting patterns for country-code 599 are here. -->\n",
   str% "    <territory id=\"CW\" mainCountryForCode=\"true\" countryCode=\"599\" leadingDigits=\"[69]\"\n",
   str% "               internationalPrefix=\"00\">\n",
   str% "      <availableFormats>\n",
   str% "        <numberFormat pattern=\"(\\d{3})(\\d{4})\">\n",
   str% "          <leadingDigits>[3467]</leadingDigits>\n",
   str% "          <format>$1 $2</format>\n",
   str% "        </numberFormat>\n",
   str% "        <numberFormat pattern=\"(\\d)(\\d{3})(\\d{4})\">\n",
   str% "          <leadingDigits>9[4-8]</leadingDigits>\n",
   str% "          <format>$1 $2 $3</format>\n",
   str% "        </numberFormat>\n",
   str% "      </availableFormats>\n",
   str% "      <generalDesc>\n",
   str% "        <nationalNumberPattern>\n",
   str% "          (?:\n",
   str% "            [34]1|\n",
   str% "            60|\n",
   str% "            (?:\n",
   str% "              7|\n",
   str% "              9\\d\n",
   str% "            )\\d\n",
   str% "          )\\d{5}\n",
   str% "        </nationalNumberPattern>\n",
   str% "      </generalDesc>\n",
   str% "      <fixedLine>\n",
   str% "        <possibleLengths national=\"7,8\"/>\n",
   str% "        <exampleNumber>94351234</exampleNumber>\n",
   str% "        <nationalNumberPattern>\n",
   str% "          9(?:\n",
   str% "            4(?:\n",
   str% "              3[0-5]|\n",
   str% "              4[14]|\n",
   str% "              6\\d\n",
   str% "            )|\n",
   str% "            50\\d|\n",
   str% "            7(?:\n",
   str% "              2[014]|\n",
   str% "              3[02-9]|\n",
   str% "              4[4-9]|\n",
   str% "              6[357]|\n",
   str% "              77|\n",
   str% "              8[7-9]\n",
   str% "            )|\n",
   str% "            8(?:\n",
   str% "              3[39]|\n",
   str% "              [46]\\d|\n",
   str% "              7[01]|\n",
   str% "              8[57-9]\n",
   str% "            )\n",
   str% "          )\\d{4}\n",
   str% "        </nationalNumberPattern>\n",
   str% "      </fixedLine>\n",
   str% "      <mobile>\n",
   str% "        <possibleLengths national=\"7,8\"/>\n",
   str% "        <exampleNumber>95181234</exampleNumber>\n",
   str% "        <nationalNumberPattern>\n",
   str% "          953[01]\\d{4}|\n",
   str% "          9(?:\n",
   str% "            5[12467]|\n",
   str% "            6[5-9]\n",
   str% "          )\\d{5}\n",
   str% "        </nationalNumberPattern>\n",
   str% "      </mobile>\n",
   str% "      <pager>\n",
   str% "        <possibleLengths national=\"8\"/>\n",
   str% "        <exampleNumber>95581234</exampleNumber>\n",
   str% "        <nationalNumberPattern>955\\d{5}</nationalNumberPattern>\n",
   str% "      </pager>\n",
   str% "      <!-- Value-added services are lumped together under shared cost, since we are not sure\n",
   str% "           exactly what they are. -->\n",
   str% "      <sharedCost>\n",
   str% "        <possibleLengths national=\"7\"/>\n",
   str% "        <exampleNumber>6001234</exampleNumber>\n",
   str% "        <nationalNumberPattern>60[0-2]\\d{4}</nationalNumberPattern>\n",
   str% "      </sharedCost>\n",
   str% "    </territory>"]

/-- the text up to the end of territory id=CX countryCode=61 -/
noncomputable def CX : List Str :=
  [str% "\n",
   str% "\n",
   str% "    <!-- Christmas Island (CX) -->\n",
   str% "    <!-- Calling code and formatting shared with 'AU' -->\n",
   str% "    <!-- References state Christmas Islands have fixed line numbers starting +61 8 9164. -->\n",
   str% "    <!-- http://en.wikipedia.org/wiki/List_of_country_calling_codes -->\n",
   str% "    <!-- http://en.wikipedia.org/wiki/Telephone_numbers_in_Australia -->\n",
   str% "    <!-- https://www.thenumberingsystem.com.au/#/number-register/search -->\n",
   str% "    <territory id=\"CX\" countryCode=\"61\" preferredInternationalPrefix=\"0011\"\n",
   str% "               internationalPrefix=\"001[14-689]|14(?:1[14]|34|4[17]|[56]6|7[47]|88)0011\"\n",
   str% "               nationalPrefix=\"0\" nationalPrefixForParsing=\"([59]\\d{7})$|0\"\n",
   str% "               nationalPrefixTransformRule=\"8$1\">\n",
   str% "      <generalDesc>\n",
   str% "        <nationalNumberPattern>\n",
   str% "          1(?:\n",
   str% "            [0-79]\\d{8}(?:\n",
   str% "              \\d{2}\n",
   str% "            )?|\n",
   str% "            8[0-24-9]\\d{7}\n",
   str% "          )|\n",
   str% "          [148]\\d{8}|\n",
   str% "          1\\d{5,7}\n",
   str% "        </nationalNumberPattern>\n",
   str% "      </generalDesc>\n",
   str% "      <fixedLine>\n",
   str% "        <possibleLengths national=\"9\" localOnly=\"8\"/>\n",
   str% "        <exampleNumber>891641234</exampleNumber>\n",
   str% "        <nationalNumberPattern>\n",
   str% "          8(?:\n",
   str% "            51(?:\n",
   str% "              0(?:\n",
   str% "                01|\n",
   str% "                30|\n",
   str% "                59|\n",
   str% "                88\n",
   str% "              )|\n",
   str% "              1(?:\n",
   str% "                17|\n",
   str% "                46|\n",
   str% "                75\n",
   str% "              )|\n",
   str% "              2(?:\n",
   str% "                22|\n",
   str% "                35\n",
   str% "              )\n",
   str% "            )|\n",
   str% "            91(?:\n",
   str% "              00[6-9]|\n",
   str% "              1(?:\n",
   str% "                [28]1|\n",
   str% "                49|\n",
   str% "                78\n",
   str% "              )|\n",
   str% "              2(?:\n",
   str% "                09|\n",
   str% "                63\n",
   str% "              )|\n",
   str% "              3(?:\n",
   str% "                12|\n",
   str% "                26|\n",
   str% "                75\n",
   str% "              )|\n",
   str% "              4(?:\n",
   str% "                56|\n",
   str% "                97\n",
   str% "              )|\n",
   str% "              64\\d|\n",
   str% "              7(?:\n",
   str% "                0[01]|\n",
   str% "                1[0-2]\n",
   str% "              )|\n",
   str% "              958\n",
   str% "            )\n",
   str% "          )\\d{3}\n",
   str% "        </nationalNumberPattern>\n",
   str% "      </fixedLine>\n",
   str% "      <!-- Mobile, toll free, premium rate and VOIP copied from Australia. -->\n",
   str% "      <mobile>\n",
   str% "        <possibleLengths national=\"9\"/>\n",
   str% "        <exampleNumber>412345678</exampleNumber>\n",
   str% "        <nationalNumberPattern>\n",
   str% "          4(?:\n",
   str% "            79[01]|\n",
   str% "            83[0-36-9]|\n",
   str% "            95[0-3]\n",
   str% "          )\\d{5}|\n",
   str% "          4(?:\n",
   str% "            [0-36]\\d|\n",
   str% "            4[047-9]|\n",
   str% "            [58][0-24-9]|\n",
   str% "            7[02-8]|\n",
   str% "            9[0-47-9]\n",
   str% "          )\\d{6}\n",
   str% "        </nationalNumberPattern>\n",
   str% "      </mobile>\n",
   str% "      <tollFree>\n",
   str% "        <possibleLengths national=\"7,10\"/>\n",
   str% "        <exampleNumber>1800123456</exampleNumber>\n",
   str% "        <nationalNumberPattern>\n",
   str% "          180(?:\n",
   str% "            0\\d{3}|\n",
   str% "            2\n",
   str% "          )\\d{3}\n",
   str% "        </nationalNumberPattern>\n",
   str% "      </tollFree>\n",
   str% "      <premiumRate>\n",
   str% "        <possibleLengths national=\"10\"/>\n",
   str% "        <exampleNumber>1900123456</exampleNumber>\n",
   str% "        <nationalNumberPattern>190[0-26]\\d{6}</nationalNumberPattern>\n",
   str% "      </premiumRate>\n",
   str% "      <!-- Local-rate (SmartNumbers) are put here because they are a reverse-charge network,\n",
   str% "           although they charge a small local call connect fee (around 25c). These start with 13\n",
   str% "           or 1300. -->\n",
   str% "      <sharedCost>\n",
   str% "        <possibleLengths national=\"6,8,10,12\"/>\n",
   str% "        <exampleNumber>1300123456</exampleNumber>\n",
   str% "        <nationalNumberPattern>\n",
   str% "          13(?:\n",
   str% "            00\\d{6}(?:\n",
   str% "              \\d{2}\n",
   str% "            )?|\n",
   str% "            45[0-4]\\d{3}\n",
   str% "          )|\n",
   str% "          13\\d{4}\n",
   str% "        </nationalNumberPattern>\n",
   str% "      </sharedCost>\n",
   str% "      <voip>\n",
   str% "        <possibleLengths national=\"9\"/>\n",
   str% "        <exampleNumber>147101234</exampleNumber>\n",
   str% "        <nationalNumberPattern>\n",
   str% "          14(?:\n",
   str% "            5(?:\n",
   str% "              1[0458]|\n",
   str% "              [23][458]\n",
   str% "            )|\n",
   str% "            71\\d\n",
   str% "          )\\d{4}\n",
   str% "        </nationalNumberPattern>\n",
   str% "      </voip>\n",
   str% "    </territory>"]

/-- the text up to the end of territory id=CY countryCode=357 -/
noncomputable def CY : List Str :=
  [str% "\n",
   str% "\n",
   str% "    <!-- Cyprus (CY) -->\n",
   str% "    <!-- http://www.itu.int/oth/T0202000034/en -->\n",
   str% "    <territory id=\"CY\" countryCode=\"357\" internationalPrefix=\"00\" mobileNumberPortableRegion=\"true\">\n",
   str% "      <availableFormats>\n",
   str% "        <!-- Format from http://www.cyprusyellowpages.com -->\n",
   str% "        <numberFormat pattern=\"(\\d{2})(\\d{6})\">\n",
   str% "          <leadingDigits>[257-9]</leadingDigits>\n",
   str% "          <format>$1 $2</format>\n",
   str% "        </numberFormat>\n",
   str% "      </availableFormats>\n",
   str% "      <generalDesc>\n",
   str% "        <nationalNumberPattern>\n",
   str% "          (?:\n",
   str% "            [279]\\d|\n",
   str% "            [58]0\n",
   str% "          )\\d{6}\n",
   str% "        </nationalNumberPattern>\n",
   str% "      </generalDesc>\n",
   str% "      <fixedLine>\n",
   str% "        <possibleLengths national=\"8\"/>\n",
   str% "        <exampleNumber>22345678</exampleNumber>\n",
   str% "        <nationalNumberPattern>2[2-6]\\d{6}</nationalNumberPattern>\n",
   str% "      </fixedLine>\n",
   str% "      <!-- Includes paging numbers (they are mixed into the same block). -->\n",
   str% "      <mobile>\n",
   str% "        <possibleLengths national=\"8\"/>\n",
   str% "        <exampleNumber>96123456</exampleNumber>\n",
   str% "        <nationalNumberPattern>\n",
   str% "          9(?:\n",
   str% "            10|\n",
   str% "            [4-79]\\d\n",
   str% "          )\\d{5}\n",
   str% "        </nationalNumberPattern>\n",
   str% "      </mobile>\n",
   str% "      <tollFree>\n",
   str% "        <possibleLengths national=\"8\"/>\n",
   str% "        <exampleNumber>80001234</exampleNumber>\n",
   str% "        <nationalNumberPattern>800\\d{5}</nationalNumberPattern>\n",
   str% "      </tollFree>\n",
   str% "      <premiumRate>\n",
   str% "        <possibleLengths national=\"8\"/>\n",
   str% "        <exampleNumber>90012345</exampleNumber>\n",
   str% "        <nationalNumberPattern>90[09]\\d{5}</nationalNumberPattern>\n",
   str% "      </premiumRate>\n",
   str% "      <sharedCost>\n",
   str% "        <possibleLengths national=\"8\"/>\n",
   str% "        <exampleNumber>80112345</exampleNumber>\n",
   str% "        <nationalNumberPattern>80[1-9]\\d{5}</nationalNumberPattern>\n",
   str% "      </sharedCost>\n",
   str% "      <personalNumber>\n",
   str% "        <possibleLengths national=\"8\"/>\n",
   str% "        <exampleNumber>70012345</exampleNumber>\n",
   str% "        <nationalNumberPattern>700\\d{5}</nationalNumberPattern>\n",
   str% "      </personalNumber>\n",
   str% "      <!-- Using for Corporate Network numbers and Universal Service numbers. -->\n",
   str% "      <uan>\n",
   str% "        <possibleLengths national=\"8\"/>\n",
   str% "        <exampleNumber>77123456</exampleNumber>\n",
   str% "        <nationalNumberPattern>\n",
   str% "          (?:\n",
   str% "            50|\n",
   str% "            77\n",
   str% "          )\\d{6}\n",
   str% "        </nationalNumberPattern>\n",
   str% "      </uan>\n",
   str% "    </territory>"]

/-- the text up to the end of territory id=CZ countryCode=420 -/
noncomputable def CZ : List Str :=
  [str% "\n",
   str% "\n",
   str% "    <!-- Czechia (CZ) -->\n",
   str% "    <!-- http://www.itu.int/oth/T0202000035/en -->\n",
   str% "    <!-- http://en.wikipedia.org/wiki/%2B420 -->\n",
   str% "    <territory id=\"CZ\" countryCode=\"420\" internationalPrefix=\"00\" mobileNumberPortableRegion=\"true\">\n",
   str% "      <availableFormats>\n",
   str% "        <numberFormat pattern=\"(\\d{3})(\\d{3})(\\d{3})\">\n",
   str% "          <leadingDigits>\n",
   str% "            [2-8]|\n",
   str% "            9[015-7]\n",
   str% "          </leadingDigits>\n",
   str% "          <format>$1 $2 $3</format>\n",
   str% "        </numberFormat>\n",
   str% "        <numberFormat pattern=\"(\\d{2})(\\d{3})(\\d{3})(\\d{2})\">\n",
   str% "          <leadingDigits>96</leadingDigits>\n",
   str% "          <format>$1 $2 $3 $4</format>\n",
   str% "        </numberFormat>\n",
   str% "        <numberFormat pattern=\"(\\d{2})(\\d{3})(\\d{3})(\\d{3})\">\n",
   str% "          <leadingDigits>9</leadingDigits>\n",
   str% "          <format>$1 $2 $3 $4</format>\n",
   str% "        </numberFormat>\n",
   str% "        <numberFormat pattern=\"(\\d{3})(\\d{3})(\\d{3})(\\d{3})\">\n",
   str% "          <leadingDigits>9</leadingDigits>\n",
   str% "          <format>$1 $2 $3 $4</format>\n",
   str% "        </numberFormat>\n",
   str% "      </availableFormats>\n",
   str% "      <generalDesc>\n",
   str% "        <nationalNumberPattern>\n",
   str% "          (?:\n",
   str% "            [2-578]\\d|\n",
   str% "            60\n",
   str% "          )\\d{7}|\n",
   str% "          9\\d{8,11}\n",
   str% "        </nationalNumberPattern>\n",
   str% "      </generalDesc>\n",
   str% "      <fixedLine>\n",
   str% "        <possibleLengths national=\"9\"/>\n",
   str% "        <exampleNumber>212345678</exampleNumber>\n",
   str% "        <nationalNumberPattern>\n",
   str% "          (?:\n",
   str% "            2\\d|\n",
   str% "            3[1257-9]|\n",
   str% "            4[16-9]|\n",
   str% "            5[13-9]\n",
   str% "          )\\d{7}\n",
   str% "        </nationalNumberPattern>\n",
   str% "      </fixedLine>\n",
   str% "      <mobile>\n",
   str% "        <possibleLengths national=\"9\"/>\n",
   str% "        <exampleNumber>601123456</exampleNumber>\n",
   str% "        <nationalNumberPattern>\n",
   str% "          7060\\d{5}|\n",
   str% "          (?:\n",
   str% "            60[1-8]|\n",
   str% "            7(?:\n",
   str% "              0[2-5]|\n",
   str% "              19|\n",
   str% "              [2379]\\d\n",
   str% "            )\n",
   str% "          )\\d{6}\n",
   str% "        </nationalNumberPattern>\n",
   str% "      </mobile>\n",
   str% "      <tollFree>\n",
   str% "        <possibleLengths national=\"9\"/>\n",
   str% "        <exampleNumber>800123456</exampleNumber>\n",
   str% "        <nationalNumberPattern>800\\d{6}</nationalNumberPattern>\n",
   str% "      </tollFree>\n",
   str% "      <!-- Includes premium rate dial-up. -->\n",
   str% "      <premiumRate>\n",
   str% "        <possibleLengths national=\"9\"/>\n",
   str% "        <exampleNumber>900123456</exampleNumber>\n",
   str% "        <nationalNumberPattern>\n",
   str% "          9(?:\n",
   str% "            0[05689]|\n",
   str% "            76\n",
   str% "          )\\d{6}\n",
   str% "        </nationalNumberPattern>\n",
   str% "      </premiumRate>\n",
   str% "      <sharedCost>\n",
   str% "        <possibleLengths national=\"9\"/>\n",
   str% "        <exampleNumber>811234567</exampleNumber>\n",
   str% "        <nationalNumberPattern>8[134]\\d{7}</nationalNumberPattern>\n",
   str% "      </sharedCost>\n",
   str% "      <personalNumber>\n",
   str% "        <possibleLengths national=\"9\"/>\n",
   str% "        <exampleNumber>700123456</exampleNumber>\n",
   str% "        <nationalNumberPattern>70[01]\\d{6}</nationalNumberPattern>\n",
   str% "      </personalNumber>\n",
   str% "      <voip>\n",
   str% "        <possibleLengths national=\"9\"/>\n",
   str% "        <exampleNumber>910123456</exampleNumber>\n",
   str% "        <nationalNumberPattern>9[17]0\\d{6}</nationalNumberPattern>\n",
   str% "      </voip>\n",
   str% "      <!-- Numbers belonging to private communication networks are included here. These are\n",
   str% "           classified as Institutional networks, belonging to institutions like the police, armed\n",
   str% "           forces and railways, along with a couple of formerly government-owned banks. These\n",
   str% "           numbers are reachable by the public. -->\n",
   str% "      <uan>\n",
   str% "        <possibleLengths national=\"9\"/>\n",
   str% "        <exampleNumber>972123456</exampleNumber>\n",
   str% "        <nationalNumberPattern>\n",
   str% "          9(?:\n",
   str% "            5\\d|\n",
   str% "            7[2-4]\n",
   str% "          )\\d{6}\n",
   str% "        </nationalNumberPattern>\n",
   str% "      </uan>\n",
   str% "      <voicemail>\n",
   str% "        <possibleLengths national=\"[9-12]\"/>\n",
   str% "        <exampleNumber>93123456789</exampleNumber>\n",
   str% "        <nationalNumberPattern>\n",
   str% "          9(?:\n",
   str% "            3\\d{9}|\n",
   str% "            6\\d{7,10}\n",
   str% "          )\n",
   str% "        </nationalNumberPattern>\n",
   str% "      </voicemail>\n",
   str% "    </territory>"]

/-- the text up to the end of territory id=DE countryCode=49 -/
noncomputable def DE : List Str :=
  [str% "\n",
   str% "\n",
   str% "    <!-- Germany (DE) -->\n",
   str% "    <!-- http://www.itu.int/oth/T0202000051/en -->\n",
   str% "    <!-- http://en.wikipedia.org/wiki/Telephone_numbers_in_germany -->\n",
   str% "    <!-- Due to the high complexity of ranges in the German numbering scheme, the regular\n",
   str% "         expressions here have been automatically simplified to reduce size. This means that\n",
   str% "         in some cases there may be false positives (especially in fixed line ranges), but since\n",
   str% "         German ranges differ so much by length anyway, false positives are already common. -->\n",
   str% "    <territory id=\"DE\" countryCode=\"49\" internationalPrefix=\"00\" nationalPrefix=\"0\"\n",
   str% "               mobileNumberPortableRegion=\"true\">\n",
   str% "      <availableFormats>\n",
   str% "        <!-- Fixed line, 2 digit area codes. -->\n",
   str% "        <numberFormat pattern=\"(\\d{2})(\\d{3,13})\" nationalPrefixFormattingRule=\"$NP$FG\">\n",
   str% "          <leadingDigits>\n",
   str% "            3[02]|\n",
   str% "            40|\n",
   str% "            [68]9\n",
   str% "          </leadingDigits>\n",
   str% "          <format>$1 $2</format>\n",
   str% "        </numberFormat>\n",
   str% "        <!-- Short code with 6 digit length -->\n",
   str% "        <numberFormat pattern=\"(\\d{6})\">\n",
   str% "          <leadingDigits>227</leadingDigits>\n",
   str% "          <leadingDigits>2277</leadingDigits>\n",
   str% "          <format>$1</format>\n",
   str% "          <intlFormat>NA</intlFormat>\n",
   str% "        </numberFormat>\n",
   str% "        <!-- Fixed line, 3 digit area codes. -->\n",
   str% "        <numberFormat pattern=\"(\\d{3})(\\d{3,12})\" nationalPrefixFormattingRule=\"$NP$FG\">\n",
   str% "          <leadingDigits>\n",
   str% "            2(?:\n",
   str% "              0[1-389]|\n",
   str% "              1[124]|\n",
   str% "              2[18]|\n",
   str% "              3[14]\n",
   str% "            )|\n",
   str% "            3(?:\n",
   str% "              [35-9][15]|\n",
   str% "              4[015]\n",
   str% "            )|\n",
   str% "            906|\n",
   str% "            (?:\n",
   str% "              2[4-9]|\n",
   str% "              4[2-9]|\n",
   str% "              [579][1-9]|\n",
   str% "              [68][1-8]\n",
   str% "            )1\n",
   str% "          </leadingDigits>\n",
   str% "          <leadingDigits>\n",
   str% "            2(?:\n",
   str% "              0[1-389]|\n",
   str% "              12[0-8]\n",
   str% "            )|\n",
   str% "            3(?:\n",
   str% "              [35-9][15]|\n",
   str% "              4[015]\n",
   str% "            )|\n",
   str% "            906|\n",
   str% "            2(?:\n",
   str% "              [13][14]|\n",
   str% "              2[18]\n",
   str% "            )|\n",
   str% "            (?:\n",
   str% "              2[4-9]|\n",
   str% "              4[2-9]|\n",
   str% "              [579][1-9]|\n",
   str% "              [68][1-8]\n",
   str% "            )1\n",
   str% "          </leadingDigits>\n",
   str% "          <format>$1 $2</format>\n",
   str% "        </numberFormat>\n",
   str% "        <!-- Fixed line, 4 digit area codes. Only area code 5361 has two digit subscriber numbers. -->\n",
   str% "        <numberFormat pattern=\"(\\d{4})(\\d{2,11})\" nationalPrefixFormattingRule=\"$NP$FG\">\n",
   str% "          <leadingDigits>\n",
   str% "            [24-6]|\n",
   str% "            3(?:\n",
   str% "              [3569][02-46-9]|\n",
   str% "              4[2-4679]|\n",
   str% "              7[2-467]|\n",
   str% "              8[2-46-8]\n",
   str% "            )|\n",
   str% "            70[2-8]|\n",
   str% "            8(?:\n",
   str% "              0[2-9]|\n",
   str% "              [1-8]\n",
   str% "            )|\n",
   str% "            90[7-9]|\n",
   str% "            [79][1-9]\n",
   str% "          </leadingDigits>\n",
   str% "          <leadingDigits>\n",
   str% "            [24-6]|\n",
   str% "            3(?:\n",
   str% "              3(?:\n",
   str% "                0[1-467]|\n",
   str% "                2[127-9]|\n",
   str% "                3[124578]|\n",
   str% "                7[1257-9]|\n",
   str% "                8[1256]|\n",
   str% "                9[145]\n",
   str% "              )|\n",
   str% "              4(?:\n",
   str% "                2[135]|\n",
   str% "                4[13578]|\n",
   str% "                9[1346]\n",
   str% "              )|\n",
   str% "              5(?:\n",
   str% "                0[14]|\n",
   str% "                2[1-3589]|\n",
   str% "                6[1-4]|\n",
   str% "                7[13468]|\n",
   str% "                8[13568]\n",
   str% "              )|\n",
   str% "              6(?:\n",
   str% "                2[1-489]|\n",
   str% "                3[124-6]|\n",
   str% "                6[13]|\n",
   str% "                7[12579]|\n",
   str% "                8[1-356]|\n",
   str% "                9[135]\n",
   str% "              )|\n",
   str% "              7(?:\n",
   str% "                2[1-7]|\n",
   str% "                4[145]|\n",
   str% "                6[1-5]|\n",
   str% "                7[1-4]\n",
   str% "              )|\n",
   str% "              8(?:\n",
   str% "                21|\n",
   str% "                3[1468]|\n",
   str% "                6|\n",
   str% "                7[1467]|\n",
   str% "                8[136]\n",
   str% "              )|\n",
   str% "              9(?:\n",
   str% "                0[12479]|\n",
   str% "                2[1358]|\n",
   str% "                4[134679]|\n",
   str% "                6[1-9]|\n",
   str% "                7[136]|\n",
   str% "                8[147]|\n",
   str% "                9[1468]\n",
   str% "              )\n",
   str% "            )|\n",
   str% "            70[2-8]|\n",
   str% "            8(?:\n",
   str% "              0[2-9]|\n",
   str% "              [1-8]\n",
   str% "            )|\n",
   str% "            90[7-9]|\n",
   str% "            [79][1-9]|\n",
   str% "            3[68]4[1347]|\n",
   str% "            3(?:\n",
   str% "              47|\n",
   str% "              60\n",
   str% "            )[1356]|\n",
   str% "            3(?:\n",
   str% "              3[46]|\n",
   str% "              46|\n",
   str% "              5[49]\n",
   str% "            )[1246]|\n",
   str% "            3[4579]3[1357]\n",
   str% "          </leadingDigits>\n",
   str% "          <format>$1 $2</format>\n",
   str% "        </numberFormat>\n",
   str% "        <!-- Short shared cost numbers. -->\n",
   str% "        <numberFormat pattern=\"(\\d{3})(\\d{4})\" nationalPrefixFormattingRule=\"$NP$FG\">\n",
   str% "          <leadingDigits>138</leadingDigits>\n",
   str% "          <format>$1 $2</format>\n",
   str% "        </numberFormat>\n",
   str% "        <!-- Fixed line, 5 digit area codes. -->\n",
   str% "        <numberFormat pattern=\"(\\d{5})(\\d{2,10})\" nationalPrefixFormattingRule=\"$NP$FG\">\n",
   str% "          <leadingDigits>3</leadingDigits>\n",
   str% "          <format>$1 $2</format>\n",
   str% "        </numberFormat>\n",
   str% "        <!-- UAN (181) numbers. -->\n",
   str% "        <numberFormat pattern=\"(\\d{3})(\\d{5,11})\" nationalPrefixFormattingRule=\"$NP$FG\">\n",
   str% "          <leadingDigits>181</leadingDigits>\n",
   str% "          <format>$1 $2</format>\n",
   str% "        </numberFormat>\n",
   str% "        <!-- Premium rate and shared cost numbers. -->\n",
   str% "        <numberFormat pattern=\"(\\d{3})(\\d)(\\d{4,10})\" nationalPrefixFormattingRule=\"$NP$FG\">\n",
   str% "          <leadingDigits>\n",
   str% "            1(?:\n",
   str% "              3|\n",
   str% "              80\n",
   str% "            )|\n",
   str% "            9\n",
   str% "          </leadingDigits>\n",
   str% "          <format>$1 $2 $3</format>\n",
   str% "        </numberFormat>\n",
   str% "        <!-- Mobile/pager format (from ITU document). Actual usage varies. -->\n",
   str% "        <numberFormat pattern=\"(\\d{3})(\\d{7,8})\" nationalPrefixFormattingRule=\"$NP$FG\">\n",
   str% "          <leadingDigits>1[67]</leadingDigits>\n",
   str% "          <format>$1 $2</format>\n",
   str% "        </numberFormat>\n",
   str% "        <!-- Toll free (800) numbers. -->\n",
   str% "        <numberFormat pattern=\"(\\d{3})(\\d{7,12})\" nationalPrefixFormattingRule=\"$NP$FG\">\n",
   str% "          <leadingDigits>8</leadingDigits>\n",
   str% "          <format>$1 $2</format>\n",
   str% "        </numberFormat>\n",
   str% "        <!-- Where we have seen prefixes in use for the IVPN/User Group numbers, we format it the\n",
   str% "             way it is generally written. For other prefixes, we fall back to using a three-digit\n",
   str% "             prefix since we have currently no more information to allow us to format these more\n",
   str% "             precisely. -->\n",
   str% "        <numberFormat pattern=\"(\\d{5})(\\d{6})\" nationalPrefixFormattingRule=\"$NP$FG\">\n",
   str% "          <leadingDigits>185</leadingDigits>\n",
   str% "          <leadingDigits>1850</leadingDigits>\n",
   str% "          <leadingDigits>18500</leadingDigits>\n",
   str% "          <format>$1 $2</format>\n",
   str% "        </numberFormat>\n",
   str% "        <!-- Personal numbers. -->\n",
   str% "        <numberFormat pattern=\"(\\d{3})(\\d{4})(\\d{4})\" nationalPrefixFormattingRule=\"$NP$FG\">\n",
   str% "          <leadingDigits>7</leadingDigits>\n",
   str% "          <format>$1 $2 $3</format>\n",
   str% "        </numberFormat>\n",
   str% "        <!-- Various UAN numbers. -->\n",
   str% "        <numberFormat pattern=\"(\\d{4})(\\d{7})\" nationalPrefixFormattingRule=\"$NP$FG\">\n",
   str% "          <leadingDigits>18[68]</leadingDigits>\n",
   str% "          <format>$1 $2</format>\n",
   str% "        </numberFormat>\n",
   str% "        <!-- Mobile format for 15x mobile numbers. -->\n",
   str% "        <numberFormat pattern=\"(\\d{4})(\\d{7})\" nationalPrefixFormattingRule=\"$NP$FG\">\n",
   str% "          <leadingDigits>15[1279]</leadingDigits>\n",
   str% "          <format>$1 $2</format>\n",
   str% "        </numberFormat>\n",
   str% "        <!-- Some mobile numbers (carrier services etc..) have a 6 digit NSN and need to be formatted\n",
   str% "             with 5 leading digits (as opposed to the 4.7 format).\n",
   str% "             These are all in the ranges 150, 155, 156 and 158. -->\n",
   str% "        <numberFormat pattern=\"(\\d{5})(\\d{6})\" nationalPrefixFormattingRule=\"$NP$FG\">\n",
   str% "          <leadingDigits>15[03568]</leadingDigits>\n",
   str% "          <leadingDigits>\n",
   str% "            15(?:\n",
   str% "              [0568]|\n",
   str% "              3[13]\n",
   str% "            )\n",
   str% "          </leadingDigits>\n",
   str% "          <format>$1 $2</format>\n",
   str% "        </numberFormat>\n",
   str% "        <!-- Various UAN numbers. -->\n",
   str% "        <numberFormat pattern=\"(\\d{3})(\\d{8})\" nationalPrefixFormattingRule=\"$NP$FG\">\n",
   str% "          <leadingDigits>18</leadingDigits>\n",
   str% "          <format>$1 $2</format>\n",
   str% "        </numberFormat>\n",
   str% "        <!-- Voicemail. -->\n",
   str% "        <numberFormat pattern=\"(\\d{3})(\\d{2})(\\d{7,8})\" nationalPrefixFormattingRule=\"$NP$FG\">\n",
   str% "          <leadingDigits>\n",
   str% "            1(?:\n",
   str% "              6[023]|\n",
   str% "              7\n",
   str% "            )\n",
   str% "          </leadingDigits>\n",
   str% "          <format>$1 $2 $3</format>\n",
   str% "        </numberFormat>\n",
   str% "        <!-- Voicemail. -->\n",
   str% "        <numberFormat pattern=\"(\\d{4})(\\d{2})(\\d{7})\" nationalPrefixFormattingRule=\"$NP$FG\">\n",
   str% "          <leadingDigits>15[279]</leadingDigits>\n",
   str% "          <format>$1 $2 $3</format>\n",
   str% "        </numberFormat>\n",
   str% "        <!-- Voicemail. -->\n",
   str% "        <numberFormat pattern=\"(\\d{3})(\\d{2})(\\d{8})\" nationalPrefixFormattingRule=\"$NP$FG\">\n",
   str% "          <leadingDigits>15</leadingDigits>\n",
   str% "          <format>$1 $2 $3</format>\n",
   str% "        </numberFormat>\n",
   str% "      </availableFormats>\n",
   str% "      <generalDesc>\n",
   str% "        <nationalNumberPattern>\n",
   str% "          [2579]\\d{5,14}|\n",
   str% "          49(?:\n",
   str% "            [34]0|\n",
   str% "            69|\n",
   str% "            8\\d\n",
   str% "          )\\d\\d?|\n",
   str% "          49(?:\n",
   str% "            37|\n",
   str% "            49|\n",
   str% "            60|\n",
   str% "            7[089]|\n",
   str% "            9\\d\n",
   str% "          )\\d{1,3}|\n",
   str% "          49(?:\n",
   str% "            2[024-9]|\n",
   str% "            3[2-689]|\n",
   str% "            7[1-7]\n",
   str% "          )\\d{1,8}|\n",
   str% "          (?:\n",
   str% "            1|\n",
   str% "            [368]\\d|\n",
   str% "            4[0-8]\n",
   str% "          )\\d{3,13}|\n",
   str% "          49(?:\n",
   str% "            [015]\\d|\n",
   str% "            2[13]|\n",
   str% "            31|\n",
   str% "            [46][1-8]\n",
   str% "          )\\d{1,9}\n",
   str% "        </nationalNumberPattern>\n",
   str% "      </generalDesc>\n",
   str% "      <!-- The German ITU numbering plan gives overly simplistic minimum/maximum\n",
   str% "           lengths for number ranges. This would (if taken literally) result in 1 or 2 length\n",
   str% "           subscriber numbers. However, a contact of the German numbering authority\n",
   str% "           confirmed that subscriber numbers can never be shorter than 2-digit and total\n",
   str% "           length can not be less than 6 digits. Prefix 4921 of length 13-digit is added\n",
   str% "           based on user report. Prefix 322 of length 9-digits is added based on user report. -->\n",
   str% "      <!-- Maximum lengths of German numbers are generally undefined, since any subscriber\n",
   str% "           number can connect to a private exchange (PABX), which can consume additionally\n",
   str% "           dialled digits (e.g. for calling individual rooms in a hotel directly). This means that in\n",
   str% "           almost all cases the maximum length of a fixed line range is 15 (the maximum defined\n",
   str% "           by E.164). However there is one very special exception to this; the \"49\" area code.\n",
   str% "           This needs to be shorter to avoid range lengths overlapping which would otherwise\n",
   str% "           cause issues in parsing (since 49 is both an area code and the country calling code). -->\n",
   str% "      <fixedLine>\n",
   str% "        <possibleLengths national=\"[5-15]\" localOnly=\"[2-4]\"/>\n",
   str% "        <exampleNumber>30123456</exampleNumber>\n",
   str% "        <nationalNumberPattern>\n",
   str% "          32\\d{9,11}|\n",
   str% "          49[1-6]\\d{10}|\n",
   str% "          322\\d{6}|\n",
   str% "          49[0-7]\\d{3,9}|\n",
   str% "          (?:\n",
   str% "            [34]0|\n",
   str% "            [68]9\n",
   str% "          )\\d{3,13}|\n",
   str% "          (?:\n",
   str% "            2(?:\n",
   str% "              0[1-689]|\n",
   str% "              [1-3569]\\d|\n",
   str% "              4[0-8]|\n",
   str% "              7[1-7]|\n",
   str% "              8[0-7]\n",
   str% "            )|\n",
   str% "            3(?:\n",
   str% "              [3569]\\d|\n",
   str% "              4[0-79]|\n",
   str% "              7[1-7]|\n",
   str% "              8[1-8]\n",
   str% "            )|\n",
   str% "            4(?:\n",
   str% "              1[02-9]|\n",
   str% "              [2-48]\\d|\n",
   str% "              5[0-6]|\n",
   str% "              6[0-8]|\n",
   str% "              7[0-79]\n",
   str% "            )|\n",
   str% "            5(?:\n",
   str% "              0[2-8]|\n",
   str% "              [124-6]\\d|\n",
   str% "              [38][0-8]|\n",
   str% "              [79][0-7]\n",
   str% "            )|\n",
   str% "            6(?:\n",
   str% "              0[02-9]|\n",
   str% "              [1-358]\\d|\n",
   str% "              [47][0-8]|\n",
   str% "              6[1-9]\n",
   str% "            )|\n",
   str% "            7(?:\n",
   str% "              0[2-8]|\n",
   str% "              1[1-9]|\n",
   str% "              [27][0-7]|\n",
   str% "              3\\d|\n",
   str% "              [4-6][0-8]|\n",
   str% "              8[0-5]|\n",
   str% "              9[013-7]\n",
   str% "            )|\n",
   str% "            8(?:\n",
   str% "              0[2-9]|\n",
   str% "              1[0-79]|\n",
   str% "              2\\d|\n",
   str% "              3[0-46-9]|\n",
   str% "              4[0-6]|\n",
   str% "              5[013-9]|\n",
   str% "              6[1-8]|\n",
   str% "              7[0-8]|\n",
   str% "              8[0-24-6]\n",
   str% "            )|\n",
   str% "            9(?:\n",
   str% "              0[6-9]|\n",
   str% "              [1-4]\\d|\n",
   str% "              [589][0-7]|\n",
   str% "              6[0-8]|\n",
   str% "              7[0-467]\n",
   str% "            )\n",
   str% "          )\\d{3,12}\n",
   str% "        </nationalNumberPattern>\n",
   str% "      </fixedLine>\n",
   str% "      <!-- According to\n",
   str% "           http://www.bundesnetzagentur.de/SharedDocs/Downloads/DE/BNetzA/Sachgebiete/Telekommunikation/Regulierung/Nummernverwaltung/Mobilfunkdienste/NummernplanMobileDienstepdf.pdf?__blob=publicationFile\n",
   str% "           numbers beginning with 162, 163 and 17 can all be 10 or 11 digits long.\n",
   str% "           The ranges 15[056] have been removed from the ITU doc, but information found online\n",
   str% "           indicates that they may still be working.\n",
   str% "           Note corresponding voicemail prefixes should be updated as well if new prefixes are\n",
   str% "           added to this section. -->\n",
   str% "      <mobile>\n",
   str% "        <possibleLengths national=\"10,11\"/>\n",
   str% "        <exampleNumber>15123456789</exampleNumber>\n",
   str% "        <nationalNumberPattern>\n",
   str% "          1(?:\n",
   str% "            6[023]|\n",
   str% "            7\\d\n",
   str% "          )\\d{7,8}|\n",
   str% "          15(?:\n",
   str% "            [0-25-9]\\d\\d|\n",
   str% "            3(?:\n",
   str% "              10|\n",
   str% "              33\n",
   str% "            )\n",
   str% "          )\\d{6}\n",
   str% "        </nationalNumberPattern>\n",
   str% "      </mobile>\n",
   str% "      <pager>\n",
   str% "        <possibleLengths national=\"[4-14]\"/>\n",
   str% "        <exampleNumber>16412345</exampleNumber>\n",
   str% "        <nationalNumberPattern>\n",
   str% "          16(?:\n",
   str% "            4\\d{1,10}|\n",
   str% "            [89]\\d{1,11}\n",
   str% "          )\n",
   str% "        </nationalNumberPattern>\n",
   str% "      </pager>\n",
   str% "      <tollFree>\n",
   str% "        <possibleLengths national=\"[10-15]\"/>\n",
   str% "        <exampleNumber>8001234567890</exampleNumber>\n",
   str% "        <nationalNumberPattern>800\\d{7,12}</nationalNumberPattern>\n",
   str% "      </tollFree>\n",
   str% "      <!-- Includes the more expensive of the \"televoting\" line numbers. See the shared cost\n",
   str% "           section for more information. -->\n",
   str% "      <premiumRate>\n",
   str% "        <possibleLengths national=\"10,11\"/>\n",
   str% "        <exampleNumber>9001234567</exampleNumber>\n",
   str% "        <nationalNumberPattern>\n",
   str% "          (?:\n",
   str% "            137[7-9]|\n",
   str% "            900(?:\n",
   str% "              [135]|\n",
   str% "              9\\d\n",
   str% "            )\n",
   str% "          )\\d{6}\n",
   str% "        </nationalNumberPattern>\n",
   str% "      </premiumRate>\n",
   str% "      <!-- Includes some mass-traffic numbers, used for e.g. phone voting, raffles, since their\n",
   str% "           costs when dialling from a fixed-line phone is similar.\n",
   str% "           Prices:\n",
   str% "           http://www.billiger-telefonieren.de/0180-0137-0900-sonderrufnummern/\n",
   str% "           Documentation:\n",
   str% "           http://www.bundesnetzagentur.de/SharedDocs/Downloads/DE/Sachgebiete/Telekommunikation/Unternehmen_Institutionen/Nummerierung/Rufnummern/0137/0137_Nummernplan.pdf?__blob=publicationFile&v=2 -->\n",
   str% "      <sharedCost>\n",
   str% "        <possibleLengths national=\"[7-14]\"/>\n",
   str% "        <exampleNumber>18012345</exampleNumber>\n",
   str% "        <nationalNumberPattern>\n",
   str% "          180\\d{5,11}|\n",
   str% "          13(?:\n",
   str% "            7[1-6]\\d\\d|\n",
   str% "            8\n",
   str% "          )\\d{4}\n",
   str% "        </nationalNumberPattern>\n",
   str% "      </sharedCost>\n",
   str% "      <personalNumber>\n",
   str% "        <possibleLengths national=\"11\"/>\n",
   str% "        <exampleNumber>70012345678</exampleNumber>\n",
   str% "        <nationalNumberPattern>700\\d{8}</nationalNumberPattern>\n",
   str% "      </personalNumber>\n",
   str% "      <!-- Using UAN for numbers marked in the plan as being assigned to International Virtual\n",
   str% "           Private Networks (0181) and User Groups (018[2-9]). These seem in practice to be assigned\n",
   str% "           to companies. More information here: http://de.wikipedia.org/wiki/Vorwahl_01 -->\n",
   str% "      <uan>\n",
   str% "        <possibleLengths national=\"[8-14]\"/>\n",
   str% "        <exampleNumber>18500123456</exampleNumber>\n",
   str% "        <nationalNumberPattern>\n",
   str% "          18(?:\n",
   str% "            1\\d{5,11}|\n",
   str% "            [2-9]\\d{8}\n",
   str% "          )\n",
   str% "        </nationalNumberPattern>\n",
   str% "      </uan>\n",
   str% "      <!-- Note corresponding mobile prefixes should be updated as well if new prefixes are added\n",
   str% "           to this section. -->\n",
   str% "      <voicemail>\n",
   str% "        <possibleLengths national=\"12,13\"/>\n",
   str% "        <exampleNumber>177991234567</exampleNumber>\n",
   str% "        <nationalNumberPattern>\n",
   str% "          1(?:\n",
   str% "            6(?:\n",
   str% "              013|\n",
   str% "              255|\n",
   str% "              399\n",
   str% "            )|\n",
   str% "            7(?:\n",
   str% "              (?:\n",
   str% "                [015]1|\n",
   str% "                [69]3\n",
   str% "              )3|\n",
   str% "              [2-4]55|\n",
   str% "              [78]99\n",
   str% "            )\n",
   str% "          )\\d{7,8}|\n",
   str% "          15(?:\n",
   str% "            (?:\n",
   str% "              [03-68]00|\n",
   str% "              113\n",
   str% "            )\\d|\n",
   str% "            2\\d55|\n",
   str% "            7\\d99|\n",
   str% "            9\\d33\n",
   str% "          )\\d{7}\n",
   str% "        </nationalNumberPattern>\n",
   str% "      </voicemail>\n",
   str% "    </territory>"]

/-- the text up to the end of territory id=DJ countryCode=253 -/
noncomputable def DJ : List Str :=
  [str% "\n",
   str% "\n",
   str% "    <!-- Djibouti (DJ) -->\n",
   str% "    <!-- http://www.itu.int/oth/T020200003A/en -->\n",
   str% "    <territory id=\"DJ\" countryCode=\"253\" internationalPrefix=\"00\">\n",
   str% "      <availableFormats>\n",
   str% "        <numberFormat pattern=\"(\\d{2})(\\d{2})(\\d{2})(\\d{2})\">\n",
   str% "          <leadingDigits>[27]</leadingDigits>\n",
   str% "          <format>$1 $2 $3 $4</format>\n",
   str% "        </numberFormat>\n",
   str% "      </availableFormats>\n",
   str% "      <generalDesc>\n",
   str% "        <nationalNumberPattern>\n",
   str% "          (?:\n",
   str% "            2\\d|\n",
   str% "            77\n",
   str% "          )\\d{6}\n",
   str% "        </nationalNumberPattern>\n",
   str% "      </generalDesc>\n",
   str% "      <!-- Includes \"Num\u00E9ro long CDMA fixe\" numbers. -->\n",
   str% "      <fixedLine>\n",
   str% "        <possibleLengths national=\"8\"/>\n",
   str% "        <exampleNumber>21360003</exampleNumber>\n",
   str% "        <nationalNumberPattern>\n",
   str% "          2(?:\n",
   str% "            1[2-5]|\n",
   str% "            7[45]\n",
   str% "          )\\d{5}\n",
   str% "        </nationalNumberPattern>\n",
   str% "      </fixedLine>\n",
   str% "      <mobile>\n",
   str% "        <possibleLengths national=\"8\"/>\n",
   str% "        <exampleNumber>77831001</exampleNumber>\n",
   str% "        <nationalNumberPattern>77\\d{6}</nationalNumberPattern>\n",
   str% "      </mobile>\n",
   str% "    </territory>"]

/-- the text up to the end of territory id=DK countryCode=45 -/
noncomputable def DK : List Str :=
  [str% "\n",
   str% "\n",
   str% "    <!-- Denmark (DK) -->\n",
   str% "    <!-- https://www.klimadatastyrelsen.dk/digital-infrastruktur/telefoni/numre/den-samlede-danske-nummerplan -->\n",
   str% "    <!-- https://nummerregister.sdfi.dk -->\n",
   str% "    <!-- https://en.wikipedia.org/wiki/Telephone_numbers_in_Denmark -->\n",
   str% "    <!-- https://www.itu.int/oth/T0202000038/en -->\n",
   str% "    <territory id=\"DK\" countryCode=\"45\" internationalPrefix=\"00\" mobileNumberPortableRegion=\"true\">\n",
   str% "      <availableFormats>\n",
   str% "        <numberFormat pattern=\"(\\d{2})(\\d{2})(\\d{2})(\\d{2})\">\n",
   str% "          <leadingDigits>[2-9]</leadingDigits>\n",
   str% "          <format>$1 $2 $3 $4</format>\n",
   str% "        </numberFormat>\n",
   str% "      </availableFormats>\n",
   str% "      <generalDesc>\n",
   str% "        <nationalNumberPattern>[2-9]\\d{7}</nationalNumberPattern>\n",
   str% "      </generalDesc>\n",
   str% "      <!-- Note that \"mainly mobile\" and \"mainly fixed-line\" are put under both number types to be\n",
   str% "           safe. -->\n",
   str% "      <fixedLine>\n",
   str% "        <possibleLengths national=\"8\"/>\n",
   str% "        <exampleNumber>32123456</exampleNumber>\n",
   str% "        <nationalNumberPattern>\n",
   str% "          (?:\n",
   str% "            2(?:\n",
   str% "              [0-59][1-9]|\n",
   str% "              [6-8]\\d\n",
   str% "            )|\n",
   str% "            3(?:\n",
   str% "              [0-3][1-9]|\n",
   str% "              4[13]|\n",
   str% "              5[1-58]|\n",
   str% "              6[1347-9]|\n",
   str% "              7\\d|\n",
   str% "              8[1-8]|\n",
   str% "              9[1-79]\n",
   str% "            )|\n",
   str% "            4(?:\n",
   str% "              [0-25][1-9]|\n",
   str% "              [34][2-9]|\n",
   str% "              6[13-579]|\n",
   str% "              7[13579]|\n",
   str% "              8[1-47]|\n",
   str% "              9[127]\n",
   str% "            )|\n",
   str% "            5(?:\n",
   str% "              [0-36][1-9]|\n",
   str% "              4[146-9]|\n",
   str% "              5[3-57-9]|\n",
   str% "              7[568]|\n",
   str% "              8[1-358]|\n",
   str% "              9[1-69]\n",
   str% "            )|\n",
   str% "            6(?:\n",
   str% "              [0135][1-9]|\n",
   str% "              2[1-68]|\n",
   str% "              4[2-8]|\n",
   str% "              6[1689]|\n",
   str% "              [78]\\d|\n",
   str% "              9[15689]\n",
   str% "            )|\n",
   str% "            7(?:\n",
   str% "              [0-69][1-9]|\n",
   str% "              7[3-9]|\n",
   str% "              8[147]\n",
   str% "            )|\n",
   str% "            8(?:\n",
   str% "              [16-9][1-9]|\n",
   str% "              2[1-58]\n",
   str% "            )|\n",
   str% "            9(?:\n",
   str% "              [1-47-9][1-9]|\n",
   str% "              6\\d\n",
   str% "            )\n",
   str% "          )\\d{5}\n",
   str% "        </nationalNumberPattern>\n",
   str% "      </fixedLine>\n",
   str% "      <mobile>\n",
   str% "        <possibleLengths national=\"8\"/>\n",
   str% "        <exampleNumber>34412345</exampleNumber>\n",
   str% "        <nationalNumberPattern>\n",
   str% "          (?:\n",
   str% "            2[6-8]|\n",
   str% "            37|\n",
   str% "            6[78]|\n",
   str% "            96\n",
   str% "          )\\d{6}|\n",
   str% "          (?:\n",
   str% "            2[0-59]|\n",
   str% "            3[0-689]|\n",
   str% "            [457]\\d|\n",
   str% "            6[0-69]|\n",
   str% "            8[126-9]|\n",
   str% "            9[1-47-9]\n",
   str% "          )[1-9]\\d{5}\n",
   str% "        </nationalNumberPattern>\n",
   str% "      </mobile>\n",
   str% "      <tollFree>\n",
   str% "        <possibleLengths national=\"8\"/>\n",
   str% "        <exampleNumber>80123456</exampleNumber>\n",
   str% "        <nationalNumberPattern>80\\d{6}</nationalNumberPattern>\n",
   str% "      </tollFree>\n",
   str% "      <premiumRate>\n",
   str% "        <possibleLengths national=\"8\"/>\n",
   str% "        <exampleNumber>90123456</exampleNumber>\n",
   str% "        <nationalNumberPattern>90\\d{6}</nationalNumberPattern>\n",
   str% "      </premiumRate>\n",
   str% "    </territory>"]

/-- the text up to the end of territory id=DM countryCode=1 -/
noncomputable def DM : List Str :=
  [str% "\n",
   str% "\n",
   str% "    <!-- Dominica (DM) -->\n",
   str% "    <!-- Calling code and formatting shared with 'US' -->\n",
   str% "    <!-- http://www.itu.int/oth/T020200003B/en -->\n",
   str% "    <territory id=\"DM\" countryCode=\"1\" leadingDigits=\"767\" internationalPrefix=\"011\"\n",
   str% "               nationalPrefix=\"1\" nationalPrefixForParsing=\"([2-7]\\d{6})$|1\"\n",
   str% "               nationalPrefixTransformRule=\"767$1\" mobileNumberPortableRegion=\"true\">\n",
   str% "      <generalDesc>\n",
   str% "        <nationalNumberPattern>\n",
   str% "          (?:\n",
   str% "            [58]\\d\\d|\n",
   str% "            767|\n",
   str% "            900\n",
   str% "          )\\d{7}\n",
   str% "        </nationalNumberPattern>\n",
   str% "      </generalDesc>\n",
   str% "      <fixedLine>\n",
   str% "        <possibleLengths national=\"10\" localOnly=\"7\"/>\n",
   str% "        <exampleNumber>7674201234</exampleNumber>\n",
   str% "        <nationalNumberPattern>\n",
   str% "          767(?:\n",
   str% "            2(?:\n",
   str% "              55|\n",
   str% "              66\n",
   str% "            )|\n",
   str% "            4(?:\n",
   str% "              2[01]|\n",
   str% "              4[0-25-9]\n",
   str% "            )|\n",
   str% "            50[0-4]\n",
   str% "          )\\d{4}\n",
   str% "        </nationalNumberPattern>\n",
   str% "      </fixedLine>\n",
   str% "      <!-- Adding 61[237], 285 and 295 since online numbers have been found with this prefix. -->\n",
   str% "      <mobile>\n",
   str% "        <possibleLengths national=\"10\" localOnly=\"7\"/>\n",
   str% "        <exampleNumber>7672251234</exampleNumber>\n",
   str% "        <nationalNumberPattern>\n",
   str% "          767(?:\n",
   str% "            2(?:\n",
   str% "              [2-4689]5|\n",
   str% "              7[5-7]\n",
   str% "            )|\n",
   str% "            31[5-7]|\n",
   str% "            61[1-8]|\n",
   str% "            70[1-6]\n",
   str% "          )\\d{4}\n",
   str% "        </nationalNumberPattern>\n",
   str% "      </mobile>\n",
   str% "      <tollFree>\n",
   str% "        <possibleLengths national=\"10\"/>\n",
   str% "        <exampleNumber>8002123456</exampleNumber>\n",
   str% "        <nationalNumberPattern>\n",
   str% "          8(?:\n",
   str% "            00|\n",
   str% "            33|\n",
   str% "            44|\n",
   str% "            55|\n",
   str% "            66|\n",
   str% "            77|\n",
   str% "            88\n",
   str% "          )[2-9]\\d{6}\n",
   str% "        </nationalNumberPattern>\n",
   str% "      </tollFree>\n",
   str% "      <premiumRate>\n",
   str% "        <possibleLengths national=\"10\"/>\n",
   str% "        <exampleNumber>9002123456</exampleNumber>\n",
   str% "        <nationalNumberPattern>900[2-9]\\d{6}</nationalNumberPattern>\n",
   str% "      </premiumRate>\n",
   str% "      <!-- https://www.nationalnanpa.com/number_resource_info/5XX_codes.html -->\n",
   str% "      <personalNumber>\n",
   str% "        <possibleLengths national=\"10\"/>\n",
   str% "        <exampleNumber>5002345678</exampleNumber>\n",
   str% "        <nationalNumberPattern>\n",
   str% "          52(?:\n",
   str% "            3(?:\n",
   str% "              [2-46-9][02-9]\\d|\n",
   str% "              5(?:\n",
   str% "                [02-46-9]\\d|\n",
   str% "                5[0-46-9]\n",
   str% "              )\n",
   str% "            )|\n",
   str% "            4(?:\n",
   str% "              [2-478][02-9]\\d|\n",
   str% "              5(?:\n",
   str% "                [034]\\d|\n",
   str% "                2[024-9]|\n",
   str% "                5[0-46-9]\n",
   str% "              )|\n",
   str% "              6(?:\n",
   str% "                0[1-9]|\n",
   str% "                [2-9]\\d\n",
   str% "              )|\n",
   str% "              9(?:\n",
   str% "                [05-9]\\d|\n",
   str% "                2[0-5]|\n",
   str% "                49\n",
   str% "              )\n",
   str% "            )\n",
   str% "          )\\d{4}|\n",
   str% "          52[34][2-9]1[02-9]\\d{4}|\n",
   str% "          5(?:\n",
   str% "            00|\n",
   str% "            2[125-9]|\n",
   str% "            3[23]|\n",
   str% "            44|\n",
   str% "            66|\n",
   str% "            77|\n",
   str% "            88\n",
   str% "          )[2-9]\\d{6}\n",
   str% "        </nationalNumberPattern>\n",
   str% "      </personalNumber>\n",
   str% "    </territory>"]

/-- the text up to the end of territory id=DO countryCode=1 -/
noncomputable def DO : List Str :=
  [str% "\n",
   str% "\n",
   str% "    <!-- Dominican Republic (DO) -->\n",
   str% "    <!-- Calling code and formatting shared with 'US' -->\n",
   str% "    <!-- http://www.itu.int/oth/T020200003C/en -->\n",
   str% "    <territory id=\"DO\" countryCode=\"1\" leadingDigits=\"8001|8[024]9\" internationalPrefix=\"011\"\n",
   str% "               nationalPrefix=\"1\" mobileNumberPortableRegion=\"true\">\n",
   str% "      <generalDesc>\n",
   str% "        <nationalNumberPattern>\n",
   str% "          (?:\n",
   str% "            [58]\\d\\d|\n",
   str% "            900\n",
   str% "          )\\d{7}\n",
   str% "        </nationalNumberPattern>\n",
   str% "      </generalDesc>\n",
   str% "      <!-- The ITU data seems to be somewhat incomplete. We ensure that the fully-specified mobile\n",
   str% "           prefixes in the document are classified as such by excluding them from the fixed-line\n",
   str% "           ranges, but other than this have a generic rule. -->\n",
   str% "      <fixedLine>\n",
   str% "        <possibleLengths national=\"10\" localOnly=\"7\"/>\n",
   str% "        <exampleNumber>8092345678</exampleNumber>\n",
   str% "        <nationalNumberPattern>\n",
   str% "          8(?:\n",
   str% "            [04]9[2-9]\\d\\d|\n",
   str% "            29(?:\n",
   str% "              2(?:\n",
   str% "                [0-59]\\d|\n",
   str% "                6[04-9]|\n",
   str% "                7[0-27]|\n",
   str% "                8[0237-9]\n",
   str% "              )|\n",
   str% "              3(?:\n",
   str% "                [0-35-9]\\d|\n",
   str% "                4[7-9]\n",
   str% "              )|\n",
   str% "              [45]\\d\\d|\n",
   str% "              6(?:\n",
   str% "                [0-27-9]\\d|\n",
   str% "                [3-5][1-9]|\n",
   str% "                6[0135-8]\n",
   str% "              )|\n",
   str% "              7(?:\n",
   str% "                0[013-9]|\n",
   str% "                [1-37]\\d|\n",
   str% "                4[1-35689]|\n",
   str% "                5[1-4689]|\n",
   str% "                6[1-57-9]|\n",
   str% "                8[1-79]|\n",
   str% "                9[1-8]\n",
   str% "              )|\n",
   str% "              8(?:\n",
   str% "                0[146-9]|\n",
   str% "                1[0-48]|\n",
   str% "                [248]\\d|\n",
   str% "                3[1-79]|\n",
   str% "                5[01589]|\n",
   str% "                6[013-68]|\n",
   str% "                7[124-8]|\n",
   str% "                9[0-8]\n",
   str% "              )|\n",
   str% "              9(?:\n",
   str% "                [0-24]\\d|\n",
   str% "                3[02-46-9]|\n",
   str% "                5[0-79]|\n",
   str% "                60|\n",
   str% "                7[0169]|\n",
   str% "                8[57-9]|\n",
   str% "                9[02-9]\n",
   str% "              )\n",
   str% "            )\n",
   str% "          )\\d{4}\n",
   str% "        </nationalNumberPattern>\n",
   str% "      </fixedLine>\n",
   str% "      <mobile>\n",
   str% "        <possibleLengths national=\"10\" localOnly=\"7\"/>\n",
   str% "        <exampleNumber>8092345678</exampleNumber>\n",
   str% "        <nationalNumberPattern>8[024]9[2-9]\\d{6}</nationalNumberPattern>\n",
   str% "      </mobile>\n",
   str% "      <tollFree>\n",
   str% "        <possibleLengths national=\"10\"/>\n",
   str% "        <exampleNumber>8002123456</exampleNumber>\n",
   str% "        <nationalNumberPattern>\n",
   str% "          800(?:\n",
   str% "            14|\n",
   str% "            [2-9]\\d\n",
   str% "          )\\d{5}|\n",
   str% "          8[024]9[01]\\d{6}|\n",
   str% "          8(?:\n",
   str% "            33|\n",
   str% "            44|\n",
   str% "            55|\n",
   str% "            66|\n",
   str% "            77|\n",
   str% "            88\n",
   str% "          )[2-9]\\d{6}\n",
   str% "        </nationalNumberPattern>\n",
   str% "      </tollFree>\n",
   str% "      <premiumRate>\n",
   str% "        <possibleLengths national=\"10\"/>\n",
   str% "        <exampleNumber>9002123456</exampleNumber>\n",
   str% "        <nationalNumberPattern>900[2-9]\\d{6}</nationalNumberPattern>\n",
   str% "      </premiumRate>\n",
   str% "      <!-- https://www.nationalnanpa.com/number_resource_info/5XX_codes.html -->\n",
   str% "      <personalNumber>\n",
   str% "        <possibleLengths national=\"10\"/>\n",
   str% "        <exampleNumber>5002345678</exampleNumber>\n",
   str% "        <nationalNumberPattern>\n",
   str% "          52(?:\n",
   str% "            3(?:\n",
   str% "              [2-46-9][02-9]\\d|\n",
   str% "              5(?:\n",
   str% "                [02-46-9]\\d|\n",
   str% "                5[0-46-9]\n",
   str% "              )\n",
   str% "            )|\n",
   str% "            4(?:\n",
   str% "              [2-478][02-9]\\d|\n",
   str% "              5(?:\n",
   str% "                [034]\\d|\n",
   str% "                2[024-9]|\n",
   str% "                5[0-46-9]\n",
   str% "              )|\n",
   str% "              6(?:\n",
   str% "                0[1-9]|\n",
   str% "                [2-9]\\d\n",
   str% "              )|\n",
   str% "              9(?:\n",
   str% "                [05-9]\\d|\n",
   str% "                2[0-5]|\n",
   str% "                49\n",
   str% "              )\n",
   str% "            )\n",
   str% "          )\\d{4}|\n",
   str% "          52[34][2-9]1[02-9]\\d{4}|\n",
   str% "          5(?:\n",
   str% "            00|\n",
   str% "            2[125-9]|\n",
   str% "            3[23]|\n",
   str% "            44|\n",
   str% "            66|\n",
   str% "            77|\n",
   str% "            88\n",
   str% "          )[2-9]\\d{6}\n",
   str% "        </nationalNumberPattern>\n",
   str% "      </personalNumber>\n",
   str% "    </territory>"]

/-- the text up to the end of territory id=DZ countryCode=213 -/
noncomputable def DZ : List Str :=
  [str% "\n",
   str% "\n",
   str% "    <!-- Algeria (DZ) -->\n",
   str% "    <!-- http://www.itu.int/oth/T0202000003/en -->\n",
   str% "    <!-- http://www.arpt.dz -->\n",
   str% "    <territory id=\"DZ\" countryCode=\"213\" internationalPrefix=\"00\" nationalPrefix=\"0\">\n",
   str% "      <availableFormats>\n",
   str% "        <!-- Formatting from http://www.pagesjaunes-dz.com. -->\n",
   str% "        <numberFormat pattern=\"(\\d{2})(\\d{2})(\\d{2})(\\d{2})\" nationalPrefixFormattingRule=\"$NP$FG\">\n",
   str% "          <leadingDigits>[1-4]</leadingDigits>\n",
   str% "          <format>$1 $2 $3 $4</format>\n",
   str% "        </numberFormat>\n",
   str% "        <numberFormat pattern=\"(\\d{2})(\\d{3})(\\d{2})(\\d{2})\" nationalPrefixFormattingRule=\"$NP$FG\">\n",
   str% "          <leadingDigits>9</leadingDigits>\n",
   str% "          <format>$1 $2 $3 $4</format>\n",
   str% "        </numberFormat>\n",
   str% "        <numberFormat pattern=\"(\\d{3})(\\d{2})(\\d{2})(\\d{2})\" nationalPrefixFormattingRule=\"$NP$FG\">\n",
   str% "          <leadingDigits>[5-8]</leadingDigits>\n",
   str% "          <format>$1 $2 $3 $4</format>\n",
   str% "        </numberFormat>\n",
   str% "      </availableFormats>\n",
   str% "      <generalDesc>\n",
   str% "        <nationalNumberPattern>\n",
   str% "          (?:\n",
   str% "            [1-4]|\n",
   str% "            [5-79]\\d|\n",
   str% "            80\n",
   str% "          )\\d{7}\n",
   str% "        </nationalNumberPattern>\n",
   str% "      </generalDesc>\n",
   str% "      <!-- We include the VSAT lines here. -->\n",
   str% "      <!-- Added prefix 23 found online. -->\n",
   str% "      <fixedLine>\n",
   str% "        <possibleLengths national=\"8,9\"/>\n",
   str% "        <exampleNumber>12345678</exampleNumber>\n",
   str% "        <nationalNumberPattern>\n",
   str% "          9619\\d{5}|\n",
   str% "          (?:\n",
   str% "            [1-3]\\d|\n",
   str% "            4[013-689]\n",
   str% "          )\\d{6}\n",
   str% "        </nationalNumberPattern>\n",
   str% "      </fixedLine>\n",
   str% "      <!-- Adding 65 and 78 from numbers found online. Also, prefix 670 is added since the carrier\n",
   str% "           Mobilis Algeria provided it, and 54 for Nedjma. Prefixes 67[1-4] were also added for\n",
   str% "           Mobilis Algeria based on evidence found online. Added new ranges 675 and 676 as\n",
   str% "           per IR21 received. -->\n",
   str% "      <mobile>\n",
   str% "        <possibleLengths national=\"9\"/>\n",
   str% "        <exampleNumber>551234567</exampleNumber>\n",
   str% "        <nationalNumberPattern>\n",
   str% "          5(?:\n",
   str% "            4[0-29]|\n",
   str% "            6[0-4]\n",
   str% "          )\\d{6}|\n",
   str% "          (?:\n",
   str% "            55|\n",
   str% "            6\\d|\n",
   str% "            7[7-9]\n",
   str% "          )\\d{7}\n",
   str% "        </nationalNumberPattern>\n",
   str% "      </mobile>\n",
   str% "      <tollFree>\n",
   str% "        <possibleLengths national=\"9\"/>\n",
   str% "        <exampleNumber>800123456</exampleNumber>\n",
   str% "        <nationalNumberPattern>800\\d{6}</nationalNumberPattern>\n",
   str% "      </tollFree>\n",
   str% "      <premiumRate>\n",
   str% "        <possibleLengths national=\"9\"/>\n",
   str% "        <exampleNumber>808123456</exampleNumber>\n",
   str% "        <nationalNumberPattern>80[3-689]1\\d{5}</nationalNumberPattern>\n",
   str% "      </premiumRate>\n",
   str% "      <!-- The Algerian plan doesn't specify where the costs start to be considered \"premium\", so we\n",
   str% "           draw an arbitrary line here and say that from 50 Da up they will be considered premium. -->\n",
   str% "      <sharedCost>\n",
   str% "        <possibleLengths national=\"9\"/>\n",
   str% "        <exampleNumber>801123456</exampleNumber>\n",
   str% "        <nationalNumberPattern>80[12]1\\d{5}</nationalNumberPattern>\n",
   str% "      </sharedCost>\n",
   str% "      <voip>\n",
   str% "        <possibleLengths national=\"9\"/>\n",
   str% "        <exampleNumber>983123456</exampleNumber>\n",
   str% "        <nationalNumberPattern>98[23]\\d{6}</nationalNumberPattern>\n",
   str% "      </voip>\n",
   str% "    </territory>"]

/-- the text up to the end of territory id=EC countryCode=593 -/
noncomputable def EC : List Str :=
  [str% "\n",
   str% "\n",
   str% "    <!-- Ecuador (EC) -->\n",
   str% "    <!-- http://en.wikipedia.org/wiki/+593 -->\n",
   str% "    <!-- http://www.arcotel.gob.ec/plan-tecnico-fundamental-de-numeracion-series-numericas/ -->\n",
   str% "    <!-- http://www.itu.int/oth/T020200003D/en -->\n",
   str% "    <territory id=\"EC\" countryCode=\"593\" internationalPrefix=\"00\" nationalPrefix=\"0\"\n",
   str% "               mobileNumberPortableRegion=\"true\">\n",
   str% "      <availableFormats>\n",
   str% "        <numberFormat pattern=\"(\\d{3})(\\d{4})\">\n",
   str% "          <leadingDigits>[2-7]</leadingDigits>\n",
   str% "          <format>$1-$2</format>\n",
   str% "          <intlFormat>NA</intlFormat>\n",
   str% "        </numberFormat>\n",
   str% "        <numberFormat pattern=\"(\\d)(\\d{3})(\\d{4})\" nationalPrefixFormattingRule=\"($NP$FG)\">\n",
   str% "          <leadingDigits>[2-7]</leadingDigits>\n",
   str% "          <format>$1 $2-$3</format>\n",
   str% "          <intlFormat>$1-$2-$3</intlFormat>\n",
   str% "        </numberFormat>\n",
   str% "        <!-- Formatting for the new longer mobile numbers comes from the advertisements about the\n",
   str% "             change on the http://www.conatel.gob.ec site. -->\n",
   str% "        <numberFormat pattern=\"(\\d{2})(\\d{3})(\\d{4})\" nationalPrefixFormattingRule=\"$NP$FG\">\n",
   str% "          <leadingDigits>9</leadingDigits>\n",
   str% "          <format>$1 $2 $3</format>\n",
   str% "        </numberFormat>\n",
   str% "        <numberFormat pattern=\"(\\d{4})(\\d{3})(\\d{3,4})\">\n",
   str% "          <leadingDigits>1</leadingDigits>\n",
   str% "          <format>$1 $2 $3</format>\n",
   str% "        </numberFormat>\n",
   str% "      </availableFormats>\n",
   str% "      <generalDesc>\n",
   str% "        <nationalNumberPattern>\n",
   str% "          1\\d{9,10}|\n",
   str% "          (?:\n",
   str% "            [2-7]|\n",
   str% "            9\\d\n",
   str% "          )\\d{7}\n",
   str% "        </nationalNumberPattern>\n",
   str% "      </generalDesc>\n",
   str% "      <fixedLine>\n",
   str% "        <possibleLengths national=\"8\" localOnly=\"7\"/>\n",
   str% "        <exampleNumber>22123456</exampleNumber>\n",
   str% "        <nationalNumberPattern>[2-7][2-7]\\d{6}</nationalNumberPattern>\n",
   str% "      </fixedLine>\n",
   str% "      <mobile>\n",
   str% "        <possibleLengths national=\"9\"/>\n",
   str% "        <exampleNumber>991234567</exampleNumber>\n",
   str% "        <nationalNumberPattern>\n",
   str% "          964[0-2]\\d{5}|\n",
   str% "          9(?:\n",
   str% "            39|\n",
   str% "            [57][89]|\n",
   str% "            6[0-36-9]|\n",
   str% "            [89]\\d\n",
   str% "          )\\d{6}\n",
   str% "        </nationalNumberPattern>\n",
   str% "      </mobile>\n",
   str% "      <tollFree>\n",
   str% "        <possibleLengths national=\"10,11\"/>\n",
   str% "        <exampleNumber>18001234567</exampleNumber>\n",
   str% "        <nationalNumberPattern>\n",
   str% "          1800\\d{7}|\n",
   str% "          1[78]00\\d{6}\n",
   str% "        </nationalNumberPattern>\n",
   str% "      </tollFree>\n",
   str% "      <voip>\n",
   str% "        <possibleLengths national=\"8\"/>\n",
   str% "        <exampleNumber>28901234</exampleNumber>\n",
   str% "        <nationalNumberPattern>[2-7]890\\d{4}</nationalNumberPattern>\n",
   str% "      </voip>\n",
   str% "    </territory>"]

/-- the text up to the end of territory id=EE countryCode=372 -/
noncomputable def EE : List Str :=
  [str% "\n",
   str% "\n",
   str% "    <!-- Estonia (EE) -->\n",
   str% "    <!-- http://www.itu.int/oth/T0202000043/en -->\n",
   str% "    <territory id=\"EE\" countryCode=\"372\" internationalPrefix=\"00\" mobileNumberPortableRegion=\"true\">\n",
   str% "      <availableFormats>\n",
   str% "        <numberFormat pattern=\"(\\d{3})(\\d{4})\">\n",
   str% "          <leadingDigits>\n",
   str% "            [369]|\n",
   str% "            4[3-8]|\n",
   str% "            5(?:\n",
   str% "              [0-2]|\n",
   str% "              5[0-478]|\n",
   str% "              6[45]\n",
   str% "            )|\n",
   str% "            7[1-9]|\n",
   str% "            88\n",
   str% "          </leadingDigits>\n",
   str% "          <leadingDigits>\n",
   str% "            [369]|\n",
   str% "            4[3-8]|\n",
   str% "            5(?:\n",
   str% "              [02]|\n",
   str% "              1(?:\n",
   str% "                [0-8]|\n",
   str% "                95\n",
   str% "              )|\n",
   str% "              5[0-478]|\n",
   str% "              6(?:\n",
   str% "                4[0-4]|\n",
   str% "                5[1-589]\n",
   str% "              )\n",
   str% "            )|\n",
   str% "            7[1-9]|\n",
   str% "            88\n",
   str% "          </leadingDigits>\n",
   str% "          <format>$1 $2</format>\n",
   str% "        </numberFormat>\n",
   str% "        <numberFormat pattern=\"(\\d{4})(\\d{3,4})\">\n",
   str% "          <leadingDigits>\n",
   str% "            [45]|\n",
   str% "            8(?:\n",
   str% "              00|\n",
   str% "              [1-49]\n",
   str% "            )\n",
   str% "          </leadingDigits>\n",
   str% "          <leadingDigits>\n",
   str% "            [45]|\n",
   str% "            8(?:\n",
   str% "              00[1-9]|\n",
   str% "              [1-49]\n",
   str% "            )\n",
   str% "          </leadingDigits>\n",
   str% "          <format>$1 $2</format>\n",
   str% "        </numberFormat>\n",
   str% "        <numberFormat pattern=\"(\\d{2})(\\d{2})(\\d{4})\">\n",
   str% "          <leadingDigits>7</leadingDigits>\n",
   str% "          <format>$1 $2 $3</format>\n",
   str% "        </numberFormat>\n",
   str% "        <numberFormat pattern=\"(\\d{4})(\\d{3})(\\d{3})\">\n",
   str% "          <leadingDigits>8</leadingDigits>\n",
   str% "          <format>$1 $2 $3</format>\n",
   str% "        </numberFormat>\n",
   str% "      </availableFormats>\n",
   str% "      <generalDesc>\n",
   str% "        <nationalNumberPattern>\n",
   str% "          8\\d{9}|\n",
   str% "          [4578]\\d{7}|\n",
   str% "          (?:\n",
   str% "            [3-8]\\d|\n",
   str% "            90\n",
   str% "          )\\d{5}\n",
   str% "        </nationalNumberPattern>\n",
   str% "      </generalDesc>\n",
   str% "      <noInternationalDialling>\n",
   str% "        <possibleLengths national=\"7\"/>\n",
   str% "        <nationalNumberPattern>800[2-9]\\d{3}</nationalNumberPattern>\n",
   str% "      </noInternationalDialling>\n",
   str% "      <fixedLine>\n",
   str% "        <possibleLengths national=\"7\"/>\n",
   str% "        <exampleNumber>3212345</exampleNumber>\n",
   str% "        <nationalNumberPattern>\n",
   str% "          (?:\n",
   str% "            3[23589]|\n",
   str% "            4[3-8]|\n",
   str% "            6\\d|\n",
   str% "            7[1-9]|\n",
   str% "            88\n",
   str% "          )\\d{5}\n",
   str% "        </nationalNumberPattern>\n",
   str% "      </fixedLine>\n",
   str% "      <!-- 7 digit mobile numbers currently in use with special prefixes are preserved - new\n",
   str% "           numbers are 8 digits. -->\n",
   str% "      <mobile>\n",
   str% "        <possibleLengths national=\"7,8\"/>\n",
   str% "        <exampleNumber>51234567</exampleNumber>\n",
   str% "        <nationalNumberPattern>\n",
   str% "          (?:\n",
   str% "            5\\d{5}|\n",
   str% "            8(?:\n",
   str% "              1(?:\n",
   str% "                0(?:\n",
   str% "                  0(?:\n",
   str% "                    00|\n",
   str% "                    [178]\\d\n",
   str% "                  )|\n",
   str% "                  [3-9]\\d\\d\n",
   str% "                )|\n",
   str% "                (?:\n",
   str% "                  1(?:\n",
   str% "                    0[2-6]|\n",
   str% "                    1\\d\n",
   str% "                  )|\n",
   str% "                  [2-79]\\d\\d\n",
   str% "                )\\d\n",
   str% "              )|\n",
   str% "              2(?:\n",
   str% "                0(?:\n",
   str% "                  0(?:\n",
   str% "                    00|\n",
   str% "                    4\\d\n",
   str% "                  )|\n",
   str% "                  (?:\n",
   str% "                    19|\n",
   str% "                    [2-7]\\d\n",
   str% "                  )\\d\n",
   str% "                )|\n",
   str% "                (?:\n",
   str% "                  (?:\n",
   str% "                    [124-69]\\d|\n",
   str% "                    3[5-9]\n",
   str% "                  )\\d|\n",
   str% "                  7(?:\n",
   str% "                    [0-79]\\d|\n",
   str% "                    8[013-9]\n",
   str% "                  )|\n",
   str% "                  8(?:\n",
   str% "                    [2-6]\\d|\n",
   str% "                    7[01]\n",
   str% "                  )\n",
   str% "                )\\d\n",
   str% "              )|\n",
   str% "              [349]\\d{4}\n",
   str% "            )\n",
   str% "          )\\d\\d|\n",
   str% "          5(?:\n",
   str% "            (?:\n",
   str% "              [02]\\d|\n",
   str% "              5[0-478]\n",
   str% "            )\\d|\n",
   str% "            1(?:\n",
   str% "              [0-8]\\d|\n",
   str% "              95\n",
   str% "            )|\n",
   str% "            6(?:\n",
   str% "              4[0-4]|\n",
   str% "              5[1-589]\n",
   str% "            )\n",
   str% "          )\\d{3}\n",
   str% "        </nationalNumberPattern>\n",
   str% "      </mobile>\n",
   str% "      <tollFree>\n",
   str% "        <possibleLengths national=\"7,8,10\"/>\n",
   str% "        <exampleNumber>80012345</exampleNumber>\n",
   str% "        <nationalNumberPattern>\n",
   str% "          800(?:\n",
   str% "            (?:\n",
   str% "              0\\d\\d|\n",
   str% "              1\n",
   str% "            )\\d|\n",
   str% "            [2-9]\n",
   str% "          )\\d{3}\n",
   str% "        </nationalNumberPattern>\n",
   str% "      </tollFree>\n",
   str% "      <!-- Supporting eFax numbers here as well. We aren't sure the exact cost, but have\n",
   str% "           had user reports that they are expensive to dial. -->\n",
   str% "      <premiumRate>\n",
   str% "        <possibleLengths national=\"7,8\"/>\n",
   str% "        <exampleNumber>9001234</exampleNumber>\n",
   str% "        <nationalNumberPattern>\n",
   str% "          (?:\n",
   str% "            40\\d\\d|\n",
   str% "            900\n",
   str% "          )\\d{4}\n",
   str% "        </nationalNumberPattern>\n",
   str% "      </premiumRate>\n",
   str% "      <personalNumber>\n",
   str% "        <possibleLengths national=\"8\"/>\n",
   str% "        <exampleNumber>70012345</exampleNumber>\n",
   str% "        <nationalNumberPattern>70[0-2]\\d{5}</nationalNumberPattern>\n",
   str% "      </personalNumber>\n",
   str% "    </territory>"]

/-- the text up to the end of territory id=EG countryCode=20 -/
noncomputable def EG : List Str :=
  [str% "\n",
   str% "\n",
   str% "    <!-- Egypt (EG) -->\n",
   str% "    <!-- http://www.itu.int/oth/T020200003E/en -->\n",
   str% "    <territory id=\"EG\" countryCode=\"20\" internationalPrefix=\"00\" nationalPrefix=\"0\"\n",
   str% "               mobileNumberPortableRegion=\"true\">\n",
   str% "      <availableFormats>\n",
   str% "        <numberFormat pattern=\"(\\d)(\\d{7,8})\" nationalPrefixFormattingRule=\"$NP$FG\">\n",
   str% "          <leadingDigits>[23]</leadingDigits>\n",
   str% "          <format>$1 $2</format>\n",
   str% "        </numberFormat>\n",
   str% "        <numberFormat pattern=\"(\\d{2})(\\d{6,7})\" nationalPrefixFormattingRule=\"$NP$FG\">\n",
   str% "          <leadingDigits>\n",
   str% "            1[35]|\n",
   str% "            [4-6]|\n",
   str% "            8[2468]|\n",
   str% "            9[235-7]\n",
   str% "          </leadingDigits>\n",
   str% "          <format>$1 $2</format>\n",
   str% "        </numberFormat>\n",
   str% "        <numberFormat pattern=\"(\\d{3})(\\d{3})(\\d{4})\" nationalPrefixFormattingRule=\"$NP$FG\">\n",
   str% "          <leadingDigits>[89]</leadingDigits>\n",
   str% "          <format>$1 $2 $3</format>\n",
   str% "        </numberFormat>\n",
   str% "        <numberFormat pattern=\"(\\d{2})(\\d{8})\" nationalPrefixFormattingRule=\"$NP$FG\">\n",
   str% "          <leadingDigits>1</leadingDigits>\n",
   str% "          <format>$1 $2</format>\n",
   str% "        </numberFormat>\n",
   str% "      </availableFormats>\n",
   str% "      <generalDesc>\n",
   str% "        <nationalNumberPattern>\n",
   str% "          [189]\\d{8,9}|\n",
   str% "          [24-6]\\d{8}|\n",
   str% "          [135]\\d{7}\n",
   str% "        </nationalNumberPattern>\n",
   str% "      </generalDesc>\n",
   str% "      <!-- Subscriber numbers starting with 5 are also permitted for the area codes 040, with 5, 6\n",
   str% "           and 7 for the area code 050, with 5 and 7 for 082, with 6 for 084, with 7 for 086 and\n",
   str% "           092 and with 5 and 6 for 96. -->\n",
   str% "      <fixedLine>\n",
   str% "        <possibleLengths national=\"8,9\" localOnly=\"6,7\"/>\n",
   str% "        <exampleNumber>234567890</exampleNumber>\n",
   str% "        <nationalNumberPattern>\n",
   str% "          13[23]\\d{6}|\n",
   str% "          (?:\n",
   str% "            15|\n",
   str% "            57\n",
   str% "          )\\d{6,7}|\n",
   str% "          (?:\n",
   str% "            2\\d|\n",
   str% "            3|\n",
   str% "            4[05-8]|\n",
   str% "            5[05]|\n",
   str% "            6[24-689]|\n",
   str% "            8[2468]|\n",
   str% "            9[235-7]\n",
   str% "          )\\d{7}\n",
   str% "        </nationalNumberPattern>\n",
   str% "      </fixedLine>\n",
   str% "      <mobile>\n",
   str% "        <possibleLengths national=\"10\"/>\n",
   str% "        <exampleNumber>1001234567</exampleNumber>\n",
   str% "        <nationalNumberPattern>1[0-25]\\d{8}</nationalNumberPattern>\n",
   str% "      </mobile>\n",
   str% "      <tollFree>\n",
   str% "        <possibleLengths national=\"10\"/>\n",
   str% "        <exampleNumber>8001234567</exampleNumber>\n",
   str% "        <nationalNumberPattern>800\\d{7}</nationalNumberPattern>\n",
   str% "      </tollFree>\n",
   str% "      <premiumRate>\n",
   str% "        <possibleLengths national=\"10\"/>\n",
   str% "        <exampleNumber>9001234567</exampleNumber>\n",
   str% "        <nationalNumberPattern>900\\d{7}</nationalNumberPattern>\n",
   str% "      </premiumRate>\n",
   str% "    </territory>"]

/-- the text up to the end of territory id=EH countryCode=212 -/
noncomputable def EH : List Str :=
  [str% "\n",
   str% "\n",
   str% "    <!-- Western Sahara (EH) -->\n",
   str% "    <!-- Calling code and formatting shared with 'MA' -->\n",
   str% "    <!-- Two area codes are defined in the Morocco ITU document; 05288 XXXXX and 05289 XXXXX -->\n",
   str% "    <!-- http://www.itu.int/oth/T0202000090/en -->\n",
   str% "    <territory id=\"EH\" countryCode=\"212\" internationalPrefix=\"00\" nationalPrefix=\"0\">\n",
   str% "      <generalDesc>\n",
   str% "        <nationalNumberPattern>[5-8]\\d{8}</nationalNumberPattern>\n",
   str% "      </generalDesc>\n",
   str% "      <fixedLine>\n",
   str% "        <possibleLengths national=\"9\"/>\n",
   str% "        <exampleNumber>528812345</exampleNumber>\n",
   str% "        <nationalNumberPattern>528[89]\\d{5}</nationalNumberPattern>\n",
   str% "      </fixedLine>\n",
   str% "      <!-- The following sections are copied verbatim from Morocco to allow these non-geographical\n",
   str% "           numbers to be recognized as available from within Western Sahara. -->\n",
   str% "      <mobile>\n",
   str% "        <possibleLengths national=\"9\"/>\n",
   str% "        <exampleNumber>650123456</exampleNumber>\n",
   str% "        <nationalNumberPattern>\n",
   str% "          (?:\n",
   str% "            6(?:\n",
   str% "              [0-79]\\d|\n",
   str% "              8[0-247-9]\n",
   str% "            )|\n",
   str% "            7(?:\n",
   str% "              [016-8]\\d|\n",
   str% "              2[0-8]|\n",
   str% "              5[0-5]\n",
   str% "            )\n",
   str% "          )\\d{6}\n",
   str% "        </nationalNumberPattern>\n",
   str% "      </mobile>\n",
   str% "      <tollFree>\n",
   str% "        <possibleLengths national=\"9\"/>\n",
   str% "        <exampleNumber>801234567</exampleNumber>\n",
   str% "        <nationalNumberPattern>80[0-7]\\d{6}</nationalNumberPattern>\n",
   str% "      </tollFree>\n",
   str% "      <premiumRate>\n",
   str% "        <possibleLengths national=\"9\"/>\n",
   str% "        <exampleNumber>891234567</exampleNumber>\n",
   str% "        <nationalNumberPattern>89\\d{7}</nationalNumberPattern>\n",
   str% "      </premiumRate>\n",
   str% "      <!-- Putting VSAT numbers here. -->\n",
   str% "      <voip>\n",
   str% "        <possibleLengths national=\"9\"/>\n",
   str% "        <exampleNumber>592401234</exampleNumber>\n",
   str% "        <nationalNumberPattern>\n",
   str% "          (?:\n",
   str% "            592(?:\n",
   str% "              4[0-2]|\n",
   str% "              93\n",
   str% "            )|\n",
   str% "            80[89]\\d\\d\n",
   str% "          )\\d{4}\n",
   str% "        </nationalNumberPattern>\n",
   str% "      </voip>\n",
   str% "    </territory>"]

/-- the text up to the end of territory id=ER countryCode=291 -/
noncomputable def ER : List Str :=
  [str% "\n",
   str% "\n",
   str% "    <!-- Eritrea (ER) -->\n",
   str% "    <!-- http://www.itu.int/oth/T0202000042/en -->\n",
   str% "    <territory id=\"ER\" countryCode=\"291\" internationalPrefix=\"00\" nationalPrefix=\"0\">\n",
   str% "      <availableFormats>\n",
   str% "        <numberFormat pattern=\"(\\d)(\\d{3})(\\d{3})\" nationalPrefixFormattingRule=\"$NP$FG\">\n",
   str% "          <leadingDigits>[178]</leadingDigits>\n",
   str% "          <format>$1 $2 $3</format>\n",
   str% "        </numberFormat>\n",
   str% "      </availableFormats>\n",
   str% "      <generalDesc>\n",
   str% "        <nationalNumberPattern>[178]\\d{6}</nationalNumberPattern>\n",
   str% "      </generalDesc>\n",
   str% "      <!-- Test number from plan. -->\n",
   str% "      <fixedLine>\n",
   str% "        <possibleLengths national=\"7\" localOnly=\"6\"/>\n",
   str% "        <exampleNumber>8370362</exampleNumber>\n",
   str% "        <nationalNumberPattern>\n",
   str% "          (?:\n",
   str% "            1(?:\n",
   str% "              1[12568]|\n",
   str% "              [24]0|\n",
   str% "              55|\n",
   str% "              6[146]\n",
   str% "            )|\n",
   str% "            8\\d\\d\n",
   str% "          )\\d{4}\n",
   str% "        </nationalNumberPattern>\n",
   str% "      </fixedLine>\n",
   str% "      <!-- It is unclear in the plan whether the 07 mobile prefix superseded the previous 017[1-3]\n",
   str% "           numbers or was in addition to them, so we support both here. -->\n",
   str% "      <mobile>\n",
   str% "        <possibleLengths national=\"7\"/>\n",
   str% "        <exampleNumber>7123456</exampleNumber>\n",
   str% "        <nationalNumberPattern>\n",
   str% "          (?:\n",
   str% "            17[1-3]|\n",
   str% "            7\\d\\d\n",
   str% "          )\\d{4}\n",
   str% "        </nationalNumberPattern>\n",
   str% "      </mobile>\n",
   str% "    </territory>"]

/-- the text up to the end of territory id=ES countryCode=34 -/
noncomputable def ES : List Str :=
  [str% "\n",
   str% "\n",
   str% "    <!-- Spain (ES) -->\n",
   str% "    <!-- https://avance.digital.gob.es/en-us/Servicios/Numeracion/Paginas/Plan.aspx -->\n",
   str% "    <territory id=\"ES\" countryCode=\"34\" internationalPrefix=\"00\" mobileNumberPortableRegion=\"true\">\n",
   str% "      <availableFormats>\n",
   str% "        <!-- 4-digit shortcodes which would otherwise be formatted as 'XXX X' -->\n",
   str% "        <numberFormat pattern=\"(\\d{4})\">\n",
   str% "          <leadingDigits>905</leadingDigits>\n",
   str% "          <format>$1</format>\n",
   str% "          <intlFormat>NA</intlFormat>\n",
   str% "        </numberFormat>\n",
   str% "        <!-- 6-digit shortcodes which would otherwise be formatted as 'XXX XX X' -->\n",
   str% "        <numberFormat pattern=\"(\\d{6})\">\n",
   str% "          <leadingDigits>[79]9</leadingDigits>\n",
   str% "          <format>$1</format>\n",
   str% "          <intlFormat>NA</intlFormat>\n",
   str% "        </numberFormat>\n",
   str% "        <!-- Toll free numbers. -->\n",
   str% "        <numberFormat pattern=\"(\\d{3})(\\d{3})(\\d{3})\">\n",
   str% "          <leadingDigits>[89]00</leadingDigits>\n",
   str% "          <format>$1 $2 $3</format>\n",
   str% "        </numberFormat>\n",
   str% "        <numberFormat pattern=\"(\\d{3})(\\d{2})(\\d{2})(\\d{2})\">\n",
   str% "          <leadingDigits>[5-9]</leadingDigits>\n",
   str% "          <format>$1 $2 $3 $4</format>\n",
   str% "        </numberFormat>\n",
   str% "      </availableFormats>\n",
   str% "      <generalDesc>\n",
   str% "        <nationalNumberPattern>[5-9]\\d{8}</nationalNumberPattern>\n",
   str% "      </generalDesc>\n",
   str% "      <!-- The pattern is complex because the Lleida Networks mobile ranges are inside the\n",
   str% "           fixed-line ranges. As per official announcement, 919 prefix is assigned to\n",
   str% "           Madrid area http://www.boe.es/boe/dias/2016/11/17/pdfs/BOE-A-2016-10756.pdf. -->\n",
   str% "      <fixedLine>\n",
   str% "        <possibleLengths national=\"9\"/>\n",
   str% "        <exampleNumber>810123456</exampleNumber>\n",
   str% "        <nationalNumberPattern>\n",
   str% "          96906(?:\n",
   str% "            0[0-8]|\n",
   str% "            1[1-9]|\n",
   str% "            [2-9]\\d\n",
   str% "          )\\d\\d|\n",
   str% "          9(?:\n",
   str% "            69(?:\n",
   str% "              0[0-57-9]|\n",
   str% "              [1-9]\\d\n",
   str% "            )|\n",
   str% "            73(?:\n",
   str% "              [0-8]\\d|\n",
   str% "              9[1-9]\n",
   str% "            )\n",
   str% "          )\\d{4}|\n",
   str% "          (?:\n",
   str% "            8(?:\n",
   str% "              [1356]\\d|\n",
   str% "              [28][0-8]|\n",
   str% "              [47][1-9]\n",
   str% "            )|\n",
   str% "            9(?:\n",
   str% "              [135]\\d|\n",
   str% "              [268][0-8]|\n",
   str% "              4[1-9]|\n",
   str% "              7[124-9]\n",
   str% "            )\n",
   str% "          )\\d{6}\n",
   str% "        </nationalNumberPattern>\n",
   str% "      </fixedLine>\n",
   str% "      <!-- The ranges 969060900 to 969061099 and 973900000 to 973909999 are mobile according to\n",
   str% "           information received from Lleida Networks. Added 78 range based on user bug reports. -->\n",
   str% "      <mobile>\n",
   str% "        <possibleLengths national=\"9\"/>\n",
   str% "        <exampleNumber>612345678</exampleNumber>\n",
   str% "        <nationalNumberPattern>\n",
   str% "          96906(?:\n",
   str% "            09|\n",
   str% "            10\n",
   str% "          )\\d\\d|\n",
   str% "          (?:\n",
   str% "            590(?:\n",
   str% "              10[0-2]|\n",
   str% "              600\n",
   str% "            )|\n",
   str% "            97390\\d\n",
   str% "          )\\d{3}|\n",
   str% "          (?:\n",
   str% "            6\\d|\n",
   str% "            7[1-48]\n",
   str% "          )\\d{7}\n",
   str% "        </nationalNumberPattern>\n",
   str% "      </mobile>\n",
   str% "      <tollFree>\n",
   str% "        <possibleLengths national=\"9\"/>\n",
   str% "        <exampleNumber>800123456</exampleNumber>\n",
   str% "        <nationalNumberPattern>[89]00\\d{6}</nationalNumberPattern>\n",
   str% "      </tollFree>\n",
   str% "      <premiumRate>\n",
   str% "        <possibleLengths national=\"9\"/>\n",
   str% "        <exampleNumber>803123456</exampleNumber>\n",
   str% "        <nationalNumberPattern>80[367]\\d{6}</nationalNumberPattern>\n",
   str% "      </premiumRate>\n",
   str% "      <sharedCost>\n",
   str% "        <possibleLengths national=\"9\"/>\n",
   str% "        <exampleNumber>901123456</exampleNumber>\n",
   str% "        <nationalNumberPattern>90[12]\\d{6}</nationalNumberPattern>\n",
   str% "      </sharedCost>\n",
   str% "      <personalNumber>\n",
   str% "        <possibleLengths national=\"9\"/>\n",
   str% "        <exampleNumber>701234567</exampleNumber>\n",
   str% "        <nationalNumberPattern>70\\d{7}</nationalNumberPattern>\n",
   str% "      </personalNumber>\n",
   str% "      <!-- Modelling non-geographic nomadic numbers as UAN. -->\n",
   str% "      <uan>\n",
   str% "        <possibleLengths national=\"9\"/>\n",
   str% "        <exampleNumber>511234567</exampleNumber>\n",
   str% "        <nationalNumberPattern>51\\d{7}</nationalNumberPattern>\n",
   str% "      </uan>\n",
   str% "    </territory>"]

/-- the text of this module -/
noncomputable def chunk04 : List (List Str) :=
  [CU, CV, CW, CX, CY, CZ, DE, DJ, DK, DM, DO, DZ, EC, EE, EG, EH, ER, ES]

end Phone.Data.S
