import Verif.Basic.Str
/-! Text of `/repo/assets/PhoneNumberMetadata.xml`, in lines. Generated by `tools/gen_xml.py`; do not edit. -/

set_option maxRecDepth 100000
namespace Phone.Data.S

/-- the text up to the end of territory id=ET countryCode=251 -/
noncomputable def ET : List Str :=
  [str% "\n",
   str% "\n",
   str% "    <!-- Ethiopia (ET) -->\n",
   str% "    <!-- http://www.itu.int/oth/T0202000044/en -->\n",
   str% "    <territory id=\"ET\" countryCode=\"251\" internationalPrefix=\"00\" nationalPrefix=\"0\">\n",
   str% "      <availableFormats>\n",
   str% "        <numberFormat pattern=\"(\\d{2})(\\d{3})(\\d{4})\" nationalPrefixFormattingRule=\"$NP$FG\">\n",
   str% "          <leadingDigits>[1-57-9]</leadingDigits>\n",
   str% "          <format>$1 $2 $3</format>\n",
   str% "        </numberFormat>\n",
   str% "      </availableFormats>\n",
   str% "      <generalDesc>\n",
   str% "        <nationalNumberPattern>\n",
   str% "          (?:\n",
   str% "            11|\n",
   str% "            [2-57-9]\\d\n",
   str% "          )\\d{7}\n",
   str% "        </nationalNumberPattern>\n",
   str% "      </generalDesc>\n",
   str% "      <!-- Found valid fixed-line numbers online that starts with prefix 11 617, 11 639 and\n",
   str% "           11 667[01]. -->\n",
   str% "      <fixedLine>\n",
   str% "        <possibleLengths national=\"9\" localOnly=\"7\"/>\n",
   str% "        <exampleNumber>111112345</exampleNumber>\n",
   str% "        <nationalNumberPattern>\n",
   str% "          (?:\n",
   str% "            11(?:\n",
   str% "              [124]\\d\\d|\n",
   str% "              3(?:\n",
   str% "                [0-79]\\d|\n",
   str% "                8[0-7]\n",
   str% "              )|\n",
   str% "              5(?:\n",
   str% "                [02-9]\\d|\n",
   str% "                1[0-57-9]\n",
   str% "              )|\n",
   str% "              6(?:\n",
   str% "                [02-79]\\d|\n",
   str% "                1[0-57-9]|\n",
   str% "                8[0-8]\n",
   str% "              )\n",
   str% "            )|\n",
   str% "            2(?:\n",
   str% "              2(?:\n",
   str% "                11[1-9]|\n",
   str% "                22[0-7]|\n",
   str% "                33\\d|\n",
   str% "                44[1467]|\n",
   str% "                66[1-68]\n",
   str% "              )|\n",
   str% "              5(?:\n",
   str% "                11[124-6]|\n",
   str% "                33[2-8]|\n",
   str% "                44[1467]|\n",
   str% "                55[14]|\n",
   str% "                66[1-3679]|\n",
   str% "                77[124-79]|\n",
   str% "                880\n",
   str% "              )\n",
   str% "            )|\n",
   str% "            3(?:\n",
   str% "              3(?:\n",
   str% "                11[0-46-8]|\n",
   str% "                (?:\n",
   str% "                  22|\n",
   str% "                  55\n",
   str% "                )[0-6]|\n",
   str% "                33[0134689]|\n",
   str% "                44[04]|\n",
   str% "                66[01467]\n",
   str% "              )|\n",
   str% "              4(?:\n",
   str% "                44[0-8]|\n",
   str% "                55[0-69]|\n",
   str% "                66[0-3]|\n",
   str% "                77[1-5]\n",
   str% "              )\n",
   str% "            )|\n",
   str% "            4(?:\n",
   str% "              6(?:\n",
   str% "                119|\n",
   str% "                22[0-24-7]|\n",
   str% "                33[1-5]|\n",
   str% "                44[13-69]|\n",
   str% "                55[14-689]|\n",
   str% "                660|\n",
   str% "                88[1-4]\n",
   str% "              )|\n",
   str% "              7(?:\n",
   str% "                (?:\n",
   str% "                  11|\n",
   str% "                  22\n",
   str% "                )[1-9]|\n",
   str% "                33[13-7]|\n",
   str% "                44[13-6]|\n",
   str% "                55[1-689]\n",
   str% "              )\n",
   str% "            )|\n",
   str% "            5(?:\n",
   str% "              7(?:\n",
   str% "                227|\n",
   str% "                55[05]|\n",
   str% "                (?:\n",
   str% "                  66|\n",
   str% "                  77\n",
   str% "                )[14-8]\n",
   str% "              )|\n",
   str% "              8(?:\n",
   str% "                11[149]|\n",
   str% "                22[013-79]|\n",
   str% "                33[0-68]|\n",
   str% "                44[013-8]|\n",
   str% "                550|\n",
   str% "                66[1-5]|\n",
   str% "                77\\d\n",
   str% "              )\n",
   str% "            )\n",
   str% "          )\\d{4}\n",
   str% "        </nationalNumberPattern>\n",
   str% "      </fixedLine>\n",
   str% "      <!-- The data here is not regularly updated by the Ethiopian authorities, and many more\n",
   str% "           numbers are visible online than are reported in the ITU document. We have also\n",
   str% "           referred to IR 21 docs as they are frequently updated. -->\n",
   str% "      <mobile>\n",
   str% "        <possibleLengths national=\"9\"/>\n",
   str% "        <exampleNumber>911234567</exampleNumber>\n",
   str% "        <nationalNumberPattern>\n",
   str% "          700[1-9]\\d{5}|\n",
   str% "          (?:\n",
   str% "            7(?:\n",
   str% "              0[1-9]|\n",
   str% "              1[0-8]|\n",
   str% "              2[1-35-79]|\n",
   str% "              3\\d|\n",
   str% "              77|\n",
   str% "              86|\n",
   str% "              99\n",
   str% "            )|\n",
   str% "            (?:\n",
   str% "              8[01]|\n",
   str% "              9\\d\n",
   str% "            )\\d\n",
   str% "          )\\d{6}\n",
   str% "        </nationalNumberPattern>\n",
   str% "      </mobile>\n",
   str% "    </territory>"]

/-- the text up to the end of territory id=FI countryCode=358 -/
noncomputable def FI : List Str :=
  [str% "\n",
   str% "\n",
   str% "    <!-- Finland (FI) -->\n",
   str% "    <!-- Main region for 'AX' -->\n",
   str% "    <!-- Adding all international carrier access codes in below doc that we found corroborating\n",
   str% "         evidence for. https://www.viestintavirasto.fi/en/internettelephone/numberingoftelecommunicationsnetworks/internationalcalls/internationalcarrieraccesscodes.html -->\n",
   str% "    <!-- Not supporting national long distance carrier codes as these are overlapping with UAN\n",
   str% "         ranges mentioned in ITU doc. -->\n",
   str% "    <!-- https://www.viestintavirasto.fi/internetpuhelin/puhelinverkonnumerointi.html -->\n",
   str% "    <territory id=\"FI\" mainCountryForCode=\"true\" countryCode=\"358\" leadingDigits=\"1[03-79]|[2-9]\"\n",
   str% "               preferredInternationalPrefix=\"00\"\n",
   str% "               internationalPrefix=\"00|99(?:[01469]|5(?:[14]1|3[23]|5[59]|77|88|9[09]))\"\n",
   str% "               nationalPrefix=\"0\" mobileNumberPortableRegion=\"true\">\n",
   str% "      <availableFormats>\n",
   str% "        <!-- Most service numbers are included under UAN in PhoneNumberMetadata.xml (and also in\n",
   str% "             the no-international-dialling block) but prefixes 75[12] are always short and used\n",
   str% "             for directory services so are covered in ShortNumberMetadata.xml intead. However,\n",
   str% "             they still need a national prefix so we have a formatting rule here. -->\n",
   str% "        <numberFormat pattern=\"(\\d{5})\" nationalPrefixFormattingRule=\"$NP$FG\">\n",
   str% "          <leadingDigits>75[12]</leadingDigits>\n",
   str% "          <format>$1</format>\n",
   str% "          <intlFormat>NA</intlFormat>\n",
   str% "        </numberFormat>\n",
   str% "        <!-- Format for 5 digit UAN numbers. -->\n",
   str% "        <numberFormat pattern=\"(\\d{5})\" nationalPrefixFormattingRule=\"$NP$FG\">\n",
   str% "          <leadingDigits>20[2-59]</leadingDigits>\n",
   str% "          <format>$1</format>\n",
   str% "        </numberFormat>\n",
   str% "        <!-- Format for 6 digit short codes. -->\n",
   str% "        <numberFormat pattern=\"(\\d{6})\">\n",
   str% "          <leadingDigits>11</leadingDigits>\n",
   str% "          <format>$1</format>\n",
   str% "          <intlFormat>NA</intlFormat>\n",
   str% "        </numberFormat>\n",
   str% "        <!-- General format for 3-digit prefix (6-10 digit numbers). -->\n",
   str% "        <numberFormat pattern=\"(\\d{3})(\\d{3,7})\" nationalPrefixFormattingRule=\"$NP$FG\">\n",
   str% "          <leadingDigits>\n",
   str% "            (?:\n",
   str% "              [1-3]0|\n",
   str% "              [68]\n",
   str% "            )0|\n",
   str% "            70[07-9]\n",
   str% "          </leadingDigits>\n",
   str% "          <format>$1 $2</format>\n",
   str% "        </numberFormat>\n",
   str% "        <!-- General format for 2-digit prefix (6-10 digit numbers). -->\n",
   str% "        <numberFormat pattern=\"(\\d{2})(\\d{4,8})\" nationalPrefixFormattingRule=\"$NP$FG\">\n",
   str% "          <leadingDigits>\n",
   str% "            [14]|\n",
   str% "            2[09]|\n",
   str% "            50|\n",
   str% "            7[135]\n",
   str% "          </leadingDigits>\n",
   str% "          <format>$1 $2</format>\n",
   str% "        </numberFormat>\n",
   str% "        <numberFormat pattern=\"(\\d{2})(\\d{6,10})\" nationalPrefixFormattingRule=\"$NP$FG\">\n",
   str% "          <leadingDigits>7</leadingDigits>\n",
   str% "          <format>$1 $2</format>\n",
   str% "        </numberFormat>\n",
   str% "        <!-- General format for 1-digit prefix (5-10 digit numbers). -->\n",
   str% "        <numberFormat pattern=\"(\\d)(\\d{4,9})\" nationalPrefixFormattingRule=\"$NP$FG\">\n",
   str% "          <leadingDigits>\n",
   str% "            (?:\n",
   str% "              19|\n",
   str% "              [2568]\n",
   str% "            )[1-8]|\n",
   str% "            3(?:\n",
   str% "              0[1-9]|\n",
   str% "              [1-9]\n",
   str% "            )|\n",
   str% "            9\n",
   str% "          </leadingDigits>\n",
   str% "          <format>$1 $2</format>\n",
   str% "        </numberFormat>\n",
   str% "      </availableFormats>\n",
   str% "      <generalDesc>\n",
   str% "        <nationalNumberPattern>\n",
   str% "          [1-35689]\\d{4}|\n",
   str% "          7\\d{10,11}|\n",
   str% "          (?:\n",
   str% "            [124-7]\\d|\n",
   str% "            3[0-46-9]\n",
   str% "          )\\d{8}|\n",
   str% "          [1-9]\\d{5,8}\n",
   str% "        </nationalNumberPattern>\n",
   str% "      </generalDesc>\n",
   str% "      <!-- According to the national numbering plan, service numbers are in general not accessible\n",
   str% "           from abroad, although 600/700/800 numbers may be. -->\n",
   str% "      <noInternationalDialling>\n",
   str% "        <possibleLengths national=\"[5-12]\"/>\n",
   str% "        <nationalNumberPattern>\n",
   str% "          20(?:\n",
   str% "            2[023]|\n",
   str% "            9[89]\n",
   str% "          )\\d{1,6}|\n",
   str% "          (?:\n",
   str% "            60[12]\\d|\n",
   str% "            7099\n",
   str% "          )\\d{4,5}|\n",
   str% "          (?:\n",
   str% "            606|\n",
   str% "            7(?:\n",
   str% "              0[78]|\n",
   str% "              1|\n",
   str% "              3\\d\n",
   str% "            )\n",
   str% "          )\\d{7}|\n",
   str% "          (?:\n",
   str% "            [1-3]00|\n",
   str% "            7(?:\n",
   str% "              0[1-5]\\d\\d|\n",
   str% "              5[03-9]\n",
   str% "            )\n",
   str% "          )\\d{3,7}\n",
   str% "        </nationalNumberPattern>\n",
   str% "      </noInternationalDialling>\n",
   str% "      <!-- This is limited to geographic numbers - non-geographic nationwide subscriber numbers\n",
   str% "           are listed under UAN. It also excludes \u00C5land numbers.  Only 5, 7, 8 and 9 digit numbers\n",
   str% "           are possible as per www.viestintavirasto.fi's plan. Supporting other lengths based on\n",
   str% "           user reports. -->\n",
   str% "      <fixedLine>\n",
   str% "        <possibleLengths national=\"[5-9]\"/>\n",
   str% "        <exampleNumber>131234567</exampleNumber>\n",
   str% "        <nationalNumberPattern>\n",
   str% "          1[3-7][1-8]\\d{3,6}|\n",
   str% "          (?:\n",
   str% "            19[1-8]|\n",
   str% "            [23568][1-8]\\d|\n",
   str% "            9(?:\n",
   str% "              00|\n",
   str% "              [1-8]\\d\n",
   str% "            )\n",
   str% "          )\\d{2,6}\n",
   str% "        </nationalNumberPattern>\n",
   str% "      </fixedLine>\n",
   str% "      <!-- Only 8, 9 and 10 digit numbers are possible as per www.viestintavirasto.fi's plan.\n",
   str% "           Supporting other lengths based on user reports. -->\n",
   str% "      <mobile>\n",
   str% "        <possibleLengths national=\"[6-10]\"/>\n",
   str% "        <exampleNumber>412345678</exampleNumber>\n",
   str% "        <nationalNumberPattern>\n",
   str% "          4946\\d{2,6}|\n",
   str% "          (?:\n",
   str% "            4[0-8]|\n",
   str% "            50\n",
   str% "          )\\d{4,8}\n",
   str% "        </nationalNumberPattern>\n",
   str% "      </mobile>\n",
   str% "      <tollFree>\n",
   str% "        <possibleLengths national=\"[7-9]\"/>\n",
   str% "        <exampleNumber>800123456</exampleNumber>\n",
   str% "        <nationalNumberPattern>800\\d{4,6}</nationalNumberPattern>\n",
   str% "      </tollFree>\n",
   str% "      <premiumRate>\n",
   str% "        <possibleLengths national=\"8,9\"/>\n",
   str% "        <exampleNumber>600123456</exampleNumber>\n",
   str% "        <nationalNumberPattern>[67]00\\d{5,6}</nationalNumberPattern>\n",
   str% "      </premiumRate>\n",
   str% "      <!-- Covers nationwide non-geographic numbers, and nationwide \"service numbers\", typically\n",
   str% "           assigned to institutions such as universities, the national post, etc, where they are\n",
   str% "           not otherwise classified as toll-free or premium-rate numbers. -->\n",
   str% "      <uan>\n",
   str% "        <possibleLengths national=\"[5-12]\"/>\n",
   str% "        <exampleNumber>10112345</exampleNumber>\n",
   str% "        <nationalNumberPattern>\n",
   str% "          20\\d{4,8}|\n",
   str% "          60[12]\\d{5,6}|\n",
   str% "          7(?:\n",
   str% "            099\\d{4,5}|\n",
   str% "            5[03-9]\\d{3,7}\n",
   str% "          )|\n",
   str% "          20[2-59]\\d\\d|\n",
   str% "          (?:\n",
   str% "            606|\n",
   str% "            7(?:\n",
   str% "              0[78]|\n",
   str% "              1|\n",
   str% "              3\\d\n",
   str% "            )\n",
   str% "          )\\d{7}|\n",
   str% "          (?:\n",
   str% "            10|\n",
   str% "            29|\n",
   str% "            3[09]|\n",
   str% "            70[1-5]\\d\n",
   str% "          )\\d{4,8}\n",
   str% "        </nationalNumberPattern>\n",
   str% "      </uan>\n",
   str% "    </territory>"]

/-- the text up to the end of territory id=FJ countryCode=679 -/
noncomputable def FJ : List Str :=
  [str% "\n",
   str% "\n",
   str% "    <!-- Fiji (FJ) -->\n",
   str% "    <!-- http://www.itu.int/oth/T0202000048/en -->\n",
   str% "    <!-- http://www.tfl.com.fj -->\n",
   str% "    <territory id=\"FJ\" countryCode=\"679\" preferredInternationalPrefix=\"00\"\n",
   str% "               internationalPrefix=\"0(?:0|52)\">\n",
   str% "      <availableFormats>\n",
   str% "        <numberFormat pattern=\"(\\d{3})(\\d{4})\">\n",
   str% "          <leadingDigits>\n",
   str% "            [235-9]|\n",
   str% "            45\n",
   str% "          </leadingDigits>\n",
   str% "          <format>$1 $2</format>\n",
   str% "        </numberFormat>\n",
   str% "        <numberFormat pattern=\"(\\d{4})(\\d{3})(\\d{4})\">\n",
   str% "          <leadingDigits>0</leadingDigits>\n",
   str% "          <format>$1 $2 $3</format>\n",
   str% "        </numberFormat>\n",
   str% "      </availableFormats>\n",
   str% "      <generalDesc>\n",
   str% "        <nationalNumberPattern>\n",
   str% "          45\\d{5}|\n",
   str% "          (?:\n",
   str% "            0800\\d|\n",
   str% "            [235-9]\n",
   str% "          )\\d{6}\n",
   str% "        </nationalNumberPattern>\n",
   str% "      </generalDesc>\n",
   str% "      <!-- Adding the prefixes 30X, 31X and 62X, since numbers with these prefixes have been found\n",
   str% "           online, including in the white pages. 35X and 85X were found in the exchanges listed on\n",
   str% "           http://www.tfl.com.fj. Prefix 603 is added based on user report and online results. -->\n",
   str% "      <fixedLine>\n",
   str% "        <possibleLengths national=\"7\"/>\n",
   str% "        <exampleNumber>3212345</exampleNumber>\n",
   str% "        <nationalNumberPattern>\n",
   str% "          603\\d{4}|\n",
   str% "          (?:\n",
   str% "            3[0-5]|\n",
   str% "            6[25-7]|\n",
   str% "            8[58]\n",
   str% "          )\\d{5}\n",
   str% "        </nationalNumberPattern>\n",
   str% "      </fixedLine>\n",
   str% "      <mobile>\n",
   str% "        <possibleLengths national=\"7\"/>\n",
   str% "        <exampleNumber>7012345</exampleNumber>\n",
   str% "        <nationalNumberPattern>\n",
   str% "          (?:\n",
   str% "            [279]\\d|\n",
   str% "            45|\n",
   str% "            5[01568]|\n",
   str% "            8[034679]\n",
   str% "          )\\d{5}\n",
   str% "        </nationalNumberPattern>\n",
   str% "      </mobile>\n",
   str% "      <!-- Information found on http://www.tfl.com.fj. It is not clear if these are\n",
   str% "           internationally diallable, or if so, how. -->\n",
   str% "      <tollFree>\n",
   str% "        <possibleLengths national=\"11\"/>\n",
   str% "        <exampleNumber>08001234567</exampleNumber>\n",
   str% "        <nationalNumberPattern>0800\\d{7}</nationalNumberPattern>\n",
   str% "      </tollFree>\n",
   str% "    </territory>"]

/-- the text up to the end of territory id=FK countryCode=500 -/
noncomputable def FK : List Str :=
  [str% "\n",
   str% "\n",
   str% "    <!-- Falkland Islands (Islas Malvinas) (FK) -->\n",
   str% "    <!-- http://www.itu.int/oth/T0202000046/en -->\n",
   str% "    <territory id=\"FK\" countryCode=\"500\" internationalPrefix=\"00\">\n",
   str% "      <generalDesc>\n",
   str% "        <nationalNumberPattern>[2-7]\\d{4}</nationalNumberPattern>\n",
   str% "      </generalDesc>\n",
   str% "      <fixedLine>\n",
   str% "        <possibleLengths national=\"5\"/>\n",
   str% "        <exampleNumber>31234</exampleNumber>\n",
   str% "        <nationalNumberPattern>[2-47]\\d{4}</nationalNumberPattern>\n",
   str% "      </fixedLine>\n",
   str% "      <mobile>\n",
   str% "        <possibleLengths national=\"5\"/>\n",
   str% "        <exampleNumber>51234</exampleNumber>\n",
   str% "        <nationalNumberPattern>[56]\\d{4}</nationalNumberPattern>\n",
   str% "      </mobile>\n",
   str% "    </territory>"]

/-- the text up to the end of territory id=FM countryCode=691 -/
noncomputable def FM : List Str :=
  [str% "\n",
   str% "\n",
   str% "    <!-- Micronesia (FM) -->\n",
   str% "    <!-- http://www.itu.int/oth/T020200008B/en -->\n",
   str% "    <territory id=\"FM\" countryCode=\"691\" internationalPrefix=\"00\">\n",
   str% "      <availableFormats>\n",
   str% "        <numberFormat pattern=\"(\\d{3})(\\d{4})\">\n",
   str% "          <leadingDigits>[389]</leadingDigits>\n",
   str% "          <format>$1 $2</format>\n",
   str% "        </numberFormat>\n",
   str% "      </availableFormats>\n",
   str% "      <generalDesc>\n",
   str% "        <nationalNumberPattern>\n",
   str% "          (?:\n",
   str% "            [39]\\d\\d|\n",
   str% "            820\n",
   str% "          )\\d{4}\n",
   str% "        </nationalNumberPattern>\n",
   str% "      </generalDesc>\n",
   str% "      <fixedLine>\n",
   str% "        <possibleLengths national=\"7\"/>\n",
   str% "        <exampleNumber>3201234</exampleNumber>\n",
   str% "        <nationalNumberPattern>\n",
   str% "          31(?:\n",
   str% "            00[67]|\n",
   str% "            208|\n",
   str% "            309\n",
   str% "          )\\d\\d|\n",
   str% "          (?:\n",
   str% "            3(?:\n",
   str% "              [2357]0[1-9]|\n",
   str% "              602|\n",
   str% "              804|\n",
   str% "              905\n",
   str% "            )|\n",
   str% "            (?:\n",
   str% "              820|\n",
   str% "              9[2-6]\\d\n",
   str% "            )\\d\n",
   str% "          )\\d{3}\n",
   str% "        </nationalNumberPattern>\n",
   str% "      </fixedLine>\n",
   str% "      <!-- Note that most ranges are used for both fixed and mobile but numbers starting with 97X\n",
   str% "           are exclusively mobile. -->\n",
   str% "      <mobile>\n",
   str% "        <possibleLengths national=\"7\"/>\n",
   str% "        <exampleNumber>3501234</exampleNumber>\n",
   str% "        <nationalNumberPattern>\n",
   str% "          31(?:\n",
   str% "            00[67]|\n",
   str% "            208|\n",
   str% "            309\n",
   str% "          )\\d\\d|\n",
   str% "          (?:\n",
   str% "            3(?:\n",
   str% "              [2357]0[1-9]|\n",
   str% "              602|\n",
   str% "              804|\n",
   str% "              905\n",
   str% "            )|\n",
   str% "            (?:\n",
   str% "              820|\n",
   str% "              9[2-7]\\d\n",
   str% "            )\\d\n",
   str% "          )\\d{3}\n",
   str% "        </nationalNumberPattern>\n",
   str% "      </mobile>\n",
   str% "    </territory>"]

/-- the text up to the end of territory id=FO countryCode=298 -/
noncomputable def FO : List Str :=
  [str% "\n",
   str% "\n",
   str% "    <!-- Faroe Islands (FO) -->\n",
   str% "    <!-- http://www.itu.int/oth/T0202000047/en -->\n",
   str% "    <!-- All numbers are formatted together, as a block. -->\n",
   str% "    <territory id=\"FO\" countryCode=\"298\" internationalPrefix=\"00\"\n",
   str% "               nationalPrefixForParsing=\"(10(?:01|[12]0|88))\">\n",
   str% "      <availableFormats>\n",
   str% "        <numberFormat pattern=\"(\\d{6})\" carrierCodeFormattingRule=\"$CC $FG\">\n",
   str% "          <leadingDigits>[2-9]</leadingDigits>\n",
   str% "          <format>$1</format>\n",
   str% "        </numberFormat>\n",
   str% "      </availableFormats>\n",
   str% "      <generalDesc>\n",
   str% "        <nationalNumberPattern>[2-9]\\d{5}</nationalNumberPattern>\n",
   str% "      </generalDesc>\n",
   str% "      <fixedLine>\n",
   str% "        <possibleLengths national=\"6\"/>\n",
   str% "        <exampleNumber>201234</exampleNumber>\n",
   str% "        <nationalNumberPattern>\n",
   str% "          (?:\n",
   str% "            20|\n",
   str% "            [34]\\d|\n",
   str% "            8[19]\n",
   str% "          )\\d{4}\n",
   str% "        </nationalNumberPattern>\n",
   str% "      </fixedLine>\n",
   str% "      <mobile>\n",
   str% "        <possibleLengths national=\"6\"/>\n",
   str% "        <exampleNumber>211234</exampleNumber>\n",
   str% "        <nationalNumberPattern>\n",
   str% "          (?:\n",
   str% "            [27][1-9]|\n",
   str% "            5\\d|\n",
   str% "            9[16]\n",
   str% "          )\\d{4}\n",
   str% "        </nationalNumberPattern>\n",
   str% "      </mobile>\n",
   str% "      <tollFree>\n",
   str% "        <possibleLengths national=\"6\"/>\n",
   str% "        <exampleNumber>802123</exampleNumber>\n",
   str% "        <nationalNumberPattern>80[257-9]\\d{3}</nationalNumberPattern>\n",
   str% "      </tollFree>\n",
   str% "      <premiumRate>\n",
   str% "        <possibleLengths national=\"6\"/>\n",
   str% "        <exampleNumber>901123</exampleNumber>\n",
   str% "        <nationalNumberPattern>\n",
   str% "          90(?:\n",
   str% "            [13-5][15-7]|\n",
   str% "            2[125-7]|\n",
   str% "            9\\d\n",
   str% "          )\\d\\d\n",
   str% "        </nationalNumberPattern>\n",
   str% "      </premiumRate>\n",
   str% "      <voip>\n",
   str% "        <possibleLengths national=\"6\"/>\n",
   str% "        <exampleNumber>601234</exampleNumber>\n",
   str% "        <nationalNumberPattern>\n",
   str% "          (?:\n",
   str% "            6[0-36]|\n",
   str% "            88\n",
   str% "          )\\d{4}\n",
   str% "        </nationalNumberPattern>\n",
   str% "      </voip>\n",
   str% "    </territory>"]

/-- the text up to the end of territory id=FR countryCode=33 -/
noncomputable def FR : List Str :=
  [str% "\n",
   str% "\n",
   str% "    <!-- France (FR) -->\n",
   str% "    <!-- http://www.itu.int/oth/T020200004A/en -->\n",
   str% "    <!-- http://www.arcep.fr/index.php?id=8146 -->\n",
   str% "    <!-- http://en.wikipedia.org/wiki/%2B33 -->\n",
   str% "    <!-- https://extranet.arcep.fr/portail/Op%C3%A9rateursCE/Num%C3%A9rotation.aspx -->\n",
   str% "    <!-- Short numbers will be formatted as a block without a national prefix. -->\n",
   str% "    <territory id=\"FR\" countryCode=\"33\" internationalPrefix=\"00\" nationalPrefix=\"0\"\n",
   str% "               mobileNumberPortableRegion=\"true\">\n",
   str% "      <availableFormats>\n",
   str% "        <!-- 4-digit shortcodes. -->\n",
   str% "        <numberFormat pattern=\"(\\d{4})\">\n",
   str% "          <leadingDigits>10</leadingDigits>\n",
   str% "          <format>$1</format>\n",
   str% "          <intlFormat>NA</intlFormat>\n",
   str% "        </numberFormat>\n",
   str% "        <!-- 6-digit shortcodes. -->\n",
   str% "        <numberFormat pattern=\"(\\d{3})(\\d{3})\">\n",
   str% "          <leadingDigits>1</leadingDigits>\n",
   str% "          <format>$1 $2</format>\n",
   str% "          <intlFormat>NA</intlFormat>\n",
   str% "        </numberFormat>\n",
   str% "        <!-- Variable cost (toll free, premium rate etc.) -->\n",
   str% "        <numberFormat pattern=\"(\\d{3})(\\d{2})(\\d{2})(\\d{2})\" nationalPrefixFormattingRule=\"$NP $FG\">\n",
   str% "          <leadingDigits>8</leadingDigits>\n",
   str% "          <format>$1 $2 $3 $4</format>\n",
   str% "        </numberFormat>\n",
   str% "        <!-- General format (fixed, mobile, voip) -->\n",
   str% "        <numberFormat pattern=\"(\\d)(\\d{2})(\\d{2})(\\d{2})(\\d{2})\"\n",
   str% "                      nationalPrefixFormattingRule=\"$NP$FG\">\n",
   str% "          <leadingDigits>[1-79]</leadingDigits>\n",
   str% "          <format>$1 $2 $3 $4 $5</format>\n",
   str% "        </numberFormat>\n",
   str% "      </availableFormats>\n",
   str% "      <generalDesc>\n",
   str% "        <nationalNumberPattern>[1-9]\\d{8}</nationalNumberPattern>\n",
   str% "      </generalDesc>\n",
   str% "      <fixedLine>\n",
   str% "        <possibleLengths national=\"9\"/>\n",
   str% "        <exampleNumber>123456789</exampleNumber>\n",
   str% "        <nationalNumberPattern>\n",
   str% "          (?:\n",
   str% "            26[013-9]|\n",
   str% "            59[1-35-9]\n",
   str% "          )\\d{6}|\n",
   str% "          (?:\n",
   str% "            [13]\\d|\n",
   str% "            2[0-57-9]|\n",
   str% "            4[1-9]|\n",
   str% "            5[0-8]\n",
   str% "          )\\d{7}\n",
   str% "        </nationalNumberPattern>\n",
   str% "      </fixedLine>\n",
   str% "      <!-- 700 numbers are mobile phone services as per https://www.arcep.fr/index.php?id=8146\n",
   str% "           where length is mentioned as 'extended length numbers'. As we are not sure, supporting\n",
   str% "           it as regular 9 digit range. Sub ranges are assigned to mobile operators as per:\n",
   str% "           https://www.arcep.fr/index.php?id=interactivenumeros&no_cache=1 -->\n",
   str% "      <mobile>\n",
   str% "        <possibleLengths national=\"9\"/>\n",
   str% "        <exampleNumber>612345678</exampleNumber>\n",
   str% "        <nationalNumberPattern>\n",
   str% "          (?:\n",
   str% "            6(?:\n",
   str% "              [0-24-8]\\d|\n",
   str% "              3[0-8]|\n",
   str% "              9[589]\n",
   str% "            )|\n",
   str% "            7[3-9]\\d\n",
   str% "          )\\d{6}\n",
   str% "        </nationalNumberPattern>\n",
   str% "      </mobile>\n",
   str% "      <tollFree>\n",
   str% "        <possibleLengths national=\"9\"/>\n",
   str% "        <exampleNumber>801234567</exampleNumber>\n",
   str% "        <nationalNumberPattern>80[0-5]\\d{6}</nationalNumberPattern>\n",
   str% "      </tollFree>\n",
   str% "      <premiumRate>\n",
   str% "        <possibleLengths national=\"9\"/>\n",
   str% "        <exampleNumber>891123456</exampleNumber>\n",
   str% "        <nationalNumberPattern>\n",
   str% "          836(?:\n",
   str% "            0[0-36-9]|\n",
   str% "            [1-9]\\d\n",
   str% "          )\\d{4}|\n",
   str% "          8(?:\n",
   str% "            1[2-9]|\n",
   str% "            2[2-47-9]|\n",
   str% "            3[0-57-9]|\n",
   str% "            [569]\\d|\n",
   str% "            8[0-35-9]\n",
   str% "          )\\d{6}\n",
   str% "        </nationalNumberPattern>\n",
   str% "      </premiumRate>\n",
   str% "      <sharedCost>\n",
   str% "        <possibleLengths national=\"9\"/>\n",
   str% "        <exampleNumber>884012345</exampleNumber>\n",
   str% "        <nationalNumberPattern>\n",
   str% "          8(?:\n",
   str% "            1[01]|\n",
   str% "            2[0156]|\n",
   str% "            4[024]|\n",
   str% "            84\n",
   str% "          )\\d{6}\n",
   str% "        </nationalNumberPattern>\n",
   str% "      </sharedCost>\n",
   str% "      <!-- 087 numbers used to be used for this. -->\n",
   str% "      <voip>\n",
   str% "        <possibleLengths national=\"9\"/>\n",
   str% "        <exampleNumber>912345678</exampleNumber>\n",
   str% "        <nationalNumberPattern>9\\d{8}</nationalNumberPattern>\n",
   str% "      </voip>\n",
   str% "      <!-- 80[6-9] numbers cost the same as fixed-line calls, but are not geographically assigned,\n",
   str% "           so we classify them as UAN. -->\n",
   str% "      <uan>\n",
   str% "        <possibleLengths national=\"9\"/>\n",
   str% "        <exampleNumber>806123456</exampleNumber>\n",
   str% "        <nationalNumberPattern>80[6-9]\\d{6}</nationalNumberPattern>\n",
   str% "      </uan>\n",
   str% "    </territory>"]

/-- the text up to the end of territory id=GA countryCode=241 -/
noncomputable def GA : List Str :=
  [str% "\n",
   str% "\n",
   str% "    <!-- Gabon (GA) -->\n",
   str% "    <!-- Note: We cannot set nationalPrefix=\"0\" while fixed line numbers can start with a zero\n",
   str% "         as this breaks parsing (it treats all leading zeros as national prefixes. -->\n",
   str% "    <!-- http://www.itu.int/oth/T020200004E/en -->\n",
   str% "    <!-- http://www.arcep.ga -->\n",
   str% "    <territory id=\"GA\" countryCode=\"241\" internationalPrefix=\"00\"\n",
   str% "               nationalPrefixForParsing=\"0(11\\d{6}|60\\d{6}|61\\d{6}|6[256]\\d{6}|7[467]\\d{6})\"\n",
   str% "               nationalPrefixTransformRule=\"$1\">\n",
   str% "      <availableFormats>\n",
   str% "        <!-- If no leading zero was supplied, format with the national prefix. -->\n",
   str% "        <numberFormat pattern=\"(\\d)(\\d{2})(\\d{2})(\\d{2})\" nationalPrefixFormattingRule=\"0$FG\">\n",
   str% "          <leadingDigits>[2-7]</leadingDigits>\n",
   str% "          <format>$1 $2 $3 $4</format>\n",
   str% "        </numberFormat>\n",
   str% "        <!-- This already has a leading zero so we format is \"as is\". -->\n",
   str% "        <numberFormat pattern=\"(\\d{2})(\\d{2})(\\d{2})(\\d{2})\">\n",
   str% "          <leadingDigits>0</leadingDigits>\n",
   str% "          <format>$1 $2 $3 $4</format>\n",
   str% "        </numberFormat>\n",
   str% "        <!-- Even in new way of dialling, 0 is mandatory when dialling domestically. -->\n",
   str% "        <numberFormat pattern=\"(\\d{2})(\\d{2})(\\d{2})(\\d{2})\" nationalPrefixFormattingRule=\"0$FG\">\n",
   str% "          <leadingDigits>\n",
   str% "            11|\n",
   str% "            [67]\n",
   str% "          </leadingDigits>\n",
   str% "          <format>$1 $2 $3 $4</format>\n",
   str% "        </numberFormat>\n",
   str% "      </availableFormats>\n",
   str% "      <generalDesc>\n",
   str% "        <nationalNumberPattern>\n",
   str% "          (?:\n",
   str% "            [067]\\d|\n",
   str% "            11\n",
   str% "          )\\d{6}|\n",
   str% "          [2-7]\\d{6}\n",
   str% "        </nationalNumberPattern>\n",
   str% "      </generalDesc>\n",
   str% "      <!-- Gabon has undergone renumbering in November 2019 where the prefix 01 is changed to 011;\n",
   str% "           and initial \"0\" is no more needed when dialled internationally. Thus they become 7 digit\n",
   str% "           to 8 digit excluding 0. -->\n",
   str% "      <!-- About numbers in older version, which may soon get invalid:\n",
   str% "           A 7-digit fixed-line plan was scheduled to be implemented on June 17, 2012 to unify fixed\n",
   str% "           line and mobile numbering. However, this has only partially happened; mobile numbers can\n",
   str% "           now be dialed without a leading zero, but fixed line numbers still require it. Their own\n",
   str% "           website still lists fixed line numbers as \"+241 01 44 68 11\" and upon ringing they will\n",
   str% "           not connect from outside the country without the 0. This was last tested March 2014. -->\n",
   str% "      <fixedLine>\n",
   str% "        <possibleLengths national=\"8\"/>\n",
   str% "        <exampleNumber>01441234</exampleNumber>\n",
   str% "        <nationalNumberPattern>[01]1\\d{6}</nationalNumberPattern>\n",
   str% "      </fixedLine>\n",
   str% "      <!-- Gabon has undergone renumbering in November 2019 where the prefixes 0[256] are changed\n",
   str% "           to 6[256] respectively and similarly 0[47] changed to 7[47]. The initial \"0\" is no more\n",
   str% "           needed when dialled internationally. Thus they become 7 digit to 8 digit excluding 0. -->\n",
   str% "      <!-- About old numbers, which may soon get invalid: Mobile numbers can be 7 or 8 digits\n",
   str% "           (with or without a leading zero). -->\n",
   str% "      <!-- Prefix 7658 is added based on user report. -->\n",
   str% "      <mobile>\n",
   str% "        <possibleLengths national=\"7,8\"/>\n",
   str% "        <exampleNumber>06031234</exampleNumber>\n",
   str% "        <nationalNumberPattern>\n",
   str% "          (?:\n",
   str% "            (?:\n",
   str% "              0[2-7]|\n",
   str% "              7[467]\n",
   str% "            )\\d|\n",
   str% "            6(?:\n",
   str% "              0[0-4]|\n",
   str% "              10|\n",
   str% "              [256]\\d\n",
   str% "            )\n",
   str% "          )\\d{5}|\n",
   str% "          [2-7]\\d{6}\n",
   str% "        </nationalNumberPattern>\n",
   str% "      </mobile>\n",
   str% "    </territory>"]

/-- the text up to the end of territory id=GB countryCode=44 -/
noncomputable def GB : List Str :=
  [str% "\n",
   str% "\n",
   str% "    <!-- United Kingdom (GB) -->\n",
   str% "    <!-- Main region for 'GG,IM,JE' -->\n",
   str% "    <!-- Note that this excludes Isle of Man, Jersey and Guernsey prefixes for the purposes of\n",
   str% "         validation, although the formatting rules are shared. Also numbers are fine-grained where\n",
   str% "         needed in order to disambiguate between the 4 regions. -->\n",
   str% "    <!-- https://www.ofcom.org.uk/phones-and-broadband/phone-numbers/numbering-data -->\n",
   str% "    <!-- http://en.wikipedia.org/wiki/List_of_United_Kingdom_dialling_codes -->\n",
   str% "    <!-- http://www.numberingplans.com/?page=dialling&sub=areacodes&ac=GB -->\n",
   str% "    <territory id=\"GB\" mainCountryForCode=\"true\" countryCode=\"44\" internationalPrefix=\"00\"\n",
   str% "               nationalPrefix=\"0\" nationalPrefixForParsing=\"0|180020\" preferredExtnPrefix=\" x\"\n",
   str% "               mobileNumberPortableRegion=\"true\">\n",
   str% "      <availableFormats>\n",
   str% "        <!-- Special case: 800 1111 (UK Child Line). -->\n",
   str% "        <numberFormat pattern=\"(\\d{3})(\\d{4})\" nationalPrefixFormattingRule=\"$NP$FG\">\n",
   str% "          <leadingDigits>800</leadingDigits>\n",
   str% "          <leadingDigits>8001</leadingDigits>\n",
   str% "          <leadingDigits>80011</leadingDigits>\n",
   str% "          <leadingDigits>800111</leadingDigits>\n",
   str% "          <leadingDigits>8001111</leadingDigits>\n",
   str% "          <format>$1 $2</format>\n",
   str% "        </numberFormat>\n",
   str% "        <!-- Special case: 845 46 47 (UK NHS Direct). -->\n",
   str% "        <numberFormat pattern=\"(\\d{3})(\\d{2})(\\d{2})\" nationalPrefixFormattingRule=\"$NP$FG\">\n",
   str% "          <leadingDigits>845</leadingDigits>\n",
   str% "          <leadingDigits>8454</leadingDigits>\n",
   str% "          <leadingDigits>84546</leadingDigits>\n",
   str% "          <leadingDigits>845464</leadingDigits>\n",
   str% "          <format>$1 $2 $3</format>\n",
   str% "        </numberFormat>\n",
   str% "        <!-- Shorter than normal toll-free numbers (9-digits). -->\n",
   str% "        <numberFormat pattern=\"(\\d{3})(\\d{6})\" nationalPrefixFormattingRule=\"$NP$FG\">\n",
   str% "          <leadingDigits>800</leadingDigits>\n",
   str% "          <format>$1 $2</format>\n",
   str% "        </numberFormat>\n",
   str% "        <!-- 5-digit area codes (9 or 10 digit numbers).\n",
   str% "             These area codes are very rare in GB, and are only available in the following places:\n",
   str% "             13873(Langholm), 15242(Hornby), 15394(Hawkshead), 15395(Grange-over-Sands),\n",
   str% "             15396(Sedbergh), 16973(Wigton), 16974(Raughton Head), 16977(Brampton),\n",
   str% "             17683(Appleby), 17684(Pooley Bridge), 17687(Keswick), 19467(Gosforth). -->\n",
   str% "        <numberFormat pattern=\"(\\d{5})(\\d{4,5})\" nationalPrefixFormattingRule=\"$NP$FG\">\n",
   str% "          <leadingDigits>\n",
   str% "            1(?:\n",
   str% "              38|\n",
   str% "              5[23]|\n",
   str% "              69|\n",
   str% "              76|\n",
   str% "              94\n",
   str% "            )\n",
   str% "          </leadingDigits>\n",
   str% "          <leadingDigits>\n",
   str% "            1(?:\n",
   str% "              (?:\n",
   str% "                38|\n",
   str% "                69\n",
   str% "              )7|\n",
   str% "              5(?:\n",
   str% "                24|\n",
   str% "                39\n",
   str% "              )|\n",
   str% "              768|\n",
   str% "              946\n",
   str% "            )\n",
   str% "          </leadingDigits>\n",
   str% "          <leadingDigits>\n",
   str% "            1(?:\n",
   str% "              3873|\n",
   str% "              5(?:\n",
   str% "                242|\n",
   str% "                39[4-6]\n",
   str% "              )|\n",
   str% "              (?:\n",
   str% "                697|\n",
   str% "                768\n",
   str% "              )[347]|\n",
   str% "              9467\n",
   str% "            )\n",
   str% "          </leadingDigits>\n",
   str% "          <format>$1 $2</format>\n",
   str% "        </numberFormat>\n",
   str% "        <!-- 4-digit area codes (9 or 10 digit numbers). -->\n",
   str% "        <numberFormat pattern=\"(\\d{4})(\\d{5,6})\" nationalPrefixFormattingRule=\"$NP$FG\">\n",
   str% "          <leadingDigits>\n",
   str% "            1(?:\n",
   str% "              [2-69][02-9]|\n",
   str% "              [78]\n",
   str% "            )\n",
   str% "          </leadingDigits>\n",
   str% "          <format>$1 $2</format>\n",
   str% "        </numberFormat>\n",
   str% "        <!-- 2-digit area codes and other 2-4-4 formats (pager, uan etc.)\n",
   str% "             2d, 55, 56, 70 and 76 pager numbers (excludes 7624) with 10 digits. -->\n",
   str% "        <numberFormat pattern=\"(\\d{2})(\\d{4})(\\d{4})\" nationalPrefixFormattingRule=\"$NP$FG\">\n",
   str% "          <leadingDigits>\n",
   str% "            [25]|\n",
   str% "            7(?:\n",
   str% "              0|\n",
   str% "              6[02-9]\n",
   str% "            )\n",
   str% "          </leadingDigits>\n",
   str% "          <leadingDigits>\n",
   str% "            [25]|\n",
   str% "            7(?:\n",
   str% "              0|\n",
   str% "              6(?:\n",
   str% "                [03-9]|\n",
   str% "                2[356]\n",
   str% "              )\n",
   str% "            )\n",
   str% "          </leadingDigits>\n",
   str% "          <format>$1 $2 $3</format>\n",
   str% "        </numberFormat>\n",
   str% "        <!-- 7ddd (not 70, 76) with 10 digits. Includes 7624 for IM. -->\n",
   str% "        <numberFormat pattern=\"(\\d{4})(\\d{6})\" nationalPrefixFormattingRule=\"$NP$FG\">\n",
   str% "          <leadingDigits>7</leadingDigits>\n",
   str% "          <format>$1 $2</format>\n",
   str% "        </numberFormat>\n",
   str% "        <!-- 3-digit area codes and other 3-3-4 formats (fixed line, premium rate, toll free etc.)\n",
   str% "             For geographic area codes: 11d, 1d1, 3dd, 9dd -->\n",
   str% "        <numberFormat pattern=\"(\\d{3})(\\d{3})(\\d{4})\" nationalPrefixFormattingRule=\"$NP$FG\">\n",
   str% "          <leadingDigits>[1389]</leadingDigits>\n",
   str% "          <format>$1 $2 $3</format>\n",
   str% "        </numberFormat>\n",
   str% "      </availableFormats>\n",
   str% "      <generalDesc>\n",
   str% "        <nationalNumberPattern>\n",
   str% "          [1-357-9]\\d{9}|\n",
   str% "          [18]\\d{8}|\n",
   str% "          8\\d{6}\n",
   str% "        </nationalNumberPattern>\n",
   str% "      </generalDesc>\n",
   str% "      <!-- http://en.wikipedia.org/wiki/List_of_United_Kingdom_dialling_codes -->\n",
   str% "      <!-- Pattern matches geographic NSN=10 numbers as follows:\n",
   str% "           - area code and local number first digit for 2+8,\n",
   str% "           - area code and local number first digit for 3+7,\n",
   str% "           - area code only for 4+6 (including areas with embedded 5+5).\n",
   str% "           Pattern matches geographic NSN=9 numbers as follows:\n",
   str% "           - area code and local number first two digits for 4+5,\n",
   str% "           - area code and local number first three digits for 4+5 special case (01768) 88Ddd,\n",
   str% "           - area code and local number first digit for 5+4 special case (016977) Dddd.\n",
   str% "           All patterns exclude ranges used in GG, IM, JE. -->\n",
   str% "      <fixedLine>\n",
   str% "        <possibleLengths national=\"9,10\" localOnly=\"[4-8]\"/>\n",
   str% "        <exampleNumber>1212345678</exampleNumber>\n",
   str% "        <nationalNumberPattern>\n",
   str% "          (?:\n",
   str% "            1(?:\n",
   str% "              1(?:\n",
   str% "                3(?:\n",
   str% "                  [0-58]\\d\\d|\n",
   str% "                  73[0-5]\n",
   str% "                )|\n",
   str% "                4(?:\n",
   str% "                  (?:\n",
   str% "                    [0-5]\\d|\n",
   str% "                    70\n",
   str% "                  )\\d|\n",
   str% "                  69[7-9]\n",
   str% "                )|\n",
   str% "                (?:\n",
   str% "                  (?:\n",
   str% "                    5[0-26-9]|\n",
   str% "                    [78][0-49]\n",
   str% "                  )\\d|\n",
   str% "                  6(?:\n",
   str% "                    [0-4]\\d|\n",
   str% "                    5[01]\n",
   str% "                  )\n",
   str% "                )\\d\n",
   str% "              )|\n",
   str% "              (?:\n",
   str% "                2(?:\n",
   str% "                  (?:\n",
   str% "                    0[024-9]|\n",
   str% "                    2[3-9]|\n",
   str% "                    3[3-79]|\n",
   str% "                    4[1-689]|\n",
   str% "                    [58][02-9]|\n",
   str% "                    6[0-47-9]|\n",
   str% "                    7[013-9]|\n",
   str% "                    9\\d\n",
   str% "                  )\\d|\n",
   str% "                  1(?:\n",
   str% "                    [0-7]\\d|\n",
   str% "                    8[0-3]\n",
   str% "                  )\n",
   str% "                )|\n",
   str% "                (?:\n",
   str% "                  3(?:\n",
   str% "                    0\\d|\n",
   str% "                    1[0-8]|\n",
   str% "                    [25][02-9]|\n",
   str% "                    3[02-579]|\n",
   str% "                    [468][0-46-9]|\n",
   str% "                    7[1-35-79]|\n",
   str% "                    9[2-578]\n",
   str% "                  )|\n",
   str% "                  4(?:\n",
   str% "                    0[03-9]|\n",
   str% "                    [137]\\d|\n",
   str% "                    [28][02-57-9]|\n",
   str% "                    4[02-69]|\n",
   str% "                    5[0-8]|\n",
   str% "                    [69][0-79]\n",
   str% "                  )|\n",
   str% "                  5(?:\n",
   str% "                    0[1-35-9]|\n",
   str% "                    [16]\\d|\n",
   str% "                    2[024-9]|\n",
   str% "                    3[015689]|\n",
   str% "                    4[02-9]|\n",
   str% "                    5[03-9]|\n",
   str% "                    7[0-35-9]|\n",
   str% "                    8[0-468]|\n",
   str% "                    9[0-57-9]\n",
   str% "                  )|\n",
   str% "                  6(?:\n",
   str% "                    0[034689]|\n",
   str% "                    1\\d|\n",
   str% "                    2[0-35689]|\n",
   str% "                    [38][013-9]|\n",
   str% "                    4[1-467]|\n",
   str% "                    5[0-69]|\n",
   str% "                    6[13-9]|\n",
   str% "                    7[0-8]|\n",
   str% "                    9[0-24578]\n",
   str% "                  )|\n",
   str% "                  7(?:\n",
   str% "                    0[0246-9]|\n",
   str% "                    2\\d|\n",
   str% "                    3[0236-8]|\n",
   str% "                    4[03-9]|\n",
   str% "                    5[0-46-9]|\n",
   str% "                    6[013-9]|\n",
   str% "                    7[0-35-9]|\n",
   str% "                    8[024-9]|\n",
   str% "                    9[02-9]\n",
   str% "                  )|\n",
   str% "                  8(?:\n",
   str% "                    0[35-9]|\n",
   str% "                    2[1-57-9]|\n",
   str% "                    3[02-578]|\n",
   str% "                    4[0-578]|\n",
   str% "                    5[124-9]|\n",
   str% "                    6[2-69]|\n",
   str% "                    7\\d|\n",
   str% "                    8[02-9]|\n",
   str% "                    9[02569]\n",
   str% "                  )|\n",
   str% "                  9(?:\n",
   str% "                    0[02-589]|\n",
   str% "                    [18]\\d|\n",
   str% "                    2[02-689]|\n",
   str% "                    3[1-57-9]|\n",
   str% "                    4[2-9]|\n",
   str% "                    5[0-579]|\n",
   str% "                    6[2-47-9]|\n",
   str% "                    7[0-24578]|\n",
   str% "                    9[2-57]\n",
   str% "                  )\n",
   str% "                )\\d\n",
   str% "              )\\d\n",
   str% "            )|\n",
   str% "            2(?:\n",
   str% "              0[013478]|\n",
   str% "              3[0189]|\n",
   str% "              4[017]|\n",
   str% "              8[0-46-9]|\n",
   str% "              9[0-2]\n",
   str% "            )\\d{3}\n",
   str% "          )\\d{4}|\n",
   str% "          1(?:\n",
   str% "            2(?:\n",
   str% "              0(?:\n",
   str% "                46[1-4]|\n",
   str% "                87[2-9]\n",
   str% "              )|\n",
   str% "              545[1-79]|\n",
   str% "              76(?:\n",
   str% "                2\\d|\n",
   str% "                3[1-8]|\n",
   str% "                6[1-6]\n",
   str% "              )|\n",
   str% "              9(?:\n",
   str% "                7(?:\n",
   str% "                  2[0-4]|\n",
   str% "                  3[2-5]\n",
   str% "                )|\n",
   str% "                8(?:\n",
   str% "                  2[2-8]|\n",
   str% "                  7[0-47-9]|\n",
   str% "                  8[3-5]\n",
   str% "                )\n",
   str% "              )\n",
   str% "            )|\n",
   str% "            3(?:\n",
   str% "              6(?:\n",
   str% "                38[2-5]|\n",
   str% "                47[23]\n",
   str% "              )|\n",
   str% "              8(?:\n",
   str% "                47[04-9]|\n",
   str% "                64[0157-9]\n",
   str% "              )\n",
   str% "            )|\n",
   str% "            4(?:\n",
   str% "              044[1-7]|\n",
   str% "              20(?:\n",
   str% "                2[23]|\n",
   str% "                8\\d\n",
   str% "              )|\n",
   str% "              6(?:\n",
   str% "                0(?:\n",
   str% "                  30|\n",
   str% "                  5[2-57]|\n",
   str% "                  6[1-8]|\n",
   str% "                  7[2-8]\n",
   str% "                )|\n",
   str% "                140\n",
   str% "              )|\n",
   str% "              8(?:\n",
   str% "                052|\n",
   str% "                87[1-3]\n",
   str% "              )\n",
   str% "            )|\n",
   str% "            5(?:\n",
   str% "              2(?:\n",
   str% "                4(?:\n",
   str% "                  3[2-79]|\n",
   str% "                  6\\d\n",
   str% "                )|\n",
   str% "                76\\d\n",
   str% "              )|\n",
   str% "              6(?:\n",
   str% "                26[06-9]|\n",
   str% "                686\n",
   str% "              )\n",
   str% "            )|\n",
   str% "            6(?:\n",
   str% "              06(?:\n",
   str% "                4\\d|\n",
   str% "                7[4-79]\n",
   str% "              )|\n",
   str% "              295[5-7]|\n",
   str% "              35[34]\\d|\n",
   str% "              47(?:\n",
   str% "                24|\n",
   str% "                61\n",
   str% "              )|\n",
   str% "              59(?:\n",
   str% "                5[08]|\n",
   str% "                6[67]|\n",
   str% "                74\n",
   str% "              )|\n",
   str% "              9(?:\n",
   str% "                55[0-4]|\n",
   str% "                77[23]\n",
   str% "              )\n",
   str% "            )|\n",
   str% "            7(?:\n",
   str% "              26(?:\n",
   str% "                6[13-9]|\n",
   str% "                7[0-7]\n",
   str% "              )|\n",
   str% "              (?:\n",
   str% "                442|\n",
   str% "                688\n",
   str% "              )\\d|\n",
   str% "              50(?:\n",
   str% "                2[0-3]|\n",
   str% "                [3-68]2|\n",
   str% "                76\n",
   str% "              )\n",
   str% "            )|\n",
   str% "            8(?:\n",
   str% "              27[56]\\d|\n",
   str% "              37(?:\n",
   str% "                5[2-5]|\n",
   str% "                8[239]\n",
   str% "              )|\n",
   str% "              843[2-58]\n",
   str% "            )|\n",
   str% "            9(?:\n",
   str% "              0(?:\n",
   str% "                0(?:\n",
   str% "                  6[1-8]|\n",
   str% "                  85\n",
   str% "                )|\n",
   str% "                52\\d\n",
   str% "              )|\n",
   str% "              3583|\n",
   str% "              4(?:\n",
   str% "                66[1-8]|\n",
   str% "                9(?:\n",
   str% "                  2[01]|\n",
   str% "                  81\n",
   str% "                )\n",
   str% "              )|\n",
   str% "              63(?:\n",
   str% "                23|\n",
   str% "                3[1-4]\n",
   str% "              )|\n",
   str% "              9561\n",
   str% "            )\n",
   str% "          )\\d{3}\n",
   str% "        </nationalNumberPattern>\n",
   str% "      </fixedLine>\n",
   str% "      <!-- http://stakeholders.ofcom.org.uk/telecoms/numbering/telephone-no-availability/numbers-administered/\n",
   str% "           7100-7599, 7700-7999 with 10 digits; excluding ranges used in GG, IM, JE. -->\n",
   str% "      <mobile>\n",
   str% "        <possibleLengths national=\"10\"/>\n",
   str% "        <exampleNumber>7400123456</exampleNumber>\n",
   str% "        <nationalNumberPattern>\n",
   str% "          7(?:\n",
   str% "            457[0-57-9]|\n",
   str% "            700[01]|\n",
   str% "            911[028]\n",
   str% "          )\\d{5}|\n",
   str% "          7(?:\n",
   str% "            [1-3]\\d\\d|\n",
   str% "            4(?:\n",
   str% "              [0-46-9]\\d|\n",
   str% "              5[0-689]\n",
   str% "            )|\n",
   str% "            5(?:\n",
   str% "              0[0-8]|\n",
   str% "              [13-9]\\d|\n",
   str% "              2[0-35-9]\n",
   str% "            )|\n",
   str% "            7(?:\n",
   str% "              0[1-9]|\n",
   str% "              [1-7]\\d|\n",
   str% "              8[02-9]|\n",
   str% "              9[0-689]\n",
   str% "            )|\n",
   str% "            8(?:\n",
   str% "              [014-9]\\d|\n",
   str% "              [23][0-8]\n",
   str% "            )|\n",
   str% "            9(?:\n",
   str% "              [024-9]\\d|\n",
   str% "              1[02-9]|\n",
   str% "              3[0-689]\n",
   str% "            )\n",
   str% "          )\\d{6}\n",
   str% "        </nationalNumberPattern>\n",
   str% "      </mobile>\n",
   str% "      <!-- 76 with 10 digits; excluding ranges used in IM. Prefix 7691 is been supported based on\n",
   str% "           user report. -->\n",
   str% "      <pager>\n",
   str% "        <possibleLengths national=\"10\"/>\n",
   str% "        <exampleNumber>7640123456</exampleNumber>\n",
   str% "        <nationalNumberPattern>\n",
   str% "          76(?:\n",
   str% "            464|\n",
   str% "            652\n",
   str% "          )\\d{5}|\n",
   str% "          76(?:\n",
   str% "            0[0-28]|\n",
   str% "            2[356]|\n",
   str% "            34|\n",
   str% "            4[01347]|\n",
   str% "            5[49]|\n",
   str% "            6[0-369]|\n",
   str% "            77|\n",
   str% "            8[14]|\n",
   str% "            9[139]\n",
   str% "          )\\d{6}\n",
   str% "        </nationalNumberPattern>\n",
   str% "      </pager>\n",
   str% "      <!-- Source for non geographic numbers:\n",
   str% "           http://en.wikipedia.org/wiki/Non-geographic_telephone_numbers_in_the_United_Kingdom -->\n",
   str% "      <!-- 800 1111 with 7 digits, 800 with 9 or 10 digits, 808 with 10 digits. -->\n",
   str% "      <tollFree>\n",
   str% "        <possibleLengths national=\"7,9,10\"/>\n",
   str% "        <exampleNumber>8001234567</exampleNumber>\n",
   str% "        <nationalNumberPattern>\n",
   str% "          80[08]\\d{7}|\n",
   str% "          800\\d{6}|\n",
   str% "          8001111\n",
   str% "        </nationalNumberPattern>\n",
   str% "      </tollFree>\n",
   str% "      <!-- Note that only 908, 909, 980-989 are reserved for \"adult services\" while the other\n",
   str% "           premium rate ranges are reserved for standard services. Revenue sharing number ranges\n",
   str% "           84X and 87X are supported as premium rate as they incur additional service charge\n",
   str% "           (which is usually additional to call charge). -->\n",
   str% "      <premiumRate>\n",
   str% "        <possibleLengths national=\"7,10\"/>\n",
   str% "        <exampleNumber>9012345678</exampleNumber>\n",
   str% "        <nationalNumberPattern>\n",
   str% "          (?:\n",
   str% "            8(?:\n",
   str% "              4[2-5]|\n",
   str% "              7[0-3]\n",
   str% "            )|\n",
   str% "            9(?:\n",
   str% "              [01]\\d|\n",
   str% "              8[2-49]\n",
   str% "            )\n",
   str% "          )\\d{7}|\n",
   str% "          845464\\d\n",
   str% "        </nationalNumberPattern>\n",
   str% "      </premiumRate>\n",
   str% "      <!-- 70 with 10 digits. -->\n",
   str% "      <personalNumber>\n",
   str% "        <possibleLengths national=\"10\"/>\n",
   str% "        <exampleNumber>7012345678</exampleNumber>\n",
   str% "        <nationalNumberPattern>70\\d{8}</nationalNumberPattern>\n",
   str% "      </personalNumber>\n",
   str% "      <!-- 56 with 10 digits. -->\n",
   str% "      <voip>\n",
   str% "        <possibleLengths national=\"10\"/>\n",
   str% "        <exampleNumber>5612345678</exampleNumber>\n",
   str% "        <nationalNumberPattern>56\\d{8}</nationalNumberPattern>\n",
   str% "      </voip>\n",
   str% "      <!-- 30d, 33d, 34d, 37d, 55 with 10 digits. -->\n",
   str% "      <uan>\n",
   str% "        <possibleLengths national=\"10\"/>\n",
   str% "        <exampleNumber>5512345678</exampleNumber>\n",
   str% "        <nationalNumberPattern>\n",
   str% "          (?:\n",
   str% "            3[0347]|\n",
   str% "            55\n",
   str% "          )\\d{8}\n",
   str% "        </nationalNumberPattern>\n",
   str% "      </uan>\n",
   str% "    </territory>"]

/-- the text up to the end of territory id=GD countryCode=1 -/
noncomputable def GD : List Str :=
  [str% "\n",
   str% "\n",
   str% "    <!-- Grenada (GD) -->\n",
   str% "    <!-- Calling code and formatting shared with 'US' -->\n",
   str% "    <!-- http://www.itu.int/oth/T0202000057/en -->\n",
   str% "    <territory id=\"GD\" countryCode=\"1\" leadingDigits=\"473\" internationalPrefix=\"011\"\n",
   str% "               nationalPrefix=\"1\" nationalPrefixForParsing=\"([2-9]\\d{6})$|1\"\n",
   str% "               nationalPrefixTransformRule=\"473$1\" mobileNumberPortableRegion=\"true\">\n",
   str% "      <generalDesc>\n",
   str% "        <nationalNumberPattern>\n",
   str% "          (?:\n",
   str% "            473|\n",
   str% "            [58]\\d\\d|\n",
   str% "            900\n",
   str% "          )\\d{7}\n",
   str% "        </nationalNumberPattern>\n",
   str% "      </generalDesc>\n",
   str% "      <fixedLine>\n",
   str% "        <possibleLengths national=\"10\" localOnly=\"7\"/>\n",
   str% "        <exampleNumber>4732691234</exampleNumber>\n",
   str% "        <nationalNumberPattern>\n",
   str% "          473(?:\n",
   str% "            2(?:\n",
   str% "              3[0-2]|\n",
   str% "              69\n",
   str% "            )|\n",
   str% "            3(?:\n",
   str% "              2[89]|\n",
   str% "              86\n",
   str% "            )|\n",
   str% "            4(?:\n",
   str% "              [06]8|\n",
   str% "              3[5-9]|\n",
   str% "              4[0-4]|\n",
   str% "              5[59]|\n",
   str% "              73|\n",
   str% "              90\n",
   str% "            )|\n",
   str% "            63[68]|\n",
   str% "            7(?:\n",
   str% "              58|\n",
   str% "              84\n",
   str% "            )|\n",
   str% "            800|\n",
   str% "            938\n",
   str% "          )\\d{4}\n",
   str% "        </nationalNumberPattern>\n",
   str% "      </fixedLine>\n",
   str% "      <mobile>\n",
   str% "        <possibleLengths national=\"10\" localOnly=\"7\"/>\n",
   str% "        <exampleNumber>4734031234</exampleNumber>\n",
   str% "        <nationalNumberPattern>\n",
   str% "          473(?:\n",
   str% "            4(?:\n",
   str% "              0[2-79]|\n",
   str% "              1[04-9]|\n",
   str% "              2[0-5]|\n",
   str% "              49|\n",
   str% "              5[6-8]\n",
   str% "            )|\n",
   str% "            5(?:\n",
   str% "              2[01]|\n",
   str% "              3[3-8]\n",
   str% "            )|\n",
   str% "            901\n",
   str% "          )\\d{4}\n",
   str% "        </nationalNumberPattern>\n",
   str% "      </mobile>\n",
   str% "      <tollFree>\n",
   str% "        <possibleLengths national=\"10\"/>\n",
   str% "        <exampleNumber>8002123456</exampleNumber>\n",
   str% "        <nationalNumberPattern>\n",
   str% "          8(?:\n",
   str% "            00|\n",
   str% "            33|\n",
   str% "            44|\n",
   str% "            55|\n",
   str% "            66|\n",
   str% "            77|\n",
   str% "            88\n",
   str% "          )[2-9]\\d{6}\n",
   str% "        </nationalNumberPattern>\n",
   str% "      </tollFree>\n",
   str% "      <premiumRate>\n",
   str% "        <possibleLengths national=\"10\"/>\n",
   str% "        <exampleNumber>9002123456</exampleNumber>\n",
   str% "        <nationalNumberPattern>900[2-9]\\d{6}</nationalNumberPattern>\n",
   str% "      </premiumRate>\n",
   str% "      <!-- https://www.nationalnanpa.com/number_resource_info/5XX_codes.html -->\n",
   str% "      <personalNumber>\n",
   str% "        <possibleLengths national=\"10\"/>\n",
   str% "        <exampleNumber>5002345678</exampleNumber>\n",
   str% "        <nationalNumberPattern>\n",
   str% "          52(?:\n",
   str% "            3(?:\n",
   str% "              [2-46-9][02-9]\\d|\n",
   str% "              5(?:\n",
   str% "                [02-46-9]\\d|\n",
   str% "                5[0-46-9]\n",
   str% "              )\n",
   str% "            )|\n",
   str% "            4(?:\n",
   str% "              [2-478][02-9]\\d|\n",
   str% "              5(?:\n",
   str% "                [034]\\d|\n",
   str% "                2[024-9]|\n",
   str% "                5[0-46-9]\n",
   str% "              )|\n",
   str% "              6(?:\n",
   str% "                0[1-9]|\n",
   str% "                [2-9]\\d\n",
   str% "              )|\n",
   str% "              9(?:\n",
   str% "                [05-9]\\d|\n",
   str% "                2[0-5]|\n",
   str% "                49\n",
   str% "              )\n",
   str% "            )\n",
   str% "          )\\d{4}|\n",
   str% "          52[34][2-9]1[02-9]\\d{4}|\n",
   str% "          5(?:\n",
   str% "            00|\n",
   str% "            2[125-9]|\n",
   str% "            3[23]|\n",
   str% "            44|\n",
   str% "            66|\n",
   str% "            77|\n",
   str% "            88\n",
   str% "          )[2-9]\\d{6}\n",
   str% "        </nationalNumberPattern>\n",
   str% "      </personalNumber>\n",
   str% "    </territory>"]

/-- the text up to the end of territory id=GE countryCode=995 -/
noncomputable def GE : List Str :=
  [str% "\n",
   str% "\n",
   str% "    <!-- Georgia (GE) -->\n",
   str% "    <!-- It seems there may be special 6 digit numbers beginning with 91, but we are not sure, so\n",
   str% "         these are omitted for now. -->\n",
   str% "    <!-- http://www.itu.int/oth/T0202000050/en -->\n",
   str% "    <!-- http://en.wikipedia.org/wiki/Telephone_numbers_in_Georgia_(country) -->\n",
   str% "    <territory id=\"GE\" countryCode=\"995\" internationalPrefix=\"00\" nationalPrefix=\"0\"\n",
   str% "               mobileNumberPortableRegion=\"true\">\n",
   str% "      <availableFormats>\n",
   str% "        <numberFormat pattern=\"(\\d{3})(\\d{3})(\\d{3})\" nationalPrefixFormattingRule=\"$NP$FG\">\n",
   str% "          <leadingDigits>70</leadingDigits>\n",
   str% "          <format>$1 $2 $3</format>\n",
   str% "        </numberFormat>\n",
   str% "        <!-- This format is for two digit area code fixed line range of Tblisi(32). -->\n",
   str% "        <numberFormat pattern=\"(\\d{2})(\\d{3})(\\d{2})(\\d{2})\" nationalPrefixFormattingRule=\"$NP$FG\">\n",
   str% "          <leadingDigits>32</leadingDigits>\n",
   str% "          <format>$1 $2 $3 $4</format>\n",
   str% "        </numberFormat>\n",
   str% "        <numberFormat pattern=\"(\\d{3})(\\d{2})(\\d{2})(\\d{2})\">\n",
   str% "          <leadingDigits>[57]</leadingDigits>\n",
   str% "          <format>$1 $2 $3 $4</format>\n",
   str% "        </numberFormat>\n",
   str% "        <!-- Format isn't very strictly defined - the yellow pages omits area code and does 2 2 2\n",
   str% "             the communications commission uses 2 3 3. Wikipedia says 3 2 3. Some use 2 6. -->\n",
   str% "        <numberFormat pattern=\"(\\d{3})(\\d{2})(\\d{2})(\\d{2})\" nationalPrefixFormattingRule=\"$NP$FG\">\n",
   str% "          <leadingDigits>[348]</leadingDigits>\n",
   str% "          <format>$1 $2 $3 $4</format>\n",
   str% "        </numberFormat>\n",
   str% "      </availableFormats>\n",
   str% "      <generalDesc>\n",
   str% "        <nationalNumberPattern>\n",
   str% "          (?:\n",
   str% "            [3-57]\\d\\d|\n",
   str% "            800\n",
   str% "          )\\d{6}\n",
   str% "        </nationalNumberPattern>\n",
   str% "      </generalDesc>\n",
   str% "      <!-- Online numbers mention that this is not internationally diallable. -->\n",
   str% "      <noInternationalDialling>\n",
   str% "        <possibleLengths national=\"9\"/>\n",
   str% "        <nationalNumberPattern>70[67]\\d{6}</nationalNumberPattern>\n",
   str% "      </noInternationalDialling>\n",
   str% "      <fixedLine>\n",
   str% "        <possibleLengths national=\"9\" localOnly=\"6,7\"/>\n",
   str% "        <exampleNumber>322123456</exampleNumber>\n",
   str% "        <nationalNumberPattern>\n",
   str% "          (?:\n",
   str% "            3(?:\n",
   str% "              [256]\\d|\n",
   str% "              4[124-9]|\n",
   str% "              7[0-4]\n",
   str% "            )|\n",
   str% "            4(?:\n",
   str% "              1\\d|\n",
   str% "              2[2-7]|\n",
   str% "              3[1-79]|\n",
   str% "              4[2-8]|\n",
   str% "              7[239]|\n",
   str% "              9[1-7]\n",
   str% "            )\n",
   str% "          )\\d{6}\n",
   str% "        </nationalNumberPattern>\n",
   str% "      </fixedLine>\n",
   str% "      <!-- 54444 is the only assigned range we have found, but we support all of 544 to keep the\n",
   str% "           regex simple. -->\n",
   str% "      <mobile>\n",
   str% "        <possibleLengths national=\"9\"/>\n",
   str% "        <exampleNumber>555123456</exampleNumber>\n",
   str% "        <nationalNumberPattern>\n",
   str% "          5(?:\n",
   str% "            (?:\n",
   str% "              (?:\n",
   str% "                0555|\n",
   str% "                1(?:\n",
   str% "                  [17]77|\n",
   str% "                  555\n",
   str% "                )\n",
   str% "              )[5-9]|\n",
   str% "              757(?:\n",
   str% "                7[7-9]|\n",
   str% "                8[01]\n",
   str% "              )\n",
   str% "            )\\d|\n",
   str% "            22252[0-4]\n",
   str% "          )\\d\\d|\n",
   str% "          5(?:\n",
   str% "            0(?:\n",
   str% "              0(?:\n",
   str% "                1[09]|\n",
   str% "                70\n",
   str% "              )|\n",
   str% "              505\n",
   str% "            )|\n",
   str% "            1(?:\n",
   str% "              0[01]0|\n",
   str% "              1(?:\n",
   str% "                07|\n",
   str% "                33|\n",
   str% "                51\n",
   str% "              )\n",
   str% "            )|\n",
   str% "            2(?:\n",
   str% "              0[02]0|\n",
   str% "              2[25]2\n",
   str% "            )|\n",
   str% "            3(?:\n",
   str% "              0[03]0|\n",
   str% "              3[35]3\n",
   str% "            )|\n",
   str% "            (?:\n",
   str% "              40[04]|\n",
   str% "              900\n",
   str% "            )0|\n",
   str% "            5222\n",
   str% "          )[0-4]\\d{3}|\n",
   str% "          (?:\n",
   str% "            5(?:\n",
   str% "              0(?:\n",
   str% "                0(?:\n",
   str% "                  0\\d|\n",
   str% "                  1[12]|\n",
   str% "                  22|\n",
   str% "                  3[0-6]|\n",
   str% "                  44|\n",
   str% "                  5[05]|\n",
   str% "                  77|\n",
   str% "                  88|\n",
   str% "                  9[09]\n",
   str% "                )|\n",
   str% "                (?:\n",
   str% "                  [14]\\d|\n",
   str% "                  77\n",
   str% "                )\\d|\n",
   str% "                22[02]\n",
   str% "              )|\n",
   str% "              1(?:\n",
   str% "                1(?:\n",
   str% "                  [03][01]|\n",
   str% "                  [124]\\d|\n",
   str% "                  5[2-6]|\n",
   str% "                  7[0-6]\n",
   str% "                )|\n",
   str% "                4\\d\\d\n",
   str% "              )|\n",
   str% "              [23]555|\n",
   str% "              4(?:\n",
   str% "                4\\d\\d|\n",
   str% "                555\n",
   str% "              )|\n",
   str% "              5(?:\n",
   str% "                [0157-9]\\d\\d|\n",
   str% "                200|\n",
   str% "                333|\n",
   str% "                4(?:\n",
   str% "                  44|\n",
   str% "                  55\n",
   str% "                )\n",
   str% "              )|\n",
   str% "              6[89]\\d\\d|\n",
   str% "              7(?:\n",
   str% "                (?:\n",
   str% "                  [0147-9]\\d|\n",
   str% "                  22\n",
   str% "                )\\d|\n",
   str% "                5(?:\n",
   str% "                  00|\n",
   str% "                  [57]5\n",
   str% "                )\n",
   str% "              )|\n",
   str% "              8(?:\n",
   str% "                0(?:\n",
   str% "                  [018]\\d|\n",
   str% "                  2[0-4]\n",
   str% "                )|\n",
   str% "                5(?:\n",
   str% "                  55|\n",
   str% "                  8[89]\n",
   str% "                )|\n",
   str% "                8(?:\n",
   str% "                  55|\n",
   str% "                  88\n",
   str% "                )\n",
   str% "              )|\n",
   str% "              9(?:\n",
   str% "                090|\n",
   str% "                [1-35-9]\\d\\d\n",
   str% "              )\n",
   str% "            )|\n",
   str% "            790\\d\\d\n",
   str% "          )\\d{4}\n",
   str% "        </nationalNumberPattern>\n",
   str% "      </mobile>\n",
   str% "      <!-- Information from http://www.yell.ge, examples such as Wissol Petroleum Georgia\n",
   str% "           hotline. -->\n",
   str% "      <tollFree>\n",
   str% "        <possibleLengths national=\"9\"/>\n",
   str% "        <exampleNumber>800123456</exampleNumber>\n",
   str% "        <nationalNumberPattern>800\\d{6}</nationalNumberPattern>\n",
   str% "      </tollFree>\n",
   str% "      <!-- http://www.mydivert.com/virtual-numbers/995-virtual-number-National.html -->\n",
   str% "      <voip>\n",
   str% "        <possibleLengths national=\"9\"/>\n",
   str% "        <exampleNumber>706123456</exampleNumber>\n",
   str% "        <nationalNumberPattern>70[67]\\d{6}</nationalNumberPattern>\n",
   str% "      </voip>\n",
   str% "    </territory>"]

/-- the text up to the end of territory id=GF countryCode=594 -/
noncomputable def GF : List Str :=
  [str% "\n",
   str% "\n",
   str% "    <!-- French Guiana (GF) -->\n",
   str% "    <!-- Using a national prefix here as online numbers are formatted with it. -->\n",
   str% "    <!-- The 876 prefix is mentioned in the plan, but the plan is from 2006 and in France VOIP\n",
   str% "         numbers were changed from 087 to the 09 prefix in 2009. It is likely this occurred here\n",
   str% "         too. -->\n",
   str% "    <!-- http://www.itu.int/oth/T020200004C/en -->\n",
   str% "    <!-- http://www.arcep.fr/index.php?id=2137&bloc=0594&CMD=RESULTS_NUMEROTATION -->\n",
   str% "    <!-- http://www.arcep.fr/uploads/tx_gsavis/11-1297.pdf -->\n",
   str% "    <!-- https://extranet.arcep.fr/portail/Op%C3%A9rateursCE/Num%C3%A9rotation.aspx -->\n",
   str% "    <territory id=\"GF\" countryCode=\"594\" internationalPrefix=\"00\" nationalPrefix=\"0\"\n",
   str% "               mobileNumberPortableRegion=\"true\">\n",
   str% "      <availableFormats>\n",
   str% "        <numberFormat pattern=\"(\\d{3})(\\d{2})(\\d{2})(\\d{2})\" nationalPrefixFormattingRule=\"$NP$FG\">\n",
   str% "          <leadingDigits>\n",
   str% "            [5-7]|\n",
   str% "            80[6-9]|\n",
   str% "            9[47]\n",
   str% "          </leadingDigits>\n",
   str% "          <format>$1 $2 $3 $4</format>\n",
   str% "        </numberFormat>\n",
   str% "        <numberFormat pattern=\"(\\d{3})(\\d{2})(\\d{2})(\\d{2})\" nationalPrefixFormattingRule=\"$NP$FG\">\n",
   str% "          <leadingDigits>[89]</leadingDigits>\n",
   str% "          <format>$1 $2 $3 $4</format>\n",
   str% "        </numberFormat>\n",
   str% "      </availableFormats>\n",
   str% "      <generalDesc>\n",
   str% "        <nationalNumberPattern>\n",
   str% "          (?:\n",
   str% "            694\\d|\n",
   str% "            7093\n",
   str% "          )\\d{5}|\n",
   str% "          (?:\n",
   str% "            59|\n",
   str% "            [89]\\d\n",
   str% "          )\\d{7}\n",
   str% "        </nationalNumberPattern>\n",
   str% "      </generalDesc>\n",
   str% "      <fixedLine>\n",
   str% "        <possibleLengths national=\"9\"/>\n",
   str% "        <exampleNumber>594101234</exampleNumber>\n",
   str% "        <nationalNumberPattern>\n",
   str% "          (?:\n",
   str% "            59(?:\n",
   str% "              4(?:\n",
   str% "                [02-49]\\d|\n",
   str% "                1[0-5]|\n",
   str% "                5[6-9]|\n",
   str% "                6[0-3]|\n",
   str% "                80\n",
   str% "              )|\n",
   str% "              88\\d\n",
   str% "            )|\n",
   str% "            80[6-9]\\d\\d\n",
   str% "          )\\d{4}\n",
   str% "        </nationalNumberPattern>\n",
   str% "      </fixedLine>\n",
   str% "      <!-- As per Wikipedia Guyane T\u00E9l\u00E9phone Mobile operator is no longer functioning. However we\n",
   str% "           support these ranges as they are still mentioned in ARCEP numbering plan doc. -->\n",
   str% "      <mobile>\n",
   str% "        <possibleLengths national=\"9\"/>\n",
   str% "        <exampleNumber>694201234</exampleNumber>\n",
   str% "        <nationalNumberPattern>\n",
   str% "          (?:\n",
   str% "            694(?:\n",
   str% "              [0-249]\\d|\n",
   str% "              3[0-8]\n",
   str% "            )|\n",
   str% "            7093[0-3]\n",
   str% "          )\\d{4}\n",
   str% "        </nationalNumberPattern>\n",
   str% "      </mobile>\n",
   str% "      <!-- As per ARCEP, mainland France and overseas territories use 0800 to 0805 as\n",
   str% "           Toll-free numbers. -->\n",
   str% "      <tollFree>\n",
   str% "        <possibleLengths national=\"9\"/>\n",
   str% "        <exampleNumber>800012345</exampleNumber>\n",
   str% "        <nationalNumberPattern>80[0-5]\\d{6}</nationalNumberPattern>\n",
   str% "      </tollFree>\n",
   str% "      <premiumRate>\n",
   str% "        <possibleLengths national=\"9\"/>\n",
   str% "        <exampleNumber>890123456</exampleNumber>\n",
   str% "        <nationalNumberPattern>8[129]\\d{7}</nationalNumberPattern>\n",
   str% "      </premiumRate>\n",
   str% "      <voip>\n",
   str% "        <possibleLengths national=\"9\"/>\n",
   str% "        <exampleNumber>976012345</exampleNumber>\n",
   str% "        <nationalNumberPattern>\n",
   str% "          9(?:\n",
   str% "            (?:\n",
   str% "              396|\n",
   str% "              76\\d\n",
   str% "            )\\d|\n",
   str% "            476[0-6]\n",
   str% "          )\\d{4}\n",
   str% "        </nationalNumberPattern>\n",
   str% "      </voip>\n",
   str% "    </territory>"]

/-- the text up to the end of territory id=GG countryCode=44 -/
noncomputable def GG : List Str :=
  [str% "\n",
   str% "\n",
   str% "    <!-- Guernsey (GG) -->\n",
   str% "    <!-- Calling code and formatting shared with 'GB' -->\n",
   str% "    <!-- Note that the numbers are fine-grained where needed in order to disambiguate between the\n",
   str% "         4 regions i.e UK, Isle of Man, Jersey and Guernsey. -->\n",
   str% "    <!-- http://static.ofcom.org.uk/static/numbering/ -->\n",
   str% "    <!-- http://en.wikipedia.org/wiki/Telephone_numbers_in_the_United_Kingdom -->\n",
   str% "    <territory id=\"GG\" countryCode=\"44\" internationalPrefix=\"00\" nationalPrefix=\"0\"\n",
   str% "               nationalPrefixForParsing=\"([25-9]\\d{5})$|0|180020\"\n",
   str% "               nationalPrefixTransformRule=\"1481$1\">\n",
   str% "      <generalDesc>\n",
   str% "        <nationalNumberPattern>\n",
   str% "          (?:\n",
   str% "            1481|\n",
   str% "            [357-9]\\d{3}\n",
   str% "          )\\d{6}|\n",
   str% "          8\\d{6}(?:\n",
   str% "            \\d{2}\n",
   str% "          )?\n",
   str% "        </nationalNumberPattern>\n",
   str% "      </generalDesc>\n",
   str% "      <!-- Specific to GG. -->\n",
   str% "      <!-- 1481 with 10 digits. -->\n",
   str% "      <fixedLine>\n",
   str% "        <possibleLengths national=\"10\" localOnly=\"6\"/>\n",
   str% "        <exampleNumber>1481256789</exampleNumber>\n",
   str% "        <nationalNumberPattern>1481[25-9]\\d{5}</nationalNumberPattern>\n",
   str% "      </fixedLine>\n",
   str% "      <mobile>\n",
   str% "        <possibleLengths national=\"10\"/>\n",
   str% "        <exampleNumber>7781123456</exampleNumber>\n",
   str% "        <nationalNumberPattern>\n",
   str% "          7(?:\n",
   str% "            (?:\n",
   str% "              781|\n",
   str% "              839\n",
   str% "            )\\d|\n",
   str% "            911[17]\n",
   str% "          )\\d{5}\n",
   str% "        </nationalNumberPattern>\n",
   str% "      </mobile>\n",
   str% "      <!-- Other numbers as per GB. -->\n",
   str% "      <pager>\n",
   str% "        <possibleLengths national=\"10\"/>\n",
   str% "        <exampleNumber>7640123456</exampleNumber>\n",
   str% "        <nationalNumberPattern>\n",
   str% "          76(?:\n",
   str% "            464|\n",
   str% "            652\n",
   str% "          )\\d{5}|\n",
   str% "          76(?:\n",
   str% "            0[0-28]|\n",
   str% "            2[356]|\n",
   str% "            34|\n",
   str% "            4[01347]|\n",
   str% "            5[49]|\n",
   str% "            6[0-369]|\n",
   str% "            77|\n",
   str% "            8[14]|\n",
   str% "            9[139]\n",
   str% "          )\\d{6}\n",
   str% "        </nationalNumberPattern>\n",
   str% "      </pager>\n",
   str% "      <tollFree>\n",
   str% "        <possibleLengths national=\"7,9,10\"/>\n",
   str% "        <exampleNumber>8001234567</exampleNumber>\n",
   str% "        <nationalNumberPattern>\n",
   str% "          80[08]\\d{7}|\n",
   str% "          800\\d{6}|\n",
   str% "          8001111\n",
   str% "        </nationalNumberPattern>\n",
   str% "      </tollFree>\n",
   str% "      <premiumRate>\n",
   str% "        <possibleLengths national=\"7,10\"/>\n",
   str% "        <exampleNumber>9012345678</exampleNumber>\n",
   str% "        <nationalNumberPattern>\n",
   str% "          (?:\n",
   str% "            8(?:\n",
   str% "              4[2-5]|\n",
   str% "              7[0-3]\n",
   str% "            )|\n",
   str% "            9(?:\n",
   str% "              [01]\\d|\n",
   str% "              8[0-3]\n",
   str% "            )\n",
   str% "          )\\d{7}|\n",
   str% "          845464\\d\n",
   str% "        </nationalNumberPattern>\n",
   str% "      </premiumRate>\n",
   str% "      <personalNumber>\n",
   str% "        <possibleLengths national=\"10\"/>\n",
   str% "        <exampleNumber>7012345678</exampleNumber>\n",
   str% "        <nationalNumberPattern>70\\d{8}</nationalNumberPattern>\n",
   str% "      </personalNumber>\n",
   str% "      <voip>\n",
   str% "        <possibleLengths national=\"10\"/>\n",
   str% "        <exampleNumber>5612345678</exampleNumber>\n",
   str% "        <nationalNumberPattern>56\\d{8}</nationalNumberPattern>\n",
   str% "      </voip>\n",
   str% "      <uan>\n",
   str% "        <possibleLengths national=\"10\"/>\n",
   str% "        <exampleNumber>5512345678</exampleNumber>\n",
   str% "        <nationalNumberPattern>\n",
   str% "          (?:\n",
   str% "            3[0347]|\n",
   str% "            55\n",
   str% "          )\\d{8}\n",
   str% "        </nationalNumberPattern>\n",
   str% "      </uan>\n",
   str% "    </territory>"]

/-- the text up to the end of territory id=GH countryCode=233 -/
noncomputable def GH : List Str :=
  [str% "\n",
   str% "\n",
   str% "    <!-- Ghana (GH) -->\n",
   str% "    <!-- No premiumRate information can be found. -->\n",
   str% "    <!-- http://www.itu.int/oth/T0202000052/en -->\n",
   str% "    <!-- http://www.nca.org.gh/index.php?option=com_content&view=article&id=90&Itemid=65 -->\n",
   str% "    <territory id=\"GH\" countryCode=\"233\" internationalPrefix=\"00\" nationalPrefix=\"0\"\n",
   str% "               mobileNumberPortableRegion=\"true\">\n",
   str% "      <availableFormats>\n",
   str% "        <numberFormat pattern=\"(\\d{3})(\\d{4})\">\n",
   str% "          <leadingDigits>\n",
   str% "            [237]|\n",
   str% "            8[0-2]\n",
   str% "          </leadingDigits>\n",
   str% "          <format>$1 $2</format>\n",
   str% "          <intlFormat>NA</intlFormat>\n",
   str% "        </numberFormat>\n",
   str% "        <numberFormat pattern=\"(\\d{3})(\\d{5})\" nationalPrefixFormattingRule=\"$NP$FG\">\n",
   str% "          <leadingDigits>8</leadingDigits>\n",
   str% "          <format>$1 $2</format>\n",
   str% "        </numberFormat>\n",
   str% "        <numberFormat pattern=\"(\\d{2})(\\d{3})(\\d{4})\" nationalPrefixFormattingRule=\"$NP$FG\">\n",
   str% "          <leadingDigits>[2358]</leadingDigits>\n",
   str% "          <format>$1 $2 $3</format>\n",
   str% "        </numberFormat>\n",
   str% "      </availableFormats>\n",
   str% "      <generalDesc>\n",
   str% "        <nationalNumberPattern>\n",
   str% "          [235]\\d{8}|\n",
   str% "          800\\d{5,6}\n",
   str% "        </nationalNumberPattern>\n",
   str% "      </generalDesc>\n",
   str% "      <noInternationalDialling>\n",
   str% "        <possibleLengths national=\"8,9\"/>\n",
   str% "        <nationalNumberPattern>800\\d{5,6}</nationalNumberPattern>\n",
   str% "      </noInternationalDialling>\n",
   str% "      <fixedLine>\n",
   str% "        <possibleLengths national=\"9\" localOnly=\"7\"/>\n",
   str% "        <exampleNumber>302345678</exampleNumber>\n",
   str% "        <nationalNumberPattern>\n",
   str% "          3082[0-5]\\d{4}|\n",
   str% "          3(?:\n",
   str% "            0(?:\n",
   str% "              [237]\\d|\n",
   str% "              8[01]\n",
   str% "            )|\n",
   str% "            [167](?:\n",
   str% "              2[0-6]|\n",
   str% "              7\\d|\n",
   str% "              80\n",
   str% "            )|\n",
   str% "            2(?:\n",
   str% "              2[0-5]|\n",
   str% "              7\\d|\n",
   str% "              80\n",
   str% "            )|\n",
   str% "            3(?:\n",
   str% "              2[0-3]|\n",
   str% "              7\\d|\n",
   str% "              80\n",
   str% "            )|\n",
   str% "            4(?:\n",
   str% "              2[013-9]|\n",
   str% "              3[01]|\n",
   str% "              7\\d|\n",
   str% "              80\n",
   str% "            )|\n",
   str% "            5(?:\n",
   str% "              2[0-7]|\n",
   str% "              7\\d|\n",
   str% "              80\n",
   str% "            )|\n",
   str% "            8(?:\n",
   str% "              2[0-2]|\n",
   str% "              7\\d|\n",
   str% "              80\n",
   str% "            )|\n",
   str% "            9(?:\n",
   str% "              [28]0|\n",
   str% "              7\\d\n",
   str% "            )\n",
   str% "          )\\d{5}\n",
   str% "        </nationalNumberPattern>\n",
   str% "      </fixedLine>\n",
   str% "      <mobile>\n",
   str% "        <possibleLengths national=\"9\"/>\n",
   str% "        <exampleNumber>231234567</exampleNumber>\n",
   str% "        <nationalNumberPattern>\n",
   str% "          (?:\n",
   str% "            2(?:\n",
   str% "              [0346-9]\\d|\n",
   str% "              5[67]\n",
   str% "            )|\n",
   str% "            5(?:\n",
   str% "              [03-7]\\d|\n",
   str% "              9[1-9]\n",
   str% "            )\n",
   str% "          )\\d{6}\n",
   str% "        </nationalNumberPattern>\n",
   str% "      </mobile>\n",
   str% "      <!-- Found online references to these numbers, although they are not in the plan since they\n",
   str% "           are not internationally diallable. -->\n",
   str% "      <tollFree>\n",
   str% "        <possibleLengths national=\"8,9\"/>\n",
   str% "        <exampleNumber>80012345</exampleNumber>\n",
   str% "        <nationalNumberPattern>800\\d{5,6}</nationalNumberPattern>\n",
   str% "      </tollFree>\n",
   str% "    </territory>"]

/-- the text up to the end of territory id=GI countryCode=350 -/
noncomputable def GI : List Str :=
  [str% "\n",
   str% "\n",
   str% "    <!-- Gibraltar (GI) -->\n",
   str% "    <!-- http://www.gra.gi/communications/numbering-plan -->\n",
   str% "    <territory id=\"GI\" countryCode=\"350\" internationalPrefix=\"00\" mobileNumberPortableRegion=\"true\">\n",
   str% "      <availableFormats>\n",
   str% "        <!-- Most numbers are formatted as a block -->\n",
   str% "        <numberFormat pattern=\"(\\d{3})(\\d{5})\">\n",
   str% "          <leadingDigits>2</leadingDigits>\n",
   str% "          <format>$1 $2</format>\n",
   str% "        </numberFormat>\n",
   str% "      </availableFormats>\n",
   str% "      <generalDesc>\n",
   str% "        <nationalNumberPattern>\n",
   str% "          (?:\n",
   str% "            [25]\\d|\n",
   str% "            60\n",
   str% "          )\\d{6}\n",
   str% "        </nationalNumberPattern>\n",
   str% "      </generalDesc>\n",
   str% "      <fixedLine>\n",
   str% "        <possibleLengths national=\"8\"/>\n",
   str% "        <exampleNumber>20012345</exampleNumber>\n",
   str% "        <nationalNumberPattern>\n",
   str% "          2190[0-2]\\d{3}|\n",
   str% "          2(?:\n",
   str% "            0(?:\n",
   str% "              [02]\\d|\n",
   str% "              3[01]\n",
   str% "            )|\n",
   str% "            16[24-9]|\n",
   str% "            2[2-5]\\d\n",
   str% "          )\\d{4}\n",
   str% "        </nationalNumberPattern>\n",
   str% "      </fixedLine>\n",
   str% "      <mobile>\n",
   str% "        <possibleLengths national=\"8\"/>\n",
   str% "        <exampleNumber>57123456</exampleNumber>\n",
   str% "        <nationalNumberPattern>\n",
   str% "          5251[0-4]\\d{3}|\n",
   str% "          (?:\n",
   str% "            5(?:\n",
   str% "              [146-8]\\d\\d|\n",
   str% "              250\n",
   str% "            )|\n",
   str% "            60(?:\n",
   str% "              1[01]|\n",
   str% "              6\\d\n",
   str% "            )\n",
   str% "          )\\d{4}\n",
   str% "        </nationalNumberPattern>\n",
   str% "      </mobile>\n",
   str% "    </territory>"]

/-- the text up to the end of territory id=GL countryCode=299 -/
noncomputable def GL : List Str :=
  [str% "\n",
   str% "\n",
   str% "    <!-- Greenland (GL) -->\n",
   str% "    <!-- http://www.itu.int/oth/T0202000056/en -->\n",
   str% "    <territory id=\"GL\" countryCode=\"299\" internationalPrefix=\"00\">\n",
   str% "      <availableFormats>\n",
   str% "        <numberFormat pattern=\"(\\d{2})(\\d{2})(\\d{2})\">\n",
   str% "          <leadingDigits>\n",
   str% "            19|\n",
   str% "            [2-9]\n",
   str% "          </leadingDigits>\n",
   str% "          <format>$1 $2 $3</format>\n",
   str% "        </numberFormat>\n",
   str% "      </availableFormats>\n",
   str% "      <generalDesc>\n",
   str% "        <nationalNumberPattern>\n",
   str% "          (?:\n",
   str% "            19|\n",
   str% "            [2-689]\\d|\n",
   str% "            70\n",
   str% "          )\\d{4}\n",
   str% "        </nationalNumberPattern>\n",
   str% "      </generalDesc>\n",
   str% "      <!-- Including VSAT numbers here. -->\n",
   str% "      <fixedLine>\n",
   str% "        <possibleLengths national=\"6\"/>\n",
   str% "        <exampleNumber>321000</exampleNumber>\n",
   str% "        <nationalNumberPattern>\n",
   str% "          (?:\n",
   str% "            19|\n",
   str% "            3[1-7]|\n",
   str% "            [68][1-9]|\n",
   str% "            70|\n",
   str% "            9\\d\n",
   str% "          )\\d{4}\n",
   str% "        </nationalNumberPattern>\n",
   str% "      </fixedLine>\n",
   str% "      <mobile>\n",
   str% "        <possibleLengths national=\"6\"/>\n",
   str% "        <exampleNumber>221234</exampleNumber>\n",
   str% "        <nationalNumberPattern>[245]\\d{5}</nationalNumberPattern>\n",
   str% "      </mobile>\n",
   str% "      <tollFree>\n",
   str% "        <possibleLengths national=\"6\"/>\n",
   str% "        <exampleNumber>801234</exampleNumber>\n",
   str% "        <nationalNumberPattern>80\\d{4}</nationalNumberPattern>\n",
   str% "      </tollFree>\n",
   str% "      <voip>\n",
   str% "        <possibleLengths national=\"6\"/>\n",
   str% "        <exampleNumber>381234</exampleNumber>\n",
   str% "        <nationalNumberPattern>3[89]\\d{4}</nationalNumberPattern>\n",
   str% "      </voip>\n",
   str% "    </territory>"]

/-- the text up to the end of territory id=GM countryCode=220 -/
noncomputable def GM : List Str :=
  [str% "\n",
   str% "\n",
   str% "    <!-- Gambia (GM) -->\n",
   str% "    <!-- http://www.itu.int/oth/T020200004F/en -->\n",
   str% "    <territory id=\"GM\" countryCode=\"220\" internationalPrefix=\"00\">\n",
   str% "      <availableFormats>\n",
   str% "        <numberFormat pattern=\"(\\d{3})(\\d{4})\">\n",
   str% "          <leadingDigits>[2-9]</leadingDigits>\n",
   str% "          <format>$1 $2</format>\n",
   str% "        </numberFormat>\n",
   str% "      </availableFormats>\n",
   str% "      <generalDesc>\n",
   str% "        <nationalNumberPattern>[2-9]\\d{6}</nationalNumberPattern>\n",
   str% "      </generalDesc>\n",
   str% "      <fixedLine>\n",
   str% "        <possibleLengths national=\"7\"/>\n",
   str% "        <exampleNumber>5661234</exampleNumber>\n",
   str% "        <nationalNumberPattern>\n",
   str% "          (?:\n",
   str% "            4(?:\n",
   str% "              [23]\\d\\d|\n",
   str% "              4(?:\n",
   str% "                1[024679]|\n",
   str% "                [6-9]\\d\n",
   str% "              )\n",
   str% "            )|\n",
   str% "            5(?:\n",
   str% "              5(?:\n",
   str% "                3\\d|\n",
   str% "                4[0-7]\n",
   str% "              )|\n",
   str% "              6[67]\\d|\n",
   str% "              7(?:\n",
   str% "                1[04]|\n",
   str% "                2[035]|\n",
   str% "                3[58]|\n",
   str% "                48\n",
   str% "              )\n",
   str% "            )|\n",
   str% "            8[0-389]\\d\\d\n",
   str% "          )\\d{3}\n",
   str% "        </nationalNumberPattern>\n",
   str% "      </fixedLine>\n",
   str% "      <!-- Prefix 8[67] is moved here based on the user report. -->\n",
   str% "      <mobile>\n",
   str% "        <possibleLengths national=\"7\"/>\n",
   str% "        <exampleNumber>3012345</exampleNumber>\n",
   str% "        <nationalNumberPattern>\n",
   str% "          556\\d{4}|\n",
   str% "          (?:\n",
   str% "            [23679]\\d|\n",
   str% "            4[015]|\n",
   str% "            5[0-489]|\n",
   str% "            8[4-7]\n",
   str% "          )\\d{5}\n",
   str% "        </nationalNumberPattern>\n",
   str% "      </mobile>\n",
   str% "    </territory>"]

/-- the text up to the end of territory id=GN countryCode=224 -/
noncomputable def GN : List Str :=
  [str% "\n",
   str% "\n",
   str% "    <!-- Guinea (GN) -->\n",
   str% "    <!-- http://www.itu.int/oth/T020200005B/en -->\n",
   str% "    <territory id=\"GN\" countryCode=\"224\" internationalPrefix=\"00\">\n",
   str% "      <availableFormats>\n",
   str% "        <numberFormat pattern=\"(\\d{2})(\\d{2})(\\d{2})(\\d{2})\">\n",
   str% "          <leadingDigits>3</leadingDigits>\n",
   str% "          <format>$1 $2 $3 $4</format>\n",
   str% "        </numberFormat>\n",
   str% "        <numberFormat pattern=\"(\\d{3})(\\d{2})(\\d{2})(\\d{2})\">\n",
   str% "          <leadingDigits>[67]</leadingDigits>\n",
   str% "          <format>$1 $2 $3 $4</format>\n",
   str% "        </numberFormat>\n",
   str% "      </availableFormats>\n",
   str% "      <generalDesc>\n",
   str% "        <nationalNumberPattern>\n",
   str% "          722\\d{6}|\n",
   str% "          (?:\n",
   str% "            3|\n",
   str% "            6\\d\n",
   str% "          )\\d{7}\n",
   str% "        </nationalNumberPattern>\n",
   str% "      </generalDesc>\n",
   str% "      <fixedLine>\n",
   str% "        <possibleLengths national=\"8\"/>\n",
   str% "        <exampleNumber>30241234</exampleNumber>\n",
   str% "        <nationalNumberPattern>\n",
   str% "          3(?:\n",
   str% "            0(?:\n",
   str% "              24|\n",
   str% "              3[12]|\n",
   str% "              4[1-35-7]|\n",
   str% "              5[13]|\n",
   str% "              6[189]|\n",
   str% "              [78]1|\n",
   str% "              9[1478]\n",
   str% "            )|\n",
   str% "            1\\d\\d\n",
   str% "          )\\d{4}\n",
   str% "        </nationalNumberPattern>\n",
   str% "      </fixedLine>\n",
   str% "      <!-- Prefixes here match those assigned to carriers, as per the ITU communication Jan 23rd\n",
   str% "           2013. -->\n",
   str% "      <mobile>\n",
   str% "        <possibleLengths national=\"9\"/>\n",
   str% "        <exampleNumber>601123456</exampleNumber>\n",
   str% "        <nationalNumberPattern>6[0-356]\\d{7}</nationalNumberPattern>\n",
   str% "      </mobile>\n",
   str% "      <!-- Gamma concept network is being listed as VoIP as per\n",
   str% "           http://www.gammaconcept.com/internet%20sat.html -->\n",
   str% "      <voip>\n",
   str% "        <possibleLengths national=\"9\"/>\n",
   str% "        <exampleNumber>722123456</exampleNumber>\n",
   str% "        <nationalNumberPattern>722\\d{6}</nationalNumberPattern>\n",
   str% "      </voip>\n",
   str% "    </territory>"]

/-- the text up to the end of territory id=GP countryCode=590 -/
noncomputable def GP : List Str :=
  [str% "\n",
   str% "\n",
   str% "    <!-- Guadeloupe (GP) -->\n",
   str% "    <!-- Main region for 'BL,MF' -->\n",
   str% "    <!-- Linked from http://www.arcep.fr/index.php?id=interactivenumeros -->\n",
   str% "    <!-- http://www.itu.int/oth/T0202000058/en -->\n",
   str% "    <!-- https://extranet.arcep.fr/portail/Op%C3%A9rateursCE/Num%C3%A9rotation.aspx -->\n",
   str% "    <!-- There is a direct link to accurate numbering assignments in the ITU document, but this does not always load:\n",
   str% "         https://extranet.arcep.fr/portail/LinkClick.aspx?fileticket=PBA1WK-wnOU%3d&tabid=217&portalid=0&mid=850\n",
   str% "         This should be a spreadsheet containing ~28,000 rows, in which the Guadeloupe allocations are shown, but\n",
   str% "         sometimes it only loads part of the spreadsheet (depending on your browser).\n",
   str% "         The ranges in this spreadsheet are more accurate than the ITU document, which only has 3-digit prefixes and\n",
   str% "         no operator assignments. -->\n",
   str% "    <territory id=\"GP\" mainCountryForCode=\"true\" countryCode=\"590\" internationalPrefix=\"00\"\n",
   str% "               nationalPrefix=\"0\" mobileNumberPortableRegion=\"true\">\n",
   str% "      <availableFormats>\n",
   str% "        <numberFormat pattern=\"(\\d{3})(\\d{2})(\\d{2})(\\d{2})\" nationalPrefixFormattingRule=\"$NP$FG\">\n",
   str% "          <leadingDigits>\n",
   str% "            [5-79]|\n",
   str% "            80[6-9]\n",
   str% "          </leadingDigits>\n",
   str% "          <format>$1 $2 $3 $4</format>\n",
   str% "        </numberFormat>\n",
   str% "        <numberFormat pattern=\"(\\d{3})(\\d{2})(\\d{2})(\\d{2})\" nationalPrefixFormattingRule=\"$NP$FG\">\n",
   str% "          <leadingDigits>8</leadingDigits>\n",
   str% "          <format>$1 $2 $3 $4</format>\n",
   str% "        </numberFormat>\n",
   str% "      </availableFormats>\n",
   str% "      <generalDesc>\n",
   str% "        <nationalNumberPattern>\n",
   str% "          7090\\d{5}|\n",
   str% "          (?:\n",
   str% "            [56]9|\n",
   str% "            [89]\\d\n",
   str% "          )\\d{7}\n",
   str% "        </nationalNumberPattern>\n",
   str% "      </generalDesc>\n",
   str% "      <fixedLine>\n",
   str% "        <possibleLengths national=\"9\"/>\n",
   str% "        <exampleNumber>590201234</exampleNumber>\n",
   str% "        <nationalNumberPattern>\n",
   str% "          (?:\n",
   str% "            59(?:\n",
   str% "              0(?:\n",
   str% "                0[1-68]|\n",
   str% "                [14][0-24-9]|\n",
   str% "                2[0-68]|\n",
   str% "                3[1-9]|\n",
   str% "                5[3-579]|\n",
   str% "                [68][0-689]|\n",
   str% "                7[08]|\n",
   str% "                9\\d\n",
   str% "              )|\n",
   str% "              87\\d\n",
   str% "            )|\n",
   str% "            80[6-9]\\d\\d\n",
   str% "          )\\d{4}\n",
   str% "        </nationalNumberPattern>\n",
   str% "      </fixedLine>\n",
   str% "      <!-- Any ranges assigned from http://www.arcep.fr/index.php?id=interactivenumeros have been\n",
   str% "           listed as belonging to Guadeloupe, St Martin and St Barth\u00E9lemy, since we can't reliably\n",
   str% "           distinguish between them. As per Wikipedia Guadeloupe T\u00E9l\u00E9phone Mobile operator is no\n",
   str% "           longer functioning. However we support these ranges as they are still mentioned in\n",
   str% "           ARCEP numbering plan doc. -->\n",
   str% "      <mobile>\n",
   str% "        <possibleLengths national=\"9\"/>\n",
   str% "        <exampleNumber>690001234</exampleNumber>\n",
   str% "        <nationalNumberPattern>\n",
   str% "          (?:\n",
   str% "            69(?:\n",
   str% "              0\\d\\d|\n",
   str% "              1(?:\n",
   str% "                2[2-9]|\n",
   str% "                3[0-5]\n",
   str% "              )\n",
   str% "            )|\n",
   str% "            7090[0-4]\n",
   str% "          )\\d{4}\n",
   str% "        </nationalNumberPattern>\n",
   str% "      </mobile>\n",
   str% "      <!-- As per ARCEP, mainland France and overseas territories use 0800 to 0805 as Toll-free\n",
   str% "           numbers. -->\n",
   str% "      <tollFree>\n",
   str% "        <possibleLengths national=\"9\"/>\n",
   str% "        <exampleNumber>800012345</exampleNumber>\n",
   str% "        <nationalNumberPattern>80[0-5]\\d{6}</nationalNumberPattern>\n",
   str% "      </tollFree>\n",
   str% "      <premiumRate>\n",
   str% "        <possibleLengths national=\"9\"/>\n",
   str% "        <exampleNumber>810123456</exampleNumber>\n",
   str% "        <nationalNumberPattern>8[129]\\d{7}</nationalNumberPattern>\n",
   str% "      </premiumRate>\n",
   str% "      <voip>\n",
   str% "        <possibleLengths national=\"9\"/>\n",
   str% "        <exampleNumber>976012345</exampleNumber>\n",
   str% "        <nationalNumberPattern>\n",
   str% "          9(?:\n",
   str% "            (?:\n",
   str% "              39[5-7]|\n",
   str% "              76[018]\n",
   str% "            )\\d|\n",
   str% "            475[0-6]\n",
   str% "          )\\d{4}\n",
   str% "        </nationalNumberPattern>\n",
   str% "      </voip>\n",
   str% "    </territory>"]

/-- the text up to the end of territory id=GQ countryCode=240 -/
noncomputable def GQ : List Str :=
  [str% "\n",
   str% "\n",
   str% "    <!-- Equatorial Guinea (GQ) -->\n",
   str% "    <!-- http://www.itu.int/oth/T0202000041/en -->\n",
   str% "    <territory id=\"GQ\" countryCode=\"240\" internationalPrefix=\"00\">\n",
   str% "      <availableFormats>\n",
   str% "        <numberFormat pattern=\"(\\d{3})(\\d{3})(\\d{3})\">\n",
   str% "          <leadingDigits>[235]</leadingDigits>\n",
   str% "          <format>$1 $2 $3</format>\n",
   str% "        </numberFormat>\n",
   str% "        <numberFormat pattern=\"(\\d{3})(\\d{6})\">\n",
   str% "          <leadingDigits>[89]</leadingDigits>\n",
   str% "          <format>$1 $2</format>\n",
   str% "        </numberFormat>\n",
   str% "      </availableFormats>\n",
   str% "      <generalDesc>\n",
   str% "        <nationalNumberPattern>\n",
   str% "          222\\d{6}|\n",
   str% "          (?:\n",
   str% "            3\\d|\n",
   str% "            55|\n",
   str% "            [89]0\n",
   str% "          )\\d{7}\n",
   str% "        </nationalNumberPattern>\n",
   str% "      </generalDesc>\n",
   str% "      <fixedLine>\n",
   str% "        <possibleLengths national=\"9\"/>\n",
   str% "        <exampleNumber>333091234</exampleNumber>\n",
   str% "        <nationalNumberPattern>\n",
   str% "          33[0-24-9]\\d[46]\\d{4}|\n",
   str% "          3(?:\n",
   str% "            33|\n",
   str% "            5\\d\n",
   str% "          )\\d[7-9]\\d{4}\n",
   str% "        </nationalNumberPattern>\n",
   str% "      </fixedLine>\n",
   str% "      <mobile>\n",
   str% "        <possibleLengths national=\"9\"/>\n",
   str% "        <exampleNumber>222123456</exampleNumber>\n",
   str% "        <nationalNumberPattern>\n",
   str% "          (?:\n",
   str% "            222|\n",
   str% "            55\\d\n",
   str% "          )\\d{6}\n",
   str% "        </nationalNumberPattern>\n",
   str% "      </mobile>\n",
   str% "      <!-- Note that personal and sharedCost numbers are said to go under here too - hopefully when\n",
   str% "           they start allocating them there will be a differentiation of prefixes, but this is not\n",
   str% "           clear now. -->\n",
   str% "      <tollFree>\n",
   str% "        <possibleLengths national=\"9\"/>\n",
   str% "        <exampleNumber>800123456</exampleNumber>\n",
   str% "        <nationalNumberPattern>80\\d[1-9]\\d{5}</nationalNumberPattern>\n",
   str% "      </tollFree>\n",
   str% "      <premiumRate>\n",
   str% "        <possibleLengths national=\"9\"/>\n",
   str% "        <exampleNumber>900123456</exampleNumber>\n",
   str% "        <nationalNumberPattern>90\\d[1-9]\\d{5}</nationalNumberPattern>\n",
   str% "      </premiumRate>\n",
   str% "    </territory>"]

/-- the text of this module -/
noncomputable def chunk05 : List (List Str) :=
  [ET, FI, FJ, FK, FM, FO, FR, GA, GB, GD, GE, GF, GG, GH, GI, GL, GM, GN, GP, GQ]

end Phone.Data.S
