import Verif.Basic.Str
/-! Text of `/repo/assets/PhoneNumberMetadata.xml`, in lines. Generated by `tools/gen_xml.py`; do not edit. -/

set_option maxRecDepth 100000
namespace Phone.Data.S

/-- the text up to the end of territory id=SD countryCode=249 -/
noncomputable def SD : List Str :=
  [str% "\n",
   str% "\n",
   str% "    <!-- Sudan (SD) -->\n",
   str% "    <!-- http://www.itu.int/oth/T02020000C4/en -->\n",
   str% "    <!-- https://en.wikipedia.org/wiki/Telephone_numbers_in_Sudan -->\n",
   str% "    <territory id=\"SD\" countryCode=\"249\" internationalPrefix=\"00\" nationalPrefix=\"0\">\n",
   str% "      <availableFormats>\n",
   str% "        <numberFormat pattern=\"(\\d{2})(\\d{3})(\\d{4})\" nationalPrefixFormattingRule=\"$NP$FG\">\n",
   str% "          <leadingDigits>[19]</leadingDigits>\n",
   str% "          <format>$1 $2 $3</format>\n",
   str% "        </numberFormat>\n",
   str% "      </availableFormats>\n",
   str% "      <generalDesc>\n",
   str% "        <nationalNumberPattern>[19]\\d{8}</nationalNumberPattern>\n",
   str% "      </generalDesc>\n",
   str% "      <!-- Retaining previous prefix as 18 since it seems still to be used. ITU doc says 12 is a\n",
   str% "           fixed-line range but we are supporting 1[0-2] under mobile as Sudatel mentions that\n",
   str% "           these mobile ranges are assigned to them. -->\n",
   str% "      <!-- The third digit here is an area code as per Wikipedia. Added 154 range based on valid\n",
   str% "           numbers found online. -->\n",
   str% "      <fixedLine>\n",
   str% "        <possibleLengths national=\"9\"/>\n",
   str% "        <exampleNumber>153123456</exampleNumber>\n",
   str% "        <nationalNumberPattern>\n",
   str% "          1(?:\n",
   str% "            5\\d|\n",
   str% "            8[35-7]\n",
   str% "          )\\d{6}\n",
   str% "        </nationalNumberPattern>\n",
   str% "      </fixedLine>\n",
   str% "      <mobile>\n",
   str% "        <possibleLengths national=\"9\"/>\n",
   str% "        <exampleNumber>911231234</exampleNumber>\n",
   str% "        <nationalNumberPattern>\n",
   str% "          (?:\n",
   str% "            1[0-2]|\n",
   str% "            9[0-3569]\n",
   str% "          )\\d{7}\n",
   str% "        </nationalNumberPattern>\n",
   str% "      </mobile>\n",
   str% "    </territory>"]

/-- the text up to the end of territory id=SE countryCode=46 -/
noncomputable def SE : List Str :=
  [str% "\n",
   str% "\n",
   str% "    <!-- Sweden (SE) -->\n",
   str% "    <!-- https://pts.se/en/internet-and-telephony/numbering-and-addressing/ -->\n",
   str% "    <!-- https://nummer.pts.se/NbrPlanSearch/GetNumbers -->\n",
   str% "    <!-- Formatting patterns are from the numbering plan and from the Swedish yellow pages\n",
   str% "         http://gulasidorna.eniro.se -->\n",
   str% "    <territory id=\"SE\" countryCode=\"46\" internationalPrefix=\"00\" nationalPrefix=\"0\"\n",
   str% "               mobileNumberPortableRegion=\"true\">\n",
   str% "      <availableFormats>\n",
   str% "        <!-- Short toll-free numbers. -->\n",
   str% "        <numberFormat pattern=\"(\\d{2})(\\d{2,3})(\\d{2})\" nationalPrefixFormattingRule=\"$NP$FG\">\n",
   str% "          <leadingDigits>20</leadingDigits>\n",
   str% "          <format>$1-$2 $3</format>\n",
   str% "          <intlFormat>$1 $2 $3</intlFormat>\n",
   str% "        </numberFormat>\n",
   str% "        <!-- 7 digit premium rate numbers. -->\n",
   str% "        <numberFormat pattern=\"(\\d{3})(\\d{4})\" nationalPrefixFormattingRule=\"$NP$FG\">\n",
   str% "          <leadingDigits>\n",
   str% "            9(?:\n",
   str% "              00|\n",
   str% "              39|\n",
   str% "              44|\n",
   str% "              9\n",
   str% "            )\n",
   str% "          </leadingDigits>\n",
   str% "          <format>$1-$2</format>\n",
   str% "          <intlFormat>$1 $2</intlFormat>\n",
   str% "        </numberFormat>\n",
   str% "        <!-- Short fixed line numbers (2 digit area code) -->\n",
   str% "        <numberFormat pattern=\"(\\d{2})(\\d{3})(\\d{2})\" nationalPrefixFormattingRule=\"$NP$FG\">\n",
   str% "          <leadingDigits>\n",
   str% "            [12][136]|\n",
   str% "            3[356]|\n",
   str% "            4[0246]|\n",
   str% "            6[03]|\n",
   str% "            90[1-9]\n",
   str% "          </leadingDigits>\n",
   str% "          <format>$1-$2 $3</format>\n",
   str% "          <intlFormat>$1 $2 $3</intlFormat>\n",
   str% "        </numberFormat>\n",
   str% "        <!-- Fixed line numbers in Stockholm (1 digit area code) -->\n",
   str% "        <numberFormat pattern=\"(\\d)(\\d{2,3})(\\d{2})(\\d{2})\" nationalPrefixFormattingRule=\"$NP$FG\">\n",
   str% "          <leadingDigits>8</leadingDigits>\n",
   str% "          <format>$1-$2 $3 $4</format>\n",
   str% "          <intlFormat>$1 $2 $3 $4</intlFormat>\n",
   str% "        </numberFormat>\n",
   str% "        <!-- Short fixed line numbers (3 digit area code) -->\n",
   str% "        <numberFormat pattern=\"(\\d{3})(\\d{2,3})(\\d{2})\" nationalPrefixFormattingRule=\"$NP$FG\">\n",
   str% "          <leadingDigits>\n",
   str% "            1[2457]|\n",
   str% "            2(?:\n",
   str% "              [247-9]|\n",
   str% "              5[0138]\n",
   str% "            )|\n",
   str% "            3[0247-9]|\n",
   str% "            4[1357-9]|\n",
   str% "            5[0-35-9]|\n",
   str% "            6(?:\n",
   str% "              [125689]|\n",
   str% "              4[02-57]|\n",
   str% "              7[0-2]\n",
   str% "            )|\n",
   str% "            9(?:\n",
   str% "              [125-8]|\n",
   str% "              3[02-5]|\n",
   str% "              4[0-3]\n",
   str% "            )\n",
   str% "          </leadingDigits>\n",
   str% "          <format>$1-$2 $3</format>\n",
   str% "          <intlFormat>$1 $2 $3</intlFormat>\n",
   str% "        </numberFormat>\n",
   str% "        <!-- 8-9 digit premium rate numbers. -->\n",
   str% "        <numberFormat pattern=\"(\\d{3})(\\d{2,3})(\\d{3})\" nationalPrefixFormattingRule=\"$NP$FG\">\n",
   str% "          <leadingDigits>\n",
   str% "            9(?:\n",
   str% "              00|\n",
   str% "              39|\n",
   str% "              44\n",
   str% "            )\n",
   str% "          </leadingDigits>\n",
   str% "          <format>$1-$2 $3</format>\n",
   str% "          <intlFormat>$1 $2 $3</intlFormat>\n",
   str% "        </numberFormat>\n",
   str% "        <!-- Fixed line numbers (2 digit area code) and \"long\" toll free numbers. -->\n",
   str% "        <numberFormat pattern=\"(\\d{2})(\\d{2,3})(\\d{2})(\\d{2})\" nationalPrefixFormattingRule=\"$NP$FG\">\n",
   str% "          <leadingDigits>\n",
   str% "            1[13689]|\n",
   str% "            2[0136]|\n",
   str% "            3[1356]|\n",
   str% "            4[0246]|\n",
   str% "            54|\n",
   str% "            6[03]|\n",
   str% "            90[1-9]\n",
   str% "          </leadingDigits>\n",
   str% "          <format>$1-$2 $3 $4</format>\n",
   str% "          <intlFormat>$1 $2 $3 $4</intlFormat>\n",
   str% "        </numberFormat>\n",
   str% "        <!-- Mobile numbers and other 9 digit numbers starting with 7 (pager, shared cost etc.)\n",
   str% "             Also for UAN numbers starting with 10. -->\n",
   str% "        <numberFormat pattern=\"(\\d{2})(\\d{3})(\\d{2})(\\d{2})\" nationalPrefixFormattingRule=\"$NP$FG\">\n",
   str% "          <leadingDigits>\n",
   str% "            10|\n",
   str% "            7\n",
   str% "          </leadingDigits>\n",
   str% "          <format>$1-$2 $3 $4</format>\n",
   str% "          <intlFormat>$1 $2 $3 $4</intlFormat>\n",
   str% "        </numberFormat>\n",
   str% "        <!-- Fixed line numbers in Stockholm (1 digit area code) -->\n",
   str% "        <numberFormat pattern=\"(\\d)(\\d{3})(\\d{3})(\\d{2})\" nationalPrefixFormattingRule=\"$NP$FG\">\n",
   str% "          <leadingDigits>8</leadingDigits>\n",
   str% "          <format>$1-$2 $3 $4</format>\n",
   str% "          <intlFormat>$1 $2 $3 $4</intlFormat>\n",
   str% "        </numberFormat>\n",
   str% "        <!-- Fixed line numbers (3 digit area code) -->\n",
   str% "        <numberFormat pattern=\"(\\d{3})(\\d{2})(\\d{2})(\\d{2})\" nationalPrefixFormattingRule=\"$NP$FG\">\n",
   str% "          <leadingDigits>\n",
   str% "            [13-5]|\n",
   str% "            2(?:\n",
   str% "              [247-9]|\n",
   str% "              5[0138]\n",
   str% "            )|\n",
   str% "            6(?:\n",
   str% "              [124-689]|\n",
   str% "              7[0-2]\n",
   str% "            )|\n",
   str% "            9(?:\n",
   str% "              [125-8]|\n",
   str% "              3[02-5]|\n",
   str% "              4[0-3]\n",
   str% "            )\n",
   str% "          </leadingDigits>\n",
   str% "          <format>$1-$2 $3 $4</format>\n",
   str% "          <intlFormat>$1 $2 $3 $4</intlFormat>\n",
   str% "        </numberFormat>\n",
   str% "        <!-- 10 digit premium rate numbers. -->\n",
   str% "        <numberFormat pattern=\"(\\d{3})(\\d{2})(\\d{2})(\\d{3})\" nationalPrefixFormattingRule=\"$NP$FG\">\n",
   str% "          <leadingDigits>9</leadingDigits>\n",
   str% "          <format>$1-$2 $3 $4</format>\n",
   str% "          <intlFormat>$1 $2 $3 $4</intlFormat>\n",
   str% "        </numberFormat>\n",
   str% "        <!-- Voicemail -->\n",
   str% "        <numberFormat pattern=\"(\\d{3})(\\d{2})(\\d{3})(\\d{2})(\\d{2})\"\n",
   str% "                      nationalPrefixFormattingRule=\"$NP$FG\">\n",
   str% "          <leadingDigits>[26]</leadingDigits>\n",
   str% "          <format>$1-$2 $3 $4 $5</format>\n",
   str% "          <intlFormat>$1 $2 $3 $4 $5</intlFormat>\n",
   str% "        </numberFormat>\n",
   str% "      </availableFormats>\n",
   str% "      <generalDesc>\n",
   str% "        <nationalNumberPattern>\n",
   str% "          (?:\n",
   str% "            [26]\\d\\d|\n",
   str% "            9\n",
   str% "          )\\d{9}|\n",
   str% "          [1-9]\\d{8}|\n",
   str% "          [1-689]\\d{7}|\n",
   str% "          [1-4689]\\d{6}|\n",
   str% "          2\\d{5}\n",
   str% "        </nationalNumberPattern>\n",
   str% "      </generalDesc>\n",
   str% "      <fixedLine>\n",
   str% "        <possibleLengths national=\"[7-9]\"/>\n",
   str% "        <exampleNumber>8123456</exampleNumber>\n",
   str% "        <nationalNumberPattern>\n",
   str% "          (?:\n",
   str% "            (?:\n",
   str% "              [12][136]|\n",
   str% "              3[356]|\n",
   str% "              4[0246]|\n",
   str% "              6[03]|\n",
   str% "              8\\d\n",
   str% "            )\\d|\n",
   str% "            90[1-9]\n",
   str% "          )\\d{4,6}|\n",
   str% "          (?:\n",
   str% "            1(?:\n",
   str% "              2[0-35]|\n",
   str% "              4[0-4]|\n",
   str% "              5[0-25-9]|\n",
   str% "              7[13-6]|\n",
   str% "              [89]\\d\n",
   str% "            )|\n",
   str% "            2(?:\n",
   str% "              2[0-7]|\n",
   str% "              4[0136-8]|\n",
   str% "              5[0138]|\n",
   str% "              7[018]|\n",
   str% "              8[01]|\n",
   str% "              9[0-57]\n",
   str% "            )|\n",
   str% "            3(?:\n",
   str% "              0[0-4]|\n",
   str% "              1\\d|\n",
   str% "              2[0-25]|\n",
   str% "              4[056]|\n",
   str% "              7[0-2]|\n",
   str% "              8[0-3]|\n",
   str% "              9[023]\n",
   str% "            )|\n",
   str% "            4(?:\n",
   str% "              1[013-8]|\n",
   str% "              3[0135]|\n",
   str% "              5[14-79]|\n",
   str% "              7[0-246-9]|\n",
   str% "              8[0156]|\n",
   str% "              9[0-689]\n",
   str% "            )|\n",
   str% "            5(?:\n",
   str% "              0[0-6]|\n",
   str% "              [15][0-5]|\n",
   str% "              2[0-68]|\n",
   str% "              3[0-4]|\n",
   str% "              4\\d|\n",
   str% "              6[03-5]|\n",
   str% "              7[013]|\n",
   str% "              8[0-79]|\n",
   str% "              9[01]\n",
   str% "            )|\n",
   str% "            6(?:\n",
   str% "              1[1-3]|\n",
   str% "              2[0-4]|\n",
   str% "              4[02-57]|\n",
   str% "              5[0-37]|\n",
   str% "              6[0-3]|\n",
   str% "              7[0-2]|\n",
   str% "              8[0247]|\n",
   str% "              9[0-356]\n",
   str% "            )|\n",
   str% "            9(?:\n",
   str% "              1[0-68]|\n",
   str% "              2\\d|\n",
   str% "              3[02-5]|\n",
   str% "              4[0-3]|\n",
   str% "              5[0-4]|\n",
   str% "              [68][01]|\n",
   str% "              7[0135-8]\n",
   str% "            )\n",
   str% "          )\\d{5,6}\n",
   str% "        </nationalNumberPattern>\n",
   str% "      </fixedLine>\n",
   str% "      <mobile>\n",
   str% "        <possibleLengths national=\"9\"/>\n",
   str% "        <exampleNumber>701234567</exampleNumber>\n",
   str% "        <nationalNumberPattern>7[02369]\\d{7}</nationalNumberPattern>\n",
   str% "      </mobile>\n",
   str% "      <pager>\n",
   str% "        <possibleLengths national=\"9\"/>\n",
   str% "        <exampleNumber>740123456</exampleNumber>\n",
   str% "        <nationalNumberPattern>74[02-9]\\d{6}</nationalNumberPattern>\n",
   str% "      </pager>\n",
   str% "      <tollFree>\n",
   str% "        <possibleLengths national=\"[6-9]\"/>\n",
   str% "        <exampleNumber>20123456</exampleNumber>\n",
   str% "        <nationalNumberPattern>20\\d{4,7}</nationalNumberPattern>\n",
   str% "      </tollFree>\n",
   str% "      <premiumRate>\n",
   str% "        <possibleLengths national=\"[7-10]\"/>\n",
   str% "        <exampleNumber>9001234567</exampleNumber>\n",
   str% "        <nationalNumberPattern>\n",
   str% "          649\\d{6}|\n",
   str% "          99[1-59]\\d{4}(?:\n",
   str% "            \\d{3}\n",
   str% "          )?|\n",
   str% "          9(?:\n",
   str% "            00|\n",
   str% "            39|\n",
   str% "            44\n",
   str% "          )[1-8]\\d{3,6}\n",
   str% "        </nationalNumberPattern>\n",
   str% "      </premiumRate>\n",
   str% "      <sharedCost>\n",
   str% "        <possibleLengths national=\"9\"/>\n",
   str% "        <exampleNumber>771234567</exampleNumber>\n",
   str% "        <nationalNumberPattern>77[0-7]\\d{6}</nationalNumberPattern>\n",
   str% "      </sharedCost>\n",
   str% "      <personalNumber>\n",
   str% "        <possibleLengths national=\"9\"/>\n",
   str% "        <exampleNumber>751234567</exampleNumber>\n",
   str% "        <nationalNumberPattern>75[1-8]\\d{6}</nationalNumberPattern>\n",
   str% "      </personalNumber>\n",
   str% "      <uan>\n",
   str% "        <possibleLengths national=\"9\"/>\n",
   str% "        <exampleNumber>102345678</exampleNumber>\n",
   str% "        <nationalNumberPattern>10[1-8]\\d{6}</nationalNumberPattern>\n",
   str% "      </uan>\n",
   str% "      <voicemail>\n",
   str% "        <possibleLengths national=\"12\"/>\n",
   str% "        <exampleNumber>254123456789</exampleNumber>\n",
   str% "        <nationalNumberPattern>\n",
   str% "          (?:\n",
   str% "            25[245]|\n",
   str% "            67[3-68]\n",
   str% "          )\\d{9}\n",
   str% "        </nationalNumberPattern>\n",
   str% "      </voicemail>\n",
   str% "    </territory>"]

/-- the text up to the end of territory id=SG countryCode=65 -/
noncomputable def SG : List Str :=
  [str% "\n",
   str% "\n",
   str% "    <!-- Singapore (SG) -->\n",
   str% "    <!-- https://www.imda.gov.sg/regulations-and-licensing-listing/numbering/national-numbering-plan-and-allocation-process -->\n",
   str% "    <!-- https://en.wikipedia.org/wiki/Telephone_numbers_in_Singapore -->\n",
   str% "    <territory id=\"SG\" countryCode=\"65\" internationalPrefix=\"0[0-3]\\d\"\n",
   str% "               mobileNumberPortableRegion=\"true\">\n",
   str% "      <availableFormats>\n",
   str% "        <numberFormat pattern=\"(\\d{4,5})\">\n",
   str% "          <leadingDigits>\n",
   str% "            1[013-9]|\n",
   str% "            77\n",
   str% "          </leadingDigits>\n",
   str% "          <leadingDigits>\n",
   str% "            1(?:\n",
   str% "              [013-8]|\n",
   str% "              9(?:\n",
   str% "                0[1-9]|\n",
   str% "                [1-9]\n",
   str% "              )\n",
   str% "            )|\n",
   str% "            77\n",
   str% "          </leadingDigits>\n",
   str% "          <format>$1</format>\n",
   str% "          <intlFormat>NA</intlFormat>\n",
   str% "        </numberFormat>\n",
   str% "        <numberFormat pattern=\"(\\d{4})(\\d{4})\">\n",
   str% "          <leadingDigits>\n",
   str% "            [369]|\n",
   str% "            8(?:\n",
   str% "              0[1-9]|\n",
   str% "              [1-9]\n",
   str% "            )\n",
   str% "          </leadingDigits>\n",
   str% "          <format>$1 $2</format>\n",
   str% "        </numberFormat>\n",
   str% "        <numberFormat pattern=\"(\\d{3})(\\d{3})(\\d{4})\">\n",
   str% "          <leadingDigits>8</leadingDigits>\n",
   str% "          <format>$1 $2 $3</format>\n",
   str% "        </numberFormat>\n",
   str% "        <numberFormat pattern=\"(\\d{4})(\\d{4})(\\d{3})\">\n",
   str% "          <leadingDigits>7</leadingDigits>\n",
   str% "          <format>$1 $2 $3</format>\n",
   str% "        </numberFormat>\n",
   str% "        <numberFormat pattern=\"(\\d{4})(\\d{3})(\\d{4})\">\n",
   str% "          <leadingDigits>1</leadingDigits>\n",
   str% "          <format>$1 $2 $3</format>\n",
   str% "        </numberFormat>\n",
   str% "      </availableFormats>\n",
   str% "      <generalDesc>\n",
   str% "        <nationalNumberPattern>\n",
   str% "          (?:\n",
   str% "            (?:\n",
   str% "              1\\d|\n",
   str% "              8\n",
   str% "            )\\d\\d|\n",
   str% "            7000\n",
   str% "          )\\d{7}|\n",
   str% "          [3689]\\d{7}\n",
   str% "        </nationalNumberPattern>\n",
   str% "      </generalDesc>\n",
   str% "      <fixedLine>\n",
   str% "        <possibleLengths national=\"8\"/>\n",
   str% "        <exampleNumber>61234567</exampleNumber>\n",
   str% "        <nationalNumberPattern>\n",
   str% "          662[0-24-9]\\d{4}|\n",
   str% "          6(?:\n",
   str% "            [0-578]\\d|\n",
   str% "            6[013-57-9]|\n",
   str% "            9[0-35-9]\n",
   str% "          )\\d{5}\n",
   str% "        </nationalNumberPattern>\n",
   str% "      </fixedLine>\n",
   str% "      <!-- 802[23] ,804[1467] and 8055 are added based on user report.  -->\n",
   str% "      <mobile>\n",
   str% "        <possibleLengths national=\"8\"/>\n",
   str% "        <exampleNumber>81234567</exampleNumber>\n",
   str% "        <nationalNumberPattern>\n",
   str% "          80[1-9]\\d{5}|\n",
   str% "          (?:\n",
   str% "            8[1-9]|\n",
   str% "            9[0-8]\n",
   str% "          )\\d{6}\n",
   str% "        </nationalNumberPattern>\n",
   str% "      </mobile>\n",
   str% "      <tollFree>\n",
   str% "        <possibleLengths national=\"10,11\"/>\n",
   str% "        <exampleNumber>18001234567</exampleNumber>\n",
   str% "        <nationalNumberPattern>\n",
   str% "          (?:\n",
   str% "            18|\n",
   str% "            8\n",
   str% "          )00\\d{7}\n",
   str% "        </nationalNumberPattern>\n",
   str% "      </tollFree>\n",
   str% "      <premiumRate>\n",
   str% "        <possibleLengths national=\"11\"/>\n",
   str% "        <exampleNumber>19001234567</exampleNumber>\n",
   str% "        <nationalNumberPattern>1900\\d{7}</nationalNumberPattern>\n",
   str% "      </premiumRate>\n",
   str% "      <voip>\n",
   str% "        <possibleLengths national=\"8\"/>\n",
   str% "        <exampleNumber>31234567</exampleNumber>\n",
   str% "        <nationalNumberPattern>\n",
   str% "          (?:\n",
   str% "            3[12]\\d|\n",
   str% "            666\n",
   str% "          )\\d{5}\n",
   str% "        </nationalNumberPattern>\n",
   str% "      </voip>\n",
   str% "      <!-- Although not detailed in the plan beyond mentioning their existence, it seems 7000\n",
   str% "           numbers are used for companies. Most of the online examples are in fact alpha-numbers. -->\n",
   str% "      <uan>\n",
   str% "        <possibleLengths national=\"11\"/>\n",
   str% "        <exampleNumber>70001234567</exampleNumber>\n",
   str% "        <nationalNumberPattern>7000\\d{7}</nationalNumberPattern>\n",
   str% "      </uan>\n",
   str% "    </territory>"]

/-- the text up to the end of territory id=SH countryCode=290 -/
noncomputable def SH : List Str :=
  [str% "\n",
   str% "\n",
   str% "    <!-- St. Helena (SH) -->\n",
   str% "    <!-- Main region for 'TA' -->\n",
   str% "    <!-- http://www.itu.int/oth/T02020000AF/en -->\n",
   str% "    <territory id=\"SH\" mainCountryForCode=\"true\" countryCode=\"290\" leadingDigits=\"[256]\"\n",
   str% "               internationalPrefix=\"00\">\n",
   str% "      <generalDesc>\n",
   str% "        <nationalNumberPattern>\n",
   str% "          (?:\n",
   str% "            [256]\\d|\n",
   str% "            8\n",
   str% "          )\\d{3}\n",
   str% "        </nationalNumberPattern>\n",
   str% "      </generalDesc>\n",
   str% "      <!-- There is a bug in the way the library calculates whether numbers are \"possible\" for a\n",
   str% "           region in that it uses the \"main\" country if multiple countries share a country calling\n",
   str% "           code. Trista da Cu\u00F1ha shares a country calling code with Saint Helena but has only 4\n",
   str% "           digit numbers, so we include 4 as a possible length here. -->\n",
   str% "      <!-- St Helena has changed to 5 digits on October 1. 2013 -->\n",
   str% "      <!-- Using St Helena Tourism as the example number. -->\n",
   str% "      <fixedLine>\n",
   str% "        <possibleLengths national=\"4,5\"/>\n",
   str% "        <exampleNumber>22158</exampleNumber>\n",
   str% "        <nationalNumberPattern>\n",
   str% "          2(?:\n",
   str% "            [0-57-9]\\d|\n",
   str% "            6[4-9]\n",
   str% "          )\\d\\d\n",
   str% "        </nationalNumberPattern>\n",
   str% "      </fixedLine>\n",
   str% "      <!-- Effective 1st August 2015 -->\n",
   str% "      <mobile>\n",
   str% "        <possibleLengths national=\"5\"/>\n",
   str% "        <exampleNumber>51234</exampleNumber>\n",
   str% "        <nationalNumberPattern>[56]\\d{4}</nationalNumberPattern>\n",
   str% "      </mobile>\n",
   str% "      <!-- The ITU doc reserves prefixes 260 and 261 for Information Service and prefix 263 for\n",
   str% "           Flexible access. We do not support these prefixes as we do not have any information\n",
   str% "           about their usage. -->\n",
   str% "      <voip>\n",
   str% "        <possibleLengths national=\"5\"/>\n",
   str% "        <exampleNumber>26212</exampleNumber>\n",
   str% "        <nationalNumberPattern>262\\d\\d</nationalNumberPattern>\n",
   str% "      </voip>\n",
   str% "    </territory>"]

/-- the text up to the end of territory id=SI countryCode=386 -/
noncomputable def SI : List Str :=
  [str% "\n",
   str% "\n",
   str% "    <!-- Slovenia (SI) -->\n",
   str% "    <!-- http://www.itu.int/oth/T02020000BE/en -->\n",
   str% "    <!-- https://www.akos-rs.si/telekomunikacije/raziscite/stevilski-prostor -->\n",
   str% "    <territory id=\"SI\" countryCode=\"386\" preferredInternationalPrefix=\"00\"\n",
   str% "               internationalPrefix=\"00|10(?:22|66|88|99)\" nationalPrefix=\"0\"\n",
   str% "               mobileNumberPortableRegion=\"true\">\n",
   str% "      <availableFormats>\n",
   str% "        <numberFormat pattern=\"(\\d{2})(\\d{3,6})\" nationalPrefixFormattingRule=\"$NP$FG\">\n",
   str% "          <leadingDigits>\n",
   str% "            8[09]|\n",
   str% "            9\n",
   str% "          </leadingDigits>\n",
   str% "          <format>$1 $2</format>\n",
   str% "        </numberFormat>\n",
   str% "        <numberFormat pattern=\"(\\d{3})(\\d{5})\" nationalPrefixFormattingRule=\"$NP$FG\">\n",
   str% "          <leadingDigits>\n",
   str% "            59|\n",
   str% "            8\n",
   str% "          </leadingDigits>\n",
   str% "          <format>$1 $2</format>\n",
   str% "        </numberFormat>\n",
   str% "        <numberFormat pattern=\"(\\d{2})(\\d{3})(\\d{3})\" nationalPrefixFormattingRule=\"$NP$FG\">\n",
   str% "          <leadingDigits>\n",
   str% "            [37][01]|\n",
   str% "            4[013]|\n",
   str% "            51|\n",
   str% "            6\n",
   str% "          </leadingDigits>\n",
   str% "          <format>$1 $2 $3</format>\n",
   str% "        </numberFormat>\n",
   str% "        <numberFormat pattern=\"(\\d)(\\d{3})(\\d{2})(\\d{2})\" nationalPrefixFormattingRule=\"($NP$FG)\">\n",
   str% "          <leadingDigits>[1-57]</leadingDigits>\n",
   str% "          <format>$1 $2 $3 $4</format>\n",
   str% "        </numberFormat>\n",
   str% "      </availableFormats>\n",
   str% "      <generalDesc>\n",
   str% "        <nationalNumberPattern>\n",
   str% "          [1-7]\\d{7}|\n",
   str% "          8\\d{4,7}|\n",
   str% "          90\\d{4,6}\n",
   str% "        </nationalNumberPattern>\n",
   str% "      </generalDesc>\n",
   str% "      <!-- Prefix 32 added after a user report. -->\n",
   str% "      <fixedLine>\n",
   str% "        <possibleLengths national=\"8\" localOnly=\"7\"/>\n",
   str% "        <exampleNumber>12345678</exampleNumber>\n",
   str% "        <nationalNumberPattern>\n",
   str% "          (?:\n",
   str% "            [1-357][2-8]|\n",
   str% "            4[24-8]\n",
   str% "          )\\d{6}\n",
   str% "        </nationalNumberPattern>\n",
   str% "      </fixedLine>\n",
   str% "      <!-- 43 range is mentioned as geographic number in 18.VII.2018 ITU doc where as previous\n",
   str% "           ITU doc (15.III.2017) says it is MVNO. Supporting it under mobile as we found the\n",
   str% "           numbers does not belong to same area. -->\n",
   str% "      <!-- Supporting all 69X numbers based on Wikipedia and some sub ranges being present\n",
   str% "           in IR 21 doc. -->\n",
   str% "      <!-- Prefix 049 has been removed as it is no longer listed in the latest numbering plan. -->\n",
   str% "      <mobile>\n",
   str% "        <possibleLengths national=\"8\"/>\n",
   str% "        <exampleNumber>31234567</exampleNumber>\n",
   str% "        <nationalNumberPattern>\n",
   str% "          65(?:\n",
   str% "            [178]\\d|\n",
   str% "            5[56]|\n",
   str% "            6[01]\n",
   str% "          )\\d{4}|\n",
   str% "          (?:\n",
   str% "            [37][01]|\n",
   str% "            4[013]|\n",
   str% "            51|\n",
   str% "            6[489]\n",
   str% "          )\\d{6}\n",
   str% "        </nationalNumberPattern>\n",
   str% "      </mobile>\n",
   str% "      <tollFree>\n",
   str% "        <possibleLengths national=\"[6-8]\"/>\n",
   str% "        <exampleNumber>80123456</exampleNumber>\n",
   str% "        <nationalNumberPattern>80\\d{4,6}</nationalNumberPattern>\n",
   str% "      </tollFree>\n",
   str% "      <!-- Includes televoting, mass calling -->\n",
   str% "      <premiumRate>\n",
   str% "        <possibleLengths national=\"[5-8]\"/>\n",
   str% "        <exampleNumber>90123456</exampleNumber>\n",
   str% "        <nationalNumberPattern>\n",
   str% "          89[1-3]\\d{2,5}|\n",
   str% "          90\\d{4,6}\n",
   str% "        </nationalNumberPattern>\n",
   str% "      </premiumRate>\n",
   str% "      <voip>\n",
   str% "        <possibleLengths national=\"8\"/>\n",
   str% "        <exampleNumber>59012345</exampleNumber>\n",
   str% "        <nationalNumberPattern>\n",
   str% "          (?:\n",
   str% "            59\\d\\d|\n",
   str% "            8(?:\n",
   str% "              1(?:\n",
   str% "                [67]\\d|\n",
   str% "                8[0-589]\n",
   str% "              )|\n",
   str% "              2(?:\n",
   str% "                0\\d|\n",
   str% "                2[0-37-9]|\n",
   str% "                8[0-2489]\n",
   str% "              )|\n",
   str% "              3[389]\\d\n",
   str% "            )\n",
   str% "          )\\d{4}\n",
   str% "        </nationalNumberPattern>\n",
   str% "      </voip>\n",
   str% "    </territory>"]

/-- the text up to the end of territory id=SJ countryCode=47 -/
noncomputable def SJ : List Str :=
  [str% "\n",
   str% "\n",
   str% "    <!-- Svalbard & Jan Mayen (SJ) -->\n",
   str% "    <!-- Calling code and formatting shared with 'NO' -->\n",
   str% "    <!-- https://nkom.no/telefoni-og-telefonnummer/telefonnummer-og-den-norske-nummerplan/alle-nummerserier-for-norske-telefonnumre/den-norske-nummerplanen-for-telefoni-med-mer-e.164 -->\n",
   str% "    <!-- https://en.wikipedia.org/wiki/Telephone_numbers_in_Svalbard -->\n",
   str% "    <territory id=\"SJ\" countryCode=\"47\" leadingDigits=\"79\" internationalPrefix=\"00\">\n",
   str% "      <generalDesc>\n",
   str% "        <nationalNumberPattern>\n",
   str% "          0\\d{4}|\n",
   str% "          (?:\n",
   str% "            [489]\\d|\n",
   str% "            79\n",
   str% "          )\\d{6}\n",
   str% "        </nationalNumberPattern>\n",
   str% "      </generalDesc>\n",
   str% "      <fixedLine>\n",
   str% "        <possibleLengths national=\"8\"/>\n",
   str% "        <exampleNumber>79123456</exampleNumber>\n",
   str% "        <nationalNumberPattern>79\\d{6}</nationalNumberPattern>\n",
   str% "      </fixedLine>\n",
   str% "      <!-- Copied from Norway metadata. -->\n",
   str% "      <mobile>\n",
   str% "        <possibleLengths national=\"8\"/>\n",
   str% "        <exampleNumber>41234567</exampleNumber>\n",
   str% "        <nationalNumberPattern>[49]\\d{7}</nationalNumberPattern>\n",
   str% "      </mobile>\n",
   str% "      <tollFree>\n",
   str% "        <possibleLengths national=\"8\"/>\n",
   str% "        <exampleNumber>80012345</exampleNumber>\n",
   str% "        <nationalNumberPattern>80[01]\\d{5}</nationalNumberPattern>\n",
   str% "      </tollFree>\n",
   str% "      <premiumRate>\n",
   str% "        <possibleLengths national=\"8\"/>\n",
   str% "        <exampleNumber>82012345</exampleNumber>\n",
   str% "        <nationalNumberPattern>82[09]\\d{5}</nationalNumberPattern>\n",
   str% "      </premiumRate>\n",
   str% "      <sharedCost>\n",
   str% "        <possibleLengths national=\"8\"/>\n",
   str% "        <exampleNumber>81021234</exampleNumber>\n",
   str% "        <nationalNumberPattern>\n",
   str% "          810(?:\n",
   str% "            0[0-6]|\n",
   str% "            [2-8]\\d\n",
   str% "          )\\d{3}\n",
   str% "        </nationalNumberPattern>\n",
   str% "      </sharedCost>\n",
   str% "      <personalNumber>\n",
   str% "        <possibleLengths national=\"8\"/>\n",
   str% "        <exampleNumber>88012345</exampleNumber>\n",
   str% "        <nationalNumberPattern>880\\d{5}</nationalNumberPattern>\n",
   str% "      </personalNumber>\n",
   str% "      <voip>\n",
   str% "        <possibleLengths national=\"8\"/>\n",
   str% "        <exampleNumber>85012345</exampleNumber>\n",
   str% "        <nationalNumberPattern>85[0-5]\\d{5}</nationalNumberPattern>\n",
   str% "      </voip>\n",
   str% "      <!-- Includes some 810 local-rate numbers, and long-distance rate numbers.\n",
   str% "           04xxx is moved to Shortcodes as it can be used to send SMS as well\n",
   str% "           https://www.dnb.no/en/everyday-banking/services/text-message -->\n",
   str% "      <uan>\n",
   str% "        <possibleLengths national=\"5,8\"/>\n",
   str% "        <exampleNumber>02000</exampleNumber>\n",
   str% "        <nationalNumberPattern>\n",
   str% "          (?:\n",
   str% "            0[235-9]|\n",
   str% "            81(?:\n",
   str% "              0(?:\n",
   str% "                0[7-9]|\n",
   str% "                1\\d\n",
   str% "              )|\n",
   str% "              5\\d\\d\n",
   str% "            )\n",
   str% "          )\\d{3}\n",
   str% "        </nationalNumberPattern>\n",
   str% "      </uan>\n",
   str% "      <voicemail>\n",
   str% "        <possibleLengths national=\"8\"/>\n",
   str% "        <exampleNumber>81212345</exampleNumber>\n",
   str% "        <nationalNumberPattern>81[23]\\d{5}</nationalNumberPattern>\n",
   str% "      </voicemail>\n",
   str% "    </territory>"]

/-- the text up to the end of territory id=SK countryCode=421 -/
noncomputable def SK : List Str :=
  [str% "\n",
   str% "\n",
   str% "    <!-- Slovakia (SK) -->\n",
   str% "    <!-- http://www.itu.int/oth/T02020000BD/en -->\n",
   str% "    <!-- https://www.ezd.sk/dbpc/databazacisel.php -->\n",
   str% "    <!-- http://www.teleoff.gov.sk/data/files/25211.pdf -->\n",
   str% "    <territory id=\"SK\" countryCode=\"421\" internationalPrefix=\"00\" nationalPrefix=\"0\"\n",
   str% "               mobileNumberPortableRegion=\"true\">\n",
   str% "      <availableFormats>\n",
   str% "        <numberFormat pattern=\"(\\d)(\\d{2})(\\d{3,4})\" nationalPrefixFormattingRule=\"$NP$FG\">\n",
   str% "          <leadingDigits>21</leadingDigits>\n",
   str% "          <format>$1 $2 $3</format>\n",
   str% "        </numberFormat>\n",
   str% "        <numberFormat pattern=\"(\\d{2})(\\d{2})(\\d{2,3})\" nationalPrefixFormattingRule=\"$NP$FG\">\n",
   str% "          <leadingDigits>[3-5][1-8]1</leadingDigits>\n",
   str% "          <leadingDigits>[3-5][1-8]1[67]</leadingDigits>\n",
   str% "          <format>$1 $2 $3</format>\n",
   str% "        </numberFormat>\n",
   str% "        <numberFormat pattern=\"(\\d{4})(\\d{3})\" nationalPrefixFormattingRule=\"$NP$FG\">\n",
   str% "          <leadingDigits>909</leadingDigits>\n",
   str% "          <leadingDigits>9090</leadingDigits>\n",
   str% "          <format>$1 $2</format>\n",
   str% "          <intlFormat>NA</intlFormat>\n",
   str% "        </numberFormat>\n",
   str% "        <numberFormat pattern=\"(\\d)(\\d{3})(\\d{3})(\\d{2})\" nationalPrefixFormattingRule=\"$NP$FG\">\n",
   str% "          <leadingDigits>2</leadingDigits>\n",
   str% "          <format>$1 $2 $3 $4</format>\n",
   str% "        </numberFormat>\n",
   str% "        <numberFormat pattern=\"(\\d{3})(\\d{3})(\\d{3})\" nationalPrefixFormattingRule=\"$NP$FG\">\n",
   str% "          <leadingDigits>[689]</leadingDigits>\n",
   str% "          <format>$1 $2 $3</format>\n",
   str% "        </numberFormat>\n",
   str% "        <numberFormat pattern=\"(\\d{2})(\\d{3})(\\d{2})(\\d{2})\" nationalPrefixFormattingRule=\"$NP$FG\">\n",
   str% "          <leadingDigits>[3-5]</leadingDigits>\n",
   str% "          <format>$1 $2 $3 $4</format>\n",
   str% "        </numberFormat>\n",
   str% "      </availableFormats>\n",
   str% "      <generalDesc>\n",
   str% "        <nationalNumberPattern>\n",
   str% "          [2-689]\\d{8}|\n",
   str% "          [2-59]\\d{6}|\n",
   str% "          [2-5]\\d{5}\n",
   str% "        </nationalNumberPattern>\n",
   str% "      </generalDesc>\n",
   str% "      <noInternationalDialling>\n",
   str% "        <possibleLengths national=\"7,9\"/>\n",
   str% "        <nationalNumberPattern>\n",
   str% "          9090\\d{3}|\n",
   str% "          (?:\n",
   str% "            602|\n",
   str% "            8(?:\n",
   str% "              00|\n",
   str% "              [5-9]\\d\n",
   str% "            )|\n",
   str% "            9(?:\n",
   str% "              00|\n",
   str% "              [78]\\d\n",
   str% "            )\n",
   str% "          )\\d{6}\n",
   str% "        </nationalNumberPattern>\n",
   str% "      </noInternationalDialling>\n",
   str% "      <!-- Added range 16 as per pattern [areacode] + 16 + SN(\\d{2,4}) -->\n",
   str% "      <fixedLine>\n",
   str% "        <possibleLengths national=\"6,7,9\"/>\n",
   str% "        <exampleNumber>221234567</exampleNumber>\n",
   str% "        <nationalNumberPattern>\n",
   str% "          (?:\n",
   str% "            2(?:\n",
   str% "              16|\n",
   str% "              [2-9]\\d{3}\n",
   str% "            )|\n",
   str% "            (?:\n",
   str% "              (?:\n",
   str% "                [3-5][1-8]\\d|\n",
   str% "                819\n",
   str% "              )\\d|\n",
   str% "              601[1-5]\n",
   str% "            )\\d\n",
   str% "          )\\d{4}|\n",
   str% "          (?:\n",
   str% "            2|\n",
   str% "            [3-5][1-8]\n",
   str% "          )1[67]\\d{3}|\n",
   str% "          [3-5][1-8]16\\d\\d\n",
   str% "        </nationalNumberPattern>\n",
   str% "      </fixedLine>\n",
   str% "      <!-- 948 isn't in the number pattern, but many examples using this have been found, so\n",
   str% "           deeming it valid for now. 909[1-9] is assigned to carrier Juro as per online\n",
   str% "           references found. 945 is assigned to Orange as per its carrier doc. -->\n",
   str% "      <mobile>\n",
   str% "        <possibleLengths national=\"9\"/>\n",
   str% "        <exampleNumber>912123456</exampleNumber>\n",
   str% "        <nationalNumberPattern>\n",
   str% "          909[1-9]\\d{5}|\n",
   str% "          9(?:\n",
   str% "            0[1-8]|\n",
   str% "            1[0-24-9]|\n",
   str% "            4[03-57-9]|\n",
   str% "            5\\d\n",
   str% "          )\\d{6}\n",
   str% "        </nationalNumberPattern>\n",
   str% "      </mobile>\n",
   str% "      <pager>\n",
   str% "        <possibleLengths national=\"7\"/>\n",
   str% "        <exampleNumber>9090123</exampleNumber>\n",
   str% "        <nationalNumberPattern>9090\\d{3}</nationalNumberPattern>\n",
   str% "      </pager>\n",
   str% "      <tollFree>\n",
   str% "        <possibleLengths national=\"9\"/>\n",
   str% "        <exampleNumber>800123456</exampleNumber>\n",
   str% "        <nationalNumberPattern>800\\d{6}</nationalNumberPattern>\n",
   str% "      </tollFree>\n",
   str% "      <premiumRate>\n",
   str% "        <possibleLengths national=\"9\"/>\n",
   str% "        <exampleNumber>900123456</exampleNumber>\n",
   str% "        <nationalNumberPattern>\n",
   str% "          9(?:\n",
   str% "            00|\n",
   str% "            [78]\\d\n",
   str% "          )\\d{6}\n",
   str% "        </nationalNumberPattern>\n",
   str% "      </premiumRate>\n",
   str% "      <sharedCost>\n",
   str% "        <possibleLengths national=\"9\"/>\n",
   str% "        <exampleNumber>850123456</exampleNumber>\n",
   str% "        <nationalNumberPattern>8[5-9]\\d{7}</nationalNumberPattern>\n",
   str% "      </sharedCost>\n",
   str% "      <voip>\n",
   str% "        <possibleLengths national=\"9\"/>\n",
   str% "        <exampleNumber>690123456</exampleNumber>\n",
   str% "        <nationalNumberPattern>\n",
   str% "          6(?:\n",
   str% "            02|\n",
   str% "            5[0-4]|\n",
   str% "            9[0-6]\n",
   str% "          )\\d{6}\n",
   str% "        </nationalNumberPattern>\n",
   str% "      </voip>\n",
   str% "      <uan>\n",
   str% "        <possibleLengths national=\"9\"/>\n",
   str% "        <exampleNumber>961234567</exampleNumber>\n",
   str% "        <nationalNumberPattern>96\\d{7}</nationalNumberPattern>\n",
   str% "      </uan>\n",
   str% "    </territory>"]

/-- the text up to the end of territory id=SL countryCode=232 -/
noncomputable def SL : List Str :=
  [str% "\n",
   str% "\n",
   str% "    <!-- Sierra Leone (SL) -->\n",
   str% "    <!-- http://www.itu.int/oth/T02020000BB/en -->\n",
   str% "    <territory id=\"SL\" countryCode=\"232\" internationalPrefix=\"00\" nationalPrefix=\"0\">\n",
   str% "      <availableFormats>\n",
   str% "        <!-- Following formatting of online yellow pages http://www.leonedirect.com -->\n",
   str% "        <numberFormat pattern=\"(\\d{2})(\\d{6})\" nationalPrefixFormattingRule=\"($NP$FG)\">\n",
   str% "          <leadingDigits>[236-9]</leadingDigits>\n",
   str% "          <format>$1 $2</format>\n",
   str% "        </numberFormat>\n",
   str% "      </availableFormats>\n",
   str% "      <generalDesc>\n",
   str% "        <nationalNumberPattern>\n",
   str% "          (?:\n",
   str% "            [237-9]\\d|\n",
   str% "            66\n",
   str% "          )\\d{6}\n",
   str% "        </nationalNumberPattern>\n",
   str% "      </generalDesc>\n",
   str% "      <fixedLine>\n",
   str% "        <possibleLengths national=\"8\" localOnly=\"6\"/>\n",
   str% "        <exampleNumber>22221234</exampleNumber>\n",
   str% "        <nationalNumberPattern>22[2-4][2-9]\\d{4}</nationalNumberPattern>\n",
   str% "      </fixedLine>\n",
   str% "      <mobile>\n",
   str% "        <possibleLengths national=\"8\"/>\n",
   str% "        <exampleNumber>25123456</exampleNumber>\n",
   str% "        <nationalNumberPattern>\n",
   str% "          (?:\n",
   str% "            25|\n",
   str% "            3[0-5]|\n",
   str% "            66|\n",
   str% "            7\\d|\n",
   str% "            8[08]|\n",
   str% "            9[09]\n",
   str% "          )\\d{6}\n",
   str% "        </nationalNumberPattern>\n",
   str% "      </mobile>\n",
   str% "    </territory>"]

/-- the text up to the end of territory id=SM countryCode=378 -/
noncomputable def SM : List Str :=
  [str% "\n",
   str% "\n",
   str% "    <!-- San Marino (SM) -->\n",
   str% "    <!-- San Marino fixed-line numbers have an area code of \"0549\". However, this seems to be\n",
   str% "         optional when dialling from outside the country; the phone number can be reached both with\n",
   str% "         and without this area code. The nationalPrefixForParsing and nationalPrefixTransformRule\n",
   str% "         are used to ensure that if the 0549 is not present, it will be added. -->\n",
   str% "    <!-- Information about Italy. -->\n",
   str% "    <!-- http://www.itu.int/oth/T02020000B5/en -->\n",
   str% "    <!-- http://en.wikipedia.org/wiki/%2B39 -->\n",
   str% "    <!-- http://en.wikipedia.org/wiki/%2B378 -->\n",
   str% "    <territory id=\"SM\" countryCode=\"378\" internationalPrefix=\"00\"\n",
   str% "               nationalPrefixForParsing=\"([89]\\d{5})$\" nationalPrefixTransformRule=\"0549$1\">\n",
   str% "      <availableFormats>\n",
   str% "        <numberFormat pattern=\"(\\d{6})\">\n",
   str% "          <leadingDigits>[89]</leadingDigits>\n",
   str% "          <format>$1</format>\n",
   str% "          <intlFormat>NA</intlFormat>\n",
   str% "        </numberFormat>\n",
   str% "        <!-- Non-geographic numbers (without 0549 prefix). -->\n",
   str% "        <numberFormat pattern=\"(\\d{2})(\\d{2})(\\d{2})(\\d{2})\">\n",
   str% "          <leadingDigits>[5-7]</leadingDigits>\n",
   str% "          <format>$1 $2 $3 $4</format>\n",
   str% "        </numberFormat>\n",
   str% "        <!-- We follow the guidelines of the yellow-pages when formatting in national format. -->\n",
   str% "        <numberFormat pattern=\"(\\d{4})(\\d{6})\">\n",
   str% "          <leadingDigits>0</leadingDigits>\n",
   str% "          <format>$1 $2</format>\n",
   str% "        </numberFormat>\n",
   str% "      </availableFormats>\n",
   str% "      <generalDesc>\n",
   str% "        <nationalNumberPattern>\n",
   str% "          (?:\n",
   str% "            0549|\n",
   str% "            [5-7]\\d\n",
   str% "          )\\d{6}\n",
   str% "        </nationalNumberPattern>\n",
   str% "      </generalDesc>\n",
   str% "      <!-- Example numbers provided by the Telecommunications Services. -->\n",
   str% "      <fixedLine>\n",
   str% "        <possibleLengths national=\"10\" localOnly=\"6\"/>\n",
   str% "        <exampleNumber>0549886377</exampleNumber>\n",
   str% "        <nationalNumberPattern>\n",
   str% "          0549(?:\n",
   str% "            8[0157-9]|\n",
   str% "            9\\d\n",
   str% "          )\\d{4}\n",
   str% "        </nationalNumberPattern>\n",
   str% "      </fixedLine>\n",
   str% "      <mobile>\n",
   str% "        <possibleLengths national=\"8\"/>\n",
   str% "        <exampleNumber>66661212</exampleNumber>\n",
   str% "        <nationalNumberPattern>6[16]\\d{6}</nationalNumberPattern>\n",
   str% "      </mobile>\n",
   str% "      <!-- Includes Video Call numbers. -->\n",
   str% "      <premiumRate>\n",
   str% "        <possibleLengths national=\"8\"/>\n",
   str% "        <exampleNumber>71123456</exampleNumber>\n",
   str% "        <nationalNumberPattern>7[178]\\d{6}</nationalNumberPattern>\n",
   str% "      </premiumRate>\n",
   str% "      <voip>\n",
   str% "        <possibleLengths national=\"8\"/>\n",
   str% "        <exampleNumber>58001110</exampleNumber>\n",
   str% "        <nationalNumberPattern>5[158]\\d{6}</nationalNumberPattern>\n",
   str% "      </voip>\n",
   str% "    </territory>"]

/-- the text up to the end of territory id=SN countryCode=221 -/
noncomputable def SN : List Str :=
  [str% "\n",
   str% "\n",
   str% "    <!-- Senegal (SN) -->\n",
   str% "    <!-- http://www.itu.int/oth/T02020000B8/en -->\n",
   str% "    <!-- http://www.artpsenegal.net/index.php?option=com_content&view=article&id=50 -->\n",
   str% "    <territory id=\"SN\" countryCode=\"221\" internationalPrefix=\"00\">\n",
   str% "      <availableFormats>\n",
   str% "        <numberFormat pattern=\"(\\d{3})(\\d{2})(\\d{2})(\\d{2})\">\n",
   str% "          <leadingDigits>8</leadingDigits>\n",
   str% "          <format>$1 $2 $3 $4</format>\n",
   str% "        </numberFormat>\n",
   str% "        <!-- Using yellow pages and online telecom company formatting, rather than that implied in\n",
   str% "             the national numbering plan. -->\n",
   str% "        <numberFormat pattern=\"(\\d{2})(\\d{3})(\\d{2})(\\d{2})\">\n",
   str% "          <leadingDigits>[379]</leadingDigits>\n",
   str% "          <format>$1 $2 $3 $4</format>\n",
   str% "        </numberFormat>\n",
   str% "      </availableFormats>\n",
   str% "      <generalDesc>\n",
   str% "        <nationalNumberPattern>\n",
   str% "          (?:\n",
   str% "            [378]\\d|\n",
   str% "            93\n",
   str% "          )\\d{7}\n",
   str% "        </nationalNumberPattern>\n",
   str% "      </generalDesc>\n",
   str% "      <fixedLine>\n",
   str% "        <possibleLengths national=\"9\"/>\n",
   str% "        <exampleNumber>301012345</exampleNumber>\n",
   str% "        <nationalNumberPattern>\n",
   str% "          3(?:\n",
   str% "            0(?:\n",
   str% "              1[0-2]|\n",
   str% "              80\n",
   str% "            )|\n",
   str% "            282|\n",
   str% "            3(?:\n",
   str% "              8[1-9]|\n",
   str% "              9[3-9]\n",
   str% "            )|\n",
   str% "            611\n",
   str% "          )\\d{5}\n",
   str% "        </nationalNumberPattern>\n",
   str% "      </fixedLine>\n",
   str% "      <mobile>\n",
   str% "        <possibleLengths national=\"9\"/>\n",
   str% "        <exampleNumber>701234567</exampleNumber>\n",
   str% "        <nationalNumberPattern>\n",
   str% "          7(?:\n",
   str% "            [015-8]\\d|\n",
   str% "            21|\n",
   str% "            90\n",
   str% "          )\\d{6}\n",
   str% "        </nationalNumberPattern>\n",
   str% "      </mobile>\n",
   str% "      <tollFree>\n",
   str% "        <possibleLengths national=\"9\"/>\n",
   str% "        <exampleNumber>800123456</exampleNumber>\n",
   str% "        <nationalNumberPattern>800\\d{6}</nationalNumberPattern>\n",
   str% "      </tollFree>\n",
   str% "      <!-- Revenu Partag\u00E9 in the plan. -->\n",
   str% "      <premiumRate>\n",
   str% "        <possibleLengths national=\"9\"/>\n",
   str% "        <exampleNumber>884123456</exampleNumber>\n",
   str% "        <nationalNumberPattern>88[4689]\\d{6}</nationalNumberPattern>\n",
   str% "      </premiumRate>\n",
   str% "      <sharedCost>\n",
   str% "        <possibleLengths national=\"9\"/>\n",
   str% "        <exampleNumber>810123456</exampleNumber>\n",
   str% "        <nationalNumberPattern>81[02468]\\d{6}</nationalNumberPattern>\n",
   str% "      </sharedCost>\n",
   str% "      <!-- Also covers satellite telephony ranges. -->\n",
   str% "      <voip>\n",
   str% "        <possibleLengths national=\"9\"/>\n",
   str% "        <exampleNumber>933301234</exampleNumber>\n",
   str% "        <nationalNumberPattern>\n",
   str% "          (?:\n",
   str% "            3(?:\n",
   str% "              392|\n",
   str% "              9[01]\\d\n",
   str% "            )\\d|\n",
   str% "            93(?:\n",
   str% "              3[13]0|\n",
   str% "              929\n",
   str% "            )\n",
   str% "          )\\d{4}\n",
   str% "        </nationalNumberPattern>\n",
   str% "      </voip>\n",
   str% "    </territory>"]

/-- the text up to the end of territory id=SO countryCode=252 -/
noncomputable def SO : List Str :=
  [str% "\n",
   str% "\n",
   str% "    <!-- Somalia (SO) -->\n",
   str% "    <!-- This document seems to cover only a small set of prefixes in Somalia. Somalia has limited\n",
   str% "         information available, and the numerous telecom carriers were previously working under an\n",
   str% "         unregulated environment. The extra prefixes were added from the contact phone numbers of\n",
   str% "         the countries main telecom operators. We also have received information that a national\n",
   str% "         prefix of \"0\" is required when dialling from different regions (e.g. Puntland, Somaliland)\n",
   str% "         for some operators, so that is included here although we do not use it when formatting. -->\n",
   str% "    <!-- http://www.itu.int/oth/T02020000C0/en -->\n",
   str% "    <!-- http://en.wikipedia.org/wiki/+252 -->\n",
   str% "    <territory id=\"SO\" countryCode=\"252\" internationalPrefix=\"00\" nationalPrefix=\"0\">\n",
   str% "      <availableFormats>\n",
   str% "        <numberFormat pattern=\"(\\d{2})(\\d{4})\">\n",
   str% "          <leadingDigits>8[125]</leadingDigits>\n",
   str% "          <format>$1 $2</format>\n",
   str% "        </numberFormat>\n",
   str% "        <numberFormat pattern=\"(\\d{6})\">\n",
   str% "          <leadingDigits>[134]</leadingDigits>\n",
   str% "          <format>$1</format>\n",
   str% "        </numberFormat>\n",
   str% "        <!-- These follow formats online,  such as http://www.hortel.net/contact_us.html -->\n",
   str% "        <numberFormat pattern=\"(\\d)(\\d{6})\">\n",
   str% "          <leadingDigits>\n",
   str% "            [15]|\n",
   str% "            2[0-79]|\n",
   str% "            3[0-46-8]|\n",
   str% "            4[0-7]\n",
   str% "          </leadingDigits>\n",
   str% "          <format>$1 $2</format>\n",
   str% "        </numberFormat>\n",
   str% "        <numberFormat pattern=\"(\\d{2})(\\d{5,7})\">\n",
   str% "          <leadingDigits>\n",
   str% "            1|\n",
   str% "            28|\n",
   str% "            9[2-9]\n",
   str% "          </leadingDigits>\n",
   str% "          <format>$1 $2</format>\n",
   str% "        </numberFormat>\n",
   str% "        <numberFormat pattern=\"(\\d)(\\d{7})\">\n",
   str% "          <leadingDigits>\n",
   str% "            [267]|\n",
   str% "            904\n",
   str% "          </leadingDigits>\n",
   str% "          <format>$1 $2</format>\n",
   str% "        </numberFormat>\n",
   str% "        <numberFormat pattern=\"(\\d{2})(\\d{3})(\\d{4})\">\n",
   str% "          <leadingDigits>[346-9]</leadingDigits>\n",
   str% "          <format>$1 $2 $3</format>\n",
   str% "        </numberFormat>\n",
   str% "      </availableFormats>\n",
   str% "      <generalDesc>\n",
   str% "        <nationalNumberPattern>\n",
   str% "          [346-9]\\d{8}|\n",
   str% "          [12679]\\d{7}|\n",
   str% "          [1-5]\\d{6}|\n",
   str% "          [1348]\\d{5}\n",
   str% "        </nationalNumberPattern>\n",
   str% "      </generalDesc>\n",
   str% "      <!-- Apparently Telesom and Nationlink (Somaliland) both use the prefix 2. We exclude 28\n",
   str% "           here since that is apparently used for mobile. As per ITU doc 6 digit mobile numbers\n",
   str% "           are possible for 1, 3, 4, 81, 82 and 85 prefixes. -->\n",
   str% "      <fixedLine>\n",
   str% "        <possibleLengths national=\"6,7\"/>\n",
   str% "        <exampleNumber>4012345</exampleNumber>\n",
   str% "        <nationalNumberPattern>\n",
   str% "          (?:\n",
   str% "            1\\d|\n",
   str% "            2[0-79]|\n",
   str% "            3[0-46-8]|\n",
   str% "            4[0-7]|\n",
   str% "            5[57-9]\n",
   str% "          )\\d{5}|\n",
   str% "          (?:\n",
   str% "            [134]\\d|\n",
   str% "            8[125]\n",
   str% "          )\\d{4}\n",
   str% "        </nationalNumberPattern>\n",
   str% "      </fixedLine>\n",
   str% "      <!-- 24 is used by the carrier Telesom. 28 is used by Nationlink. 6[89] are apparently used\n",
   str% "           by Nationlink Somalia, 67 by Nationlink Puntland, and 61 by Hormuud. 7X is used by\n",
   str% "           Somtel. 6 followed by only 7 digits is used by Telecom. Note that in June 2014 many\n",
   str% "           ranges were suspended by the government. 90\\d{6} was listed as one of the ranges to be\n",
   str% "           suspended, but open-source contributors confirm that 90[67]\\d{6} is still in use, even\n",
   str% "           if the shorter 90 ranges are no longer. -->\n",
   str% "      <mobile>\n",
   str% "        <possibleLengths national=\"[7-9]\"/>\n",
   str% "        <exampleNumber>71123456</exampleNumber>\n",
   str% "        <nationalNumberPattern>\n",
   str% "          (?:\n",
   str% "            (?:\n",
   str% "              15|\n",
   str% "              (?:\n",
   str% "                3[59]|\n",
   str% "                4[89]|\n",
   str% "                6\\d|\n",
   str% "                7[0-35-9]|\n",
   str% "                8[08]\n",
   str% "              )\\d|\n",
   str% "              9(?:\n",
   str% "                0\\d|\n",
   str% "                [2-9]\n",
   str% "              )\n",
   str% "            )\\d|\n",
   str% "            2(?:\n",
   str% "              4\\d|\n",
   str% "              8\n",
   str% "            )\n",
   str% "          )\\d{5}|\n",
   str% "          (?:\n",
   str% "            [67]\\d\\d|\n",
   str% "            904\n",
   str% "          )\\d{5}\n",
   str% "        </nationalNumberPattern>\n",
   str% "      </mobile>\n",
   str% "    </territory>"]

/-- the text up to the end of territory id=SR countryCode=597 -/
noncomputable def SR : List Str :=
  [str% "\n",
   str% "\n",
   str% "    <!-- Suriname (SR) -->\n",
   str% "    <!-- http://www.itu.int/oth/T02020000C5/en -->\n",
   str% "    <territory id=\"SR\" countryCode=\"597\" internationalPrefix=\"00\">\n",
   str% "      <availableFormats>\n",
   str% "        <numberFormat pattern=\"(\\d{2})(\\d{2})(\\d{2})\">\n",
   str% "          <leadingDigits>56</leadingDigits>\n",
   str% "          <format>$1-$2-$3</format>\n",
   str% "        </numberFormat>\n",
   str% "        <!-- Following conventions used in the Suriname Yellow Pages. -->\n",
   str% "        <numberFormat pattern=\"(\\d{3})(\\d{3})\">\n",
   str% "          <leadingDigits>[2-5]</leadingDigits>\n",
   str% "          <format>$1-$2</format>\n",
   str% "        </numberFormat>\n",
   str% "        <numberFormat pattern=\"(\\d{3})(\\d{4})\">\n",
   str% "          <leadingDigits>[6-9]</leadingDigits>\n",
   str% "          <format>$1-$2</format>\n",
   str% "        </numberFormat>\n",
   str% "      </availableFormats>\n",
   str% "      <generalDesc>\n",
   str% "        <nationalNumberPattern>\n",
   str% "          (?:\n",
   str% "            [2-5]|\n",
   str% "            [6-9]\\d\n",
   str% "          )\\d{5}\n",
   str% "        </nationalNumberPattern>\n",
   str% "      </generalDesc>\n",
   str% "      <!-- Includes non-geographic WLL-CDMA Fixed Lines. -->\n",
   str% "      <fixedLine>\n",
   str% "        <possibleLengths national=\"6\"/>\n",
   str% "        <exampleNumber>211234</exampleNumber>\n",
   str% "        <nationalNumberPattern>\n",
   str% "          (?:\n",
   str% "            2[1-3]|\n",
   str% "            3[0-7]|\n",
   str% "            4\\d|\n",
   str% "            5[2-578]\n",
   str% "          )\\d{4}\n",
   str% "        </nationalNumberPattern>\n",
   str% "      </fixedLine>\n",
   str% "      <mobile>\n",
   str% "        <possibleLengths national=\"7\"/>\n",
   str% "        <exampleNumber>7412345</exampleNumber>\n",
   str% "        <nationalNumberPattern>\n",
   str% "          (?:\n",
   str% "            6[08]|\n",
   str% "            7[124-7]|\n",
   str% "            8[1-9]\n",
   str% "          )\\d{5}\n",
   str% "        </nationalNumberPattern>\n",
   str% "      </mobile>\n",
   str% "      <tollFree>\n",
   str% "        <possibleLengths national=\"7\"/>\n",
   str% "        <exampleNumber>8012345</exampleNumber>\n",
   str% "        <nationalNumberPattern>80\\d{5}</nationalNumberPattern>\n",
   str% "      </tollFree>\n",
   str% "      <premiumRate>\n",
   str% "        <possibleLengths national=\"7\"/>\n",
   str% "        <exampleNumber>9012345</exampleNumber>\n",
   str% "        <nationalNumberPattern>90\\d{5}</nationalNumberPattern>\n",
   str% "      </premiumRate>\n",
   str% "      <voip>\n",
   str% "        <possibleLengths national=\"6,7\"/>\n",
   str% "        <exampleNumber>561234</exampleNumber>\n",
   str% "        <nationalNumberPattern>\n",
   str% "          (?:\n",
   str% "            56|\n",
   str% "            91\\d\n",
   str% "          )\\d{4}\n",
   str% "        </nationalNumberPattern>\n",
   str% "      </voip>\n",
   str% "    </territory>"]

/-- the text up to the end of territory id=SS countryCode=211 -/
noncomputable def SS : List Str :=
  [str% "\n",
   str% "\n",
   str% "    <!-- South Sudan (SS) -->\n",
   str% "    <!-- http://www.itu.int/oth/T02020000F9/en -->\n",
   str% "    <!-- http://en.wikipedia.org/wiki/+211 -->\n",
   str% "    <territory id=\"SS\" countryCode=\"211\" internationalPrefix=\"00\" nationalPrefix=\"0\">\n",
   str% "      <availableFormats>\n",
   str% "        <numberFormat pattern=\"(\\d{3})(\\d{3})(\\d{3})\" nationalPrefixFormattingRule=\"$NP$FG\">\n",
   str% "          <leadingDigits>[19]</leadingDigits>\n",
   str% "          <format>$1 $2 $3</format>\n",
   str% "        </numberFormat>\n",
   str% "      </availableFormats>\n",
   str% "      <generalDesc>\n",
   str% "        <nationalNumberPattern>[19]\\d{8}</nationalNumberPattern>\n",
   str% "      </generalDesc>\n",
   str% "      <fixedLine>\n",
   str% "        <possibleLengths national=\"9\"/>\n",
   str% "        <exampleNumber>181234567</exampleNumber>\n",
   str% "        <nationalNumberPattern>1[89]\\d{7}</nationalNumberPattern>\n",
   str% "      </fixedLine>\n",
   str% "      <mobile>\n",
   str% "        <possibleLengths national=\"9\"/>\n",
   str% "        <exampleNumber>977123456</exampleNumber>\n",
   str% "        <nationalNumberPattern>\n",
   str% "          (?:\n",
   str% "            12|\n",
   str% "            9[1257-9]\n",
   str% "          )\\d{7}\n",
   str% "        </nationalNumberPattern>\n",
   str% "      </mobile>\n",
   str% "    </territory>"]

/-- the text up to the end of territory id=ST countryCode=239 -/
noncomputable def ST : List Str :=
  [str% "\n",
   str% "\n",
   str% "    <!-- S\u00E3o Tom\u00E9 & Pr\u00EDncipe (ST) -->\n",
   str% "    <!-- http://www.itu.int/oth/T02020000B6/en -->\n",
   str% "    <territory id=\"ST\" countryCode=\"239\" internationalPrefix=\"00\">\n",
   str% "      <availableFormats>\n",
   str% "        <numberFormat pattern=\"(\\d{3})(\\d{4})\">\n",
   str% "          <leadingDigits>[29]</leadingDigits>\n",
   str% "          <format>$1 $2</format>\n",
   str% "        </numberFormat>\n",
   str% "      </availableFormats>\n",
   str% "      <generalDesc>\n",
   str% "        <nationalNumberPattern>\n",
   str% "          (?:\n",
   str% "            22|\n",
   str% "            9\\d\n",
   str% "          )\\d{5}\n",
   str% "        </nationalNumberPattern>\n",
   str% "      </generalDesc>\n",
   str% "      <fixedLine>\n",
   str% "        <possibleLengths national=\"7\"/>\n",
   str% "        <exampleNumber>2221234</exampleNumber>\n",
   str% "        <nationalNumberPattern>22\\d{5}</nationalNumberPattern>\n",
   str% "      </fixedLine>\n",
   str% "      <!-- Added prefix 90 per IR21 from the carrier -->\n",
   str% "      <mobile>\n",
   str% "        <possibleLengths national=\"7\"/>\n",
   str% "        <exampleNumber>9812345</exampleNumber>\n",
   str% "        <nationalNumberPattern>\n",
   str% "          900[5-9]\\d{3}|\n",
   str% "          9(?:\n",
   str% "            0[1-9]|\n",
   str% "            [89]\\d\n",
   str% "          )\\d{4}\n",
   str% "        </nationalNumberPattern>\n",
   str% "      </mobile>\n",
   str% "    </territory>"]

/-- the text up to the end of territory id=SV countryCode=503 -/
noncomputable def SV : List Str :=
  [str% "\n",
   str% "\n",
   str% "    <!-- El Salvador (SV) -->\n",
   str% "    <!-- http://www.itu.int/oth/T020200003F/en -->\n",
   str% "    <!-- http://www.siget.gob.sv/BusquedaPublica.aspx?pagina=3&tipo=27&titulo=t8&sector=2&ordenar=&dir=DESC -->\n",
   str% "    <territory id=\"SV\" countryCode=\"503\" internationalPrefix=\"00\">\n",
   str% "      <availableFormats>\n",
   str% "        <numberFormat pattern=\"(\\d{3})(\\d{4})\">\n",
   str% "          <leadingDigits>[89]</leadingDigits>\n",
   str% "          <format>$1 $2</format>\n",
   str% "        </numberFormat>\n",
   str% "        <numberFormat pattern=\"(\\d{4})(\\d{4})\">\n",
   str% "          <leadingDigits>[25-7]</leadingDigits>\n",
   str% "          <format>$1 $2</format>\n",
   str% "        </numberFormat>\n",
   str% "        <numberFormat pattern=\"(\\d{3})(\\d{4})(\\d{4})\">\n",
   str% "          <leadingDigits>[89]</leadingDigits>\n",
   str% "          <format>$1 $2 $3</format>\n",
   str% "        </numberFormat>\n",
   str% "      </availableFormats>\n",
   str% "      <generalDesc>\n",
   str% "        <nationalNumberPattern>\n",
   str% "          [25-7]\\d{7}|\n",
   str% "          (?:\n",
   str% "            80\\d|\n",
   str% "            900\n",
   str% "          )\\d{4}(?:\n",
   str% "            \\d{4}\n",
   str% "          )?\n",
   str% "        </nationalNumberPattern>\n",
   str% "      </generalDesc>\n",
   str% "      <!-- Numbers starting with 20, 27, 28 and 29 are reserved but not yet used. -->\n",
   str% "      <fixedLine>\n",
   str% "        <possibleLengths national=\"8\"/>\n",
   str% "        <exampleNumber>21234567</exampleNumber>\n",
   str% "        <nationalNumberPattern>\n",
   str% "          2(?:\n",
   str% "            79(?:\n",
   str% "              0[0347-9]|\n",
   str% "              [1-9]\\d\n",
   str% "            )|\n",
   str% "            89(?:\n",
   str% "              0[024589]|\n",
   str% "              [1-9]\\d\n",
   str% "            )\n",
   str% "          )\\d{3}|\n",
   str% "          2(?:\n",
   str% "            [1-69]\\d|\n",
   str% "            [78][0-8]\n",
   str% "          )\\d{5}\n",
   str% "        </nationalNumberPattern>\n",
   str% "      </fixedLine>\n",
   str% "      <mobile>\n",
   str% "        <possibleLengths national=\"8\"/>\n",
   str% "        <exampleNumber>70123456</exampleNumber>\n",
   str% "        <nationalNumberPattern>[5-7]\\d{7}</nationalNumberPattern>\n",
   str% "      </mobile>\n",
   str% "      <!-- Toll free numbers are either 800 NNNN or 800 NNNN NNNN. -->\n",
   str% "      <tollFree>\n",
   str% "        <possibleLengths national=\"7,11\"/>\n",
   str% "        <exampleNumber>8001234</exampleNumber>\n",
   str% "        <nationalNumberPattern>\n",
   str% "          800\\d{8}|\n",
   str% "          80[01]\\d{4}\n",
   str% "        </nationalNumberPattern>\n",
   str% "      </tollFree>\n",
   str% "      <!-- Premium rate numbers are either 900 NNNN or 900 NNNN NNNN. -->\n",
   str% "      <premiumRate>\n",
   str% "        <possibleLengths national=\"7,11\"/>\n",
   str% "        <exampleNumber>9001234</exampleNumber>\n",
   str% "        <nationalNumberPattern>\n",
   str% "          900\\d{4}(?:\n",
   str% "            \\d{4}\n",
   str% "          )?\n",
   str% "        </nationalNumberPattern>\n",
   str% "      </premiumRate>\n",
   str% "    </territory>"]

/-- the text up to the end of territory id=SX countryCode=1 -/
noncomputable def SX : List Str :=
  [str% "\n",
   str% "\n",
   str% "    <!-- Sint Maarten (SX) -->\n",
   str% "    <!-- Calling code and formatting shared with 'US' -->\n",
   str% "    <!-- http://www.nanpa.com/pdf/PL_429.pdf -->\n",
   str% "    <!-- http://www.itu.int/oth/T02020000F7/en -->\n",
   str% "    <territory id=\"SX\" countryCode=\"1\" leadingDigits=\"721\" internationalPrefix=\"011\"\n",
   str% "               nationalPrefix=\"1\" nationalPrefixForParsing=\"(5\\d{6})$|1\"\n",
   str% "               nationalPrefixTransformRule=\"721$1\" mobileNumberPortableRegion=\"true\">\n",
   str% "      <generalDesc>\n",
   str% "        <nationalNumberPattern>\n",
   str% "          7215\\d{6}|\n",
   str% "          (?:\n",
   str% "            [58]\\d\\d|\n",
   str% "            900\n",
   str% "          )\\d{7}\n",
   str% "        </nationalNumberPattern>\n",
   str% "      </generalDesc>\n",
   str% "      <fixedLine>\n",
   str% "        <possibleLengths national=\"10\" localOnly=\"7\"/>\n",
   str% "        <exampleNumber>7215425678</exampleNumber>\n",
   str% "        <nationalNumberPattern>\n",
   str% "          7215(?:\n",
   str% "            4[2-8]|\n",
   str% "            8[39]|\n",
   str% "            9[056]\n",
   str% "          )\\d{4}\n",
   str% "        </nationalNumberPattern>\n",
   str% "      </fixedLine>\n",
   str% "      <!-- We assume we can send SMSs to the Fixed GSM numbers mentioned in the plan and hence\n",
   str% "           include these as mobile numbers. -->\n",
   str% "      <mobile>\n",
   str% "        <possibleLengths national=\"10\" localOnly=\"7\"/>\n",
   str% "        <exampleNumber>7215205678</exampleNumber>\n",
   str% "        <nationalNumberPattern>\n",
   str% "          7215(?:\n",
   str% "            1[02]|\n",
   str% "            2\\d|\n",
   str% "            5[034679]|\n",
   str% "            8[0-24-8]\n",
   str% "          )\\d{4}\n",
   str% "        </nationalNumberPattern>\n",
   str% "      </mobile>\n",
   str% "      <tollFree>\n",
   str% "        <possibleLengths national=\"10\"/>\n",
   str% "        <exampleNumber>8002123456</exampleNumber>\n",
   str% "        <nationalNumberPattern>\n",
   str% "          8(?:\n",
   str% "            00|\n",
   str% "            33|\n",
   str% "            44|\n",
   str% "            55|\n",
   str% "            66|\n",
   str% "            77|\n",
   str% "            88\n",
   str% "          )[2-9]\\d{6}\n",
   str% "        </nationalNumberPattern>\n",
   str% "      </tollFree>\n",
   str% "      <premiumRate>\n",
   str% "        <possibleLengths national=\"10\"/>\n",
   str% "        <exampleNumber>9002123456</exampleNumber>\n",
   str% "        <nationalNumberPattern>900[2-9]\\d{6}</nationalNumberPattern>\n",
   str% "      </premiumRate>\n",
   str% "      <!-- https://www.nationalnanpa.com/number_resource_info/5XX_codes.html -->\n",
   str% "      <personalNumber>\n",
   str% "        <possibleLengths national=\"10\"/>\n",
   str% "        <exampleNumber>5002345678</exampleNumber>\n",
   str% "        <nationalNumberPattern>\n",
   str% "          52(?:\n",
   str% "            3(?:\n",
   str% "              [2-46-9][02-9]\\d|\n",
   str% "              5(?:\n",
   str% "                [02-46-9]\\d|\n",
   str% "                5[0-46-9]\n",
   str% "              )\n",
   str% "            )|\n",
   str% "            4(?:\n",
   str% "              [2-478][02-9]\\d|\n",
   str% "              5(?:\n",
   str% "                [034]\\d|\n",
   str% "                2[024-9]|\n",
   str% "                5[0-46-9]\n",
   str% "              )|\n",
   str% "              6(?:\n",
   str% "                0[1-9]|\n",
   str% "                [2-9]\\d\n",
   str% "              )|\n",
   str% "              9(?:\n",
   str% "                [05-9]\\d|\n",
   str% "                2[0-5]|\n",
   str% "                49\n",
   str% "              )\n",
   str% "            )\n",
   str% "          )\\d{4}|\n",
   str% "          52[34][2-9]1[02-9]\\d{4}|\n",
   str% "          5(?:\n",
   str% "            00|\n",
   str% "            2[125-9]|\n",
   str% "            3[23]|\n",
   str% "            44|\n",
   str% "            66|\n",
   str% "            77|\n",
   str% "            88\n",
   str% "          )[2-9]\\d{6}\n",
   str% "        </nationalNumberPattern>\n",
   str% "      </personalNumber>\n",
   str% "    </territory>"]

/-- the text up to the end of territory id=SY countryCode=963 -/
noncomputable def SY : List Str :=
  [str% "\n",
   str% "\n",
   str% "    <!-- Syria (SY) -->\n",
   str% "    <!-- No tollFree or premiumRate information can be found. -->\n",
   str% "    <!-- http://www.itu.int/oth/T02020000C9/en -->\n",
   str% "    <!-- http://en.wikipedia.org/wiki/%2B963 -->\n",
   str% "    <territory id=\"SY\" countryCode=\"963\" internationalPrefix=\"00\" nationalPrefix=\"0\">\n",
   str% "      <availableFormats>\n",
   str% "        <numberFormat pattern=\"(\\d{2})(\\d{3})(\\d{3,4})\" nationalPrefixFormattingRule=\"$NP$FG\"\n",
   str% "                      nationalPrefixOptionalWhenFormatting=\"true\">\n",
   str% "          <leadingDigits>\n",
   str% "            [1-4]|\n",
   str% "            5[1-3]\n",
   str% "          </leadingDigits>\n",
   str% "          <format>$1 $2 $3</format>\n",
   str% "        </numberFormat>\n",
   str% "        <numberFormat pattern=\"(\\d{3})(\\d{3})(\\d{3})\" nationalPrefixFormattingRule=\"$NP$FG\"\n",
   str% "                      nationalPrefixOptionalWhenFormatting=\"true\">\n",
   str% "          <leadingDigits>[59]</leadingDigits>\n",
   str% "          <format>$1 $2 $3</format>\n",
   str% "        </numberFormat>\n",
   str% "      </availableFormats>\n",
   str% "      <generalDesc>\n",
   str% "        <nationalNumberPattern>\n",
   str% "          [1-359]\\d{8}|\n",
   str% "          [1-5]\\d{7}\n",
   str% "        </nationalNumberPattern>\n",
   str% "      </generalDesc>\n",
   str% "      <!-- Numbers with the 21 prefix are made optionally 1-digit longer based on numbers found on\n",
   str% "           the Internet. -->\n",
   str% "      <fixedLine>\n",
   str% "        <possibleLengths national=\"8,9\" localOnly=\"6,7\"/>\n",
   str% "        <exampleNumber>112345678</exampleNumber>\n",
   str% "        <nationalNumberPattern>\n",
   str% "          21\\d{6,7}|\n",
   str% "          (?:\n",
   str% "            1(?:\n",
   str% "              [14]\\d|\n",
   str% "              [2356]\n",
   str% "            )|\n",
   str% "            2[235]|\n",
   str% "            3(?:\n",
   str% "              [13]\\d|\n",
   str% "              4\n",
   str% "            )|\n",
   str% "            4[134]|\n",
   str% "            5[1-3]\n",
   str% "          )\\d{6}\n",
   str% "        </nationalNumberPattern>\n",
   str% "      </fixedLine>\n",
   str% "      <!-- Numbers have been found online for the prefixes 922, 95[138], and 96[05]. -->\n",
   str% "      <mobile>\n",
   str% "        <possibleLengths national=\"9\"/>\n",
   str% "        <exampleNumber>944567890</exampleNumber>\n",
   str% "        <nationalNumberPattern>\n",
   str% "          (?:\n",
   str% "            50|\n",
   str% "            9[1-9]\n",
   str% "          )\\d{7}\n",
   str% "        </nationalNumberPattern>\n",
   str% "      </mobile>\n",
   str% "    </territory>"]

/-- the text up to the end of territory id=SZ countryCode=268 -/
noncomputable def SZ : List Str :=
  [str% "\n",
   str% "\n",
   str% "    <!-- Eswatini (SZ) -->\n",
   str% "    <!-- http://www.itu.int/oth/T02020000C6/en -->\n",
   str% "    <territory id=\"SZ\" countryCode=\"268\" internationalPrefix=\"00\">\n",
   str% "      <availableFormats>\n",
   str% "        <numberFormat pattern=\"(\\d{4})(\\d{4})\">\n",
   str% "          <leadingDigits>[0237]</leadingDigits>\n",
   str% "          <format>$1 $2</format>\n",
   str% "        </numberFormat>\n",
   str% "        <numberFormat pattern=\"(\\d{5})(\\d{4})\">\n",
   str% "          <leadingDigits>9</leadingDigits>\n",
   str% "          <format>$1 $2</format>\n",
   str% "        </numberFormat>\n",
   str% "      </availableFormats>\n",
   str% "      <generalDesc>\n",
   str% "        <nationalNumberPattern>\n",
   str% "          0800\\d{4}|\n",
   str% "          (?:\n",
   str% "            [237]\\d|\n",
   str% "            900\n",
   str% "          )\\d{6}\n",
   str% "        </nationalNumberPattern>\n",
   str% "      </generalDesc>\n",
   str% "      <noInternationalDialling>\n",
   str% "        <possibleLengths national=\"8\"/>\n",
   str% "        <nationalNumberPattern>0800\\d{4}</nationalNumberPattern>\n",
   str% "      </noInternationalDialling>\n",
   str% "      <fixedLine>\n",
   str% "        <possibleLengths national=\"8\"/>\n",
   str% "        <exampleNumber>22171234</exampleNumber>\n",
   str% "        <nationalNumberPattern>[23][2-5]\\d{6}</nationalNumberPattern>\n",
   str% "      </fixedLine>\n",
   str% "      <mobile>\n",
   str% "        <possibleLengths national=\"8\"/>\n",
   str% "        <exampleNumber>76123456</exampleNumber>\n",
   str% "        <nationalNumberPattern>7[5-9]\\d{6}</nationalNumberPattern>\n",
   str% "      </mobile>\n",
   str% "      <tollFree>\n",
   str% "        <possibleLengths national=\"8\"/>\n",
   str% "        <exampleNumber>08001234</exampleNumber>\n",
   str% "        <nationalNumberPattern>0800\\d{4}</nationalNumberPattern>\n",
   str% "      </tollFree>\n",
   str% "      <premiumRate>\n",
   str% "        <possibleLengths national=\"9\"/>\n",
   str% "        <exampleNumber>900012345</exampleNumber>\n",
   str% "        <nationalNumberPattern>900\\d{6}</nationalNumberPattern>\n",
   str% "      </premiumRate>\n",
   str% "      <voip>\n",
   str% "        <possibleLengths national=\"8\"/>\n",
   str% "        <exampleNumber>70012345</exampleNumber>\n",
   str% "        <nationalNumberPattern>70\\d{6}</nationalNumberPattern>\n",
   str% "      </voip>\n",
   str% "    </territory>"]

/-- the text up to the end of territory id=TA countryCode=290 -/
noncomputable def TA : List Str :=
  [str% "\n",
   str% "\n",
   str% "    <!-- Tristan da Cunha (TA) -->\n",
   str% "    <!-- Calling code and formatting shared with 'SH' -->\n",
   str% "    <!-- http://www.itu.int/oth/T02020000AF/en -->\n",
   str% "    <territory id=\"TA\" countryCode=\"290\" leadingDigits=\"8\" internationalPrefix=\"00\">\n",
   str% "      <generalDesc>\n",
   str% "        <nationalNumberPattern>8\\d{3}</nationalNumberPattern>\n",
   str% "      </generalDesc>\n",
   str% "      <fixedLine>\n",
   str% "        <possibleLengths national=\"4\"/>\n",
   str% "        <exampleNumber>8999</exampleNumber>\n",
   str% "        <nationalNumberPattern>8\\d{3}</nationalNumberPattern>\n",
   str% "      </fixedLine>\n",
   str% "    </territory>"]

/-- the text up to the end of territory id=TC countryCode=1 -/
noncomputable def TC : List Str :=
  [str% "\n",
   str% "\n",
   str% "    <!-- Turks & Caicos Islands (TC) -->\n",
   str% "    <!-- Calling code and formatting shared with 'US' -->\n",
   str% "    <!-- http://www.itu.int/oth/T02020000D8/en -->\n",
   str% "    <territory id=\"TC\" countryCode=\"1\" leadingDigits=\"649\" internationalPrefix=\"011\"\n",
   str% "               nationalPrefix=\"1\" nationalPrefixForParsing=\"([2-479]\\d{6})$|1\"\n",
   str% "               nationalPrefixTransformRule=\"649$1\" mobileNumberPortableRegion=\"true\">\n",
   str% "      <generalDesc>\n",
   str% "        <nationalNumberPattern>\n",
   str% "          (?:\n",
   str% "            [58]\\d\\d|\n",
   str% "            649|\n",
   str% "            900\n",
   str% "          )\\d{7}\n",
   str% "        </nationalNumberPattern>\n",
   str% "      </generalDesc>\n",
   str% "      <fixedLine>\n",
   str% "        <possibleLengths national=\"10\" localOnly=\"7\"/>\n",
   str% "        <exampleNumber>6497121234</exampleNumber>\n",
   str% "        <nationalNumberPattern>\n",
   str% "          649(?:\n",
   str% "            266|\n",
   str% "            712|\n",
   str% "            9(?:\n",
   str% "              4\\d|\n",
   str% "              50\n",
   str% "            )\n",
   str% "          )\\d{4}\n",
   str% "        </nationalNumberPattern>\n",
   str% "      </fixedLine>\n",
   str% "      <!-- Extra prefixes 246, 247, 346 found online and in the yellow pages. -->\n",
   str% "      <mobile>\n",
   str% "        <possibleLengths national=\"10\" localOnly=\"7\"/>\n",
   str% "        <exampleNumber>6492311234</exampleNumber>\n",
   str% "        <nationalNumberPattern>\n",
   str% "          649(?:\n",
   str% "            2(?:\n",
   str% "              3[129]|\n",
   str% "              4[1-79]\n",
   str% "            )|\n",
   str% "            3\\d\\d|\n",
   str% "            4[34][1-3]\n",
   str% "          )\\d{4}\n",
   str% "        </nationalNumberPattern>\n",
   str% "      </mobile>\n",
   str% "      <tollFree>\n",
   str% "        <possibleLengths national=\"10\"/>\n",
   str% "        <exampleNumber>8002345678</exampleNumber>\n",
   str% "        <nationalNumberPattern>\n",
   str% "          8(?:\n",
   str% "            00|\n",
   str% "            33|\n",
   str% "            44|\n",
   str% "            55|\n",
   str% "            66|\n",
   str% "            77|\n",
   str% "            88\n",
   str% "          )[2-9]\\d{6}\n",
   str% "        </nationalNumberPattern>\n",
   str% "      </tollFree>\n",
   str% "      <premiumRate>\n",
   str% "        <possibleLengths national=\"10\"/>\n",
   str% "        <exampleNumber>9002345678</exampleNumber>\n",
   str% "        <nationalNumberPattern>900[2-9]\\d{6}</nationalNumberPattern>\n",
   str% "      </premiumRate>\n",
   str% "      <!-- https://www.nationalnanpa.com/number_resource_info/5XX_codes.html -->\n",
   str% "      <personalNumber>\n",
   str% "        <possibleLengths national=\"10\"/>\n",
   str% "        <exampleNumber>5002345678</exampleNumber>\n",
   str% "        <nationalNumberPattern>\n",
   str% "          52(?:\n",
   str% "            3(?:\n",
   str% "              [2-46-9][02-9]\\d|\n",
   str% "              5(?:\n",
   str% "                [02-46-9]\\d|\n",
   str% "                5[0-46-9]\n",
   str% "              )\n",
   str% "            )|\n",
   str% "            4(?:\n",
   str% "              [2-478][02-9]\\d|\n",
   str% "              5(?:\n",
   str% "                [034]\\d|\n",
   str% "                2[024-9]|\n",
   str% "                5[0-46-9]\n",
   str% "              )|\n",
   str% "              6(?:\n",
   str% "                0[1-9]|\n",
   str% "                [2-9]\\d\n",
   str% "              )|\n",
   str% "              9(?:\n",
   str% "                [05-9]\\d|\n",
   str% "                2[0-5]|\n",
   str% "                49\n",
   str% "              )\n",
   str% "            )\n",
   str% "          )\\d{4}|\n",
   str% "          52[34][2-9]1[02-9]\\d{4}|\n",
   str% "          5(?:\n",
   str% "            00|\n",
   str% "            2[125-9]|\n",
   str% "            3[23]|\n",
   str% "            44|\n",
   str% "            66|\n",
   str% "            77|\n",
   str% "            88\n",
   str% "          )[2-9]\\d{6}\n",
   str% "        </nationalNumberPattern>\n",
   str% "      </personalNumber>\n",
   str% "      <voip>\n",
   str% "        <possibleLengths national=\"10\" localOnly=\"7\"/>\n",
   str% "        <exampleNumber>6497101234</exampleNumber>\n",
   str% "        <nationalNumberPattern>\n",
   str% "          649(?:\n",
   str% "            71[01]|\n",
   str% "            966\n",
   str% "          )\\d{4}\n",
   str% "        </nationalNumberPattern>\n",
   str% "      </voip>\n",
   str% "    </territory>"]

/-- the text up to the end of territory id=TD countryCode=235 -/
noncomputable def TD : List Str :=
  [str% "\n",
   str% "\n",
   str% "    <!-- Chad (TD) -->\n",
   str% "    <!-- The international prefix includes 16 as the international manual exchange. -->\n",
   str% "    <!-- http://www.itu.int/oth/T0202000029/en -->\n",
   str% "    <territory id=\"TD\" countryCode=\"235\" preferredInternationalPrefix=\"00\"\n",
   str% "               internationalPrefix=\"00|16\">\n",
   str% "      <availableFormats>\n",
   str% "        <numberFormat pattern=\"(\\d{2})(\\d{2})(\\d{2})(\\d{2})\">\n",
   str% "          <leadingDigits>[236-9]</leadingDigits>\n",
   str% "          <format>$1 $2 $3 $4</format>\n",
   str% "        </numberFormat>\n",
   str% "      </availableFormats>\n",
   str% "      <generalDesc>\n",
   str% "        <nationalNumberPattern>\n",
   str% "          (?:\n",
   str% "            22|\n",
   str% "            [3689]\\d|\n",
   str% "            77\n",
   str% "          )\\d{6}\n",
   str% "        </nationalNumberPattern>\n",
   str% "      </generalDesc>\n",
   str% "      <fixedLine>\n",
   str% "        <possibleLengths national=\"8\"/>\n",
   str% "        <exampleNumber>22501234</exampleNumber>\n",
   str% "        <nationalNumberPattern>\n",
   str% "          22(?:\n",
   str% "            [37-9]0|\n",
   str% "            5[0-5]|\n",
   str% "            6[89]\n",
   str% "          )\\d{4}\n",
   str% "        </nationalNumberPattern>\n",
   str% "      </fixedLine>\n",
   str% "      <!-- Sotel Tchad \"SALAM\" (77 XX XX XX) is classified as a fixed operator in the plan, but it\n",
   str% "           also says numbers starting with 7 are mobile numbers. Putting under mobile for now.\n",
   str% "           Also adding 6[028] and 63[5-9] which are operated by Airtel. -->\n",
   str% "      <!-- Adding entire 9 prefix based on information from carrier. -->\n",
   str% "      <mobile>\n",
   str% "        <possibleLengths national=\"8\"/>\n",
   str% "        <exampleNumber>63012345</exampleNumber>\n",
   str% "        <nationalNumberPattern>\n",
   str% "          (?:\n",
   str% "            3[01]|\n",
   str% "            [69]\\d|\n",
   str% "            77|\n",
   str% "            8[5-7]\n",
   str% "          )\\d{6}\n",
   str% "        </nationalNumberPattern>\n",
   str% "      </mobile>\n",
   str% "    </territory>"]

/-- the text up to the end of territory id=TG countryCode=228 -/
noncomputable def TG : List Str :=
  [str% "\n",
   str% "\n",
   str% "    <!-- Togo (TG) -->\n",
   str% "    <!-- http://www.itu.int/oth/T02020000D1/en -->\n",
   str% "    <territory id=\"TG\" countryCode=\"228\" internationalPrefix=\"00\">\n",
   str% "      <availableFormats>\n",
   str% "        <!-- Added leading digits so that the shortcodes do not pick this format during AYTF. -->\n",
   str% "        <numberFormat pattern=\"(\\d{2})(\\d{2})(\\d{2})(\\d{2})\">\n",
   str% "          <leadingDigits>[279]</leadingDigits>\n",
   str% "          <format>$1 $2 $3 $4</format>\n",
   str% "        </numberFormat>\n",
   str% "      </availableFormats>\n",
   str% "      <generalDesc>\n",
   str% "        <nationalNumberPattern>[279]\\d{7}</nationalNumberPattern>\n",
   str% "      </generalDesc>\n",
   str% "      <fixedLine>\n",
   str% "        <possibleLengths national=\"8\"/>\n",
   str% "        <exampleNumber>22212345</exampleNumber>\n",
   str% "        <nationalNumberPattern>\n",
   str% "          2(?:\n",
   str% "            2[2-7]|\n",
   str% "            3[23]|\n",
   str% "            4[45]|\n",
   str% "            55|\n",
   str% "            6[67]|\n",
   str% "            77\n",
   str% "          )\\d{5}\n",
   str% "        </nationalNumberPattern>\n",
   str% "      </fixedLine>\n",
   str% "      <mobile>\n",
   str% "        <possibleLengths national=\"8\"/>\n",
   str% "        <exampleNumber>90112345</exampleNumber>\n",
   str% "        <nationalNumberPattern>\n",
   str% "          (?:\n",
   str% "            7[0-289]|\n",
   str% "            9[0-36-9]\n",
   str% "          )\\d{6}\n",
   str% "        </nationalNumberPattern>\n",
   str% "      </mobile>\n",
   str% "    </territory>"]

/-- the text up to the end of territory id=TH countryCode=66 -/
noncomputable def TH : List Str :=
  [str% "\n",
   str% "\n",
   str% "    <!-- Thailand (TH) -->\n",
   str% "    <!-- Subscribers can use respective carrier's IDD when calling abroad. We have not configured\n",
   str% "         any preferredInternationalPrefix as there is no official evidence for it. -->\n",
   str% "    <!-- http://www.itu.int/oth/T02020000CD/en -->\n",
   str% "    <!-- http://www.barascientific.com/bscnews/variety/emergency/Tel-4Digi.pdf -->\n",
   str% "    <!-- https://en.wikipedia.org/wiki/Telephone_numbers_in_Thailand -->\n",
   str% "    <territory id=\"TH\" countryCode=\"66\" internationalPrefix=\"00[1-9]\" nationalPrefix=\"0\"\n",
   str% "               mobileNumberPortableRegion=\"true\">\n",
   str% "      <availableFormats>\n",
   str% "        <!-- Formatting patterns from wikipedia and the document itself -\n",
   str% "             http://en.wikipedia.org/wiki/%2B66 -->\n",
   str% "        <numberFormat pattern=\"(\\d)(\\d{3})(\\d{4})\" nationalPrefixFormattingRule=\"$NP$FG\">\n",
   str% "          <leadingDigits>2</leadingDigits>\n",
   str% "          <format>$1 $2 $3</format>\n",
   str% "        </numberFormat>\n",
   str% "        <numberFormat pattern=\"(\\d{2})(\\d{3})(\\d{3,4})\" nationalPrefixFormattingRule=\"$NP$FG\">\n",
   str% "          <leadingDigits>[13-9]</leadingDigits>\n",
   str% "          <format>$1 $2 $3</format>\n",
   str% "        </numberFormat>\n",
   str% "        <numberFormat pattern=\"(\\d{4})(\\d{3})(\\d{3})\">\n",
   str% "          <leadingDigits>1</leadingDigits>\n",
   str% "          <format>$1 $2 $3</format>\n",
   str% "        </numberFormat>\n",
   str% "      </availableFormats>\n",
   str% "      <generalDesc>\n",
   str% "        <nationalNumberPattern>\n",
   str% "          (?:\n",
   str% "            001800|\n",
   str% "            [2-57]|\n",
   str% "            [689]\\d\n",
   str% "          )\\d{7}|\n",
   str% "          1\\d{7,9}\n",
   str% "        </nationalNumberPattern>\n",
   str% "      </generalDesc>\n",
   str% "      <!-- Numbers online have been found that start with 20, despite the ITU doc not covering\n",
   str% "           these. -->\n",
   str% "      <fixedLine>\n",
   str% "        <possibleLengths national=\"8\"/>\n",
   str% "        <exampleNumber>21234567</exampleNumber>\n",
   str% "        <nationalNumberPattern>\n",
   str% "          (?:\n",
   str% "            1[0689]|\n",
   str% "            2\\d|\n",
   str% "            3[2-9]|\n",
   str% "            4[2-5]|\n",
   str% "            5[2-6]|\n",
   str% "            7[3-7]\n",
   str% "          )\\d{6}\n",
   str% "        </nationalNumberPattern>\n",
   str% "      </fixedLine>\n",
   str% "      <!-- Numbers found online starting with 62 and 64. 14, 63 and 65 are from an open-source bug\n",
   str% "           report, we couldn't find evidence of these specifically being in use but this article\n",
   str% "           http://www.prachachat.net/news_detail.php?newsid=1395732787 talks about prefix 6 and 1\n",
   str% "           being cleared for mobile use. -->\n",
   str% "      <mobile>\n",
   str% "        <possibleLengths national=\"9\"/>\n",
   str% "        <exampleNumber>812345678</exampleNumber>\n",
   str% "        <nationalNumberPattern>\n",
   str% "          (?:\n",
   str% "            (?:\n",
   str% "              14|\n",
   str% "              [89]\\d\n",
   str% "            )\\d\\d|\n",
   str% "            6(?:\n",
   str% "              [1-6]\\d\\d|\n",
   str% "              7(?:\n",
   str% "                1[0-8]|\n",
   str% "                2[4-7]|\n",
   str% "                3[1-6]\n",
   str% "              )\n",
   str% "            )\n",
   str% "          )\\d{5}\n",
   str% "        </nationalNumberPattern>\n",
   str% "      </mobile>\n",
   str% "      <!-- http://en.wikipedia.org/wiki/Toll-free_telephone_number. Prefix 001800 of length\n",
   str% "           13-digit is added based on user report. -->\n",
   str% "      <tollFree>\n",
   str% "        <possibleLengths national=\"10,13\"/>\n",
   str% "        <exampleNumber>1800123456</exampleNumber>\n",
   str% "        <nationalNumberPattern>\n",
   str% "          (?:\n",
   str% "            001800\\d|\n",
   str% "            1800\n",
   str% "          )\\d{6}\n",
   str% "        </nationalNumberPattern>\n",
   str% "      </tollFree>\n",
   str% "      <premiumRate>\n",
   str% "        <possibleLengths national=\"10\"/>\n",
   str% "        <exampleNumber>1900123456</exampleNumber>\n",
   str% "        <nationalNumberPattern>1900\\d{6}</nationalNumberPattern>\n",
   str% "      </premiumRate>\n",
   str% "      <!-- The ITU document says that the 89 prefix is also VOIP but there are lots of numbers\n",
   str% "           online to suggest they are actually used as mobile numbers. -->\n",
   str% "      <voip>\n",
   str% "        <possibleLengths national=\"9\"/>\n",
   str% "        <exampleNumber>601234567</exampleNumber>\n",
   str% "        <nationalNumberPattern>6[08]\\d{7}</nationalNumberPattern>\n",
   str% "      </voip>\n",
   str% "    </territory>"]

/-- the text up to the end of territory id=TJ countryCode=992 -/
noncomputable def TJ : List Str :=
  [str% "\n",
   str% "\n",
   str% "    <!-- Tajikistan (TJ) -->\n",
   str% "    <!-- No tollFree or premiumRate information can be found. -->\n",
   str% "    <!-- http://www.itu.int/oth/T02020000CA/en -->\n",
   str% "    <!-- Based on details from vendors and online investigation results, 8 is no more considered\n",
   str% "         as national dialling code. Originally added based on Wikipedia. It cannot coexits when\n",
   str% "         810 is considered as international exit code and 10 as one of mobile ranges. -->\n",
   str% "    <territory id=\"TJ\" countryCode=\"992\" preferredInternationalPrefix=\"8~10\"\n",
   str% "               internationalPrefix=\"810\">\n",
   str% "      <availableFormats>\n",
   str% "        <numberFormat pattern=\"(\\d{6})(\\d)(\\d{2})\">\n",
   str% "          <leadingDigits>331</leadingDigits>\n",
   str% "          <leadingDigits>3317</leadingDigits>\n",
   str% "          <format>$1 $2 $3</format>\n",
   str% "        </numberFormat>\n",
   str% "        <numberFormat pattern=\"(\\d{3})(\\d{2})(\\d{4})\">\n",
   str% "          <leadingDigits>\n",
   str% "            44[02-479]|\n",
   str% "            [34]7\n",
   str% "          </leadingDigits>\n",
   str% "          <format>$1 $2 $3</format>\n",
   str% "        </numberFormat>\n",
   str% "        <numberFormat pattern=\"(\\d{4})(\\d)(\\d{4})\">\n",
   str% "          <leadingDigits>\n",
   str% "            3(?:\n",
   str% "              [1245]|\n",
   str% "              3[12]\n",
   str% "            )\n",
   str% "          </leadingDigits>\n",
   str% "          <format>$1 $2 $3</format>\n",
   str% "        </numberFormat>\n",
   str% "        <numberFormat pattern=\"(\\d{2})(\\d{3})(\\d{4})\">\n",
   str% "          <leadingDigits>\\d</leadingDigits>\n",
   str% "          <format>$1 $2 $3</format>\n",
   str% "        </numberFormat>\n",
   str% "      </availableFormats>\n",
   str% "      <generalDesc>\n",
   str% "        <nationalNumberPattern>\n",
   str% "          (?:\n",
   str% "            [0-57-9]\\d|\n",
   str% "            66\n",
   str% "          )\\d{7}\n",
   str% "        </nationalNumberPattern>\n",
   str% "      </generalDesc>\n",
   str% "      <fixedLine>\n",
   str% "        <possibleLengths national=\"9\" localOnly=\"3,[5-7]\"/>\n",
   str% "        <exampleNumber>372123456</exampleNumber>\n",
   str% "        <nationalNumberPattern>\n",
   str% "          (?:\n",
   str% "            3(?:\n",
   str% "              1[3-5]|\n",
   str% "              2[245]|\n",
   str% "              3[12]|\n",
   str% "              4[24-7]|\n",
   str% "              5[25]|\n",
   str% "              72\n",
   str% "            )|\n",
   str% "            4(?:\n",
   str% "              46|\n",
   str% "              74|\n",
   str% "              87\n",
   str% "            )\n",
   str% "          )\\d{6}\n",
   str% "        </nationalNumberPattern>\n",
   str% "      </fixedLine>\n",
   str% "      <!-- Adding 90 prefix as SMS messages could be successfully delivered to these mobile\n",
   str% "           numbers and 55 for Megafon from bug reports. 00 mobile range is assigned to\n",
   str% "           Megafon as per their confirmation. -->\n",
   str% "      <mobile>\n",
   str% "        <possibleLengths national=\"9\"/>\n",
   str% "        <exampleNumber>917123456</exampleNumber>\n",
   str% "        <nationalNumberPattern>\n",
   str% "          (?:\n",
   str% "            33[03-9]|\n",
   str% "            4(?:\n",
   str% "              1[18]|\n",
   str% "              4[02-479]\n",
   str% "            )|\n",
   str% "            81[1-9]\n",
   str% "          )\\d{6}|\n",
   str% "          (?:\n",
   str% "            [09]\\d|\n",
   str% "            1[0-27-9]|\n",
   str% "            2[0-27]|\n",
   str% "            3[08]|\n",
   str% "            40|\n",
   str% "            5[05]|\n",
   str% "            66|\n",
   str% "            7[0157-9]|\n",
   str% "            8[07-9]\n",
   str% "          )\\d{7}\n",
   str% "        </nationalNumberPattern>\n",
   str% "      </mobile>\n",
   str% "    </territory>"]

/-- the text up to the end of territory id=TK countryCode=690 -/
noncomputable def TK : List Str :=
  [str% "\n",
   str% "\n",
   str% "    <!-- Tokelau (TK) -->\n",
   str% "    <!-- http://www.itu.int/oth/T02020000D2/en -->\n",
   str% "    <territory id=\"TK\" countryCode=\"690\" internationalPrefix=\"00\">\n",
   str% "      <generalDesc>\n",
   str% "        <nationalNumberPattern>[2-47]\\d{3,6}</nationalNumberPattern>\n",
   str% "      </generalDesc>\n",
   str% "      <!-- The example number is the contact number from the ITU document. -->\n",
   str% "      <fixedLine>\n",
   str% "        <possibleLengths national=\"[4-7]\"/>\n",
   str% "        <exampleNumber>3101</exampleNumber>\n",
   str% "        <nationalNumberPattern>\n",
   str% "          (?:\n",
   str% "            2[2-4]|\n",
   str% "            [34]\\d\n",
   str% "          )\\d{2,5}\n",
   str% "        </nationalNumberPattern>\n",
   str% "      </fixedLine>\n",
   str% "      <!-- No evidence has been found for prefixes 5, 6, 8, and 9 which are\n",
   str% "           described as non-geographic service numbers, so these prefixes are\n",
   str% "           excluded until more information is found. -->\n",
   str% "      <mobile>\n",
   str% "        <possibleLengths national=\"[4-7]\"/>\n",
   str% "        <exampleNumber>7290</exampleNumber>\n",
   str% "        <nationalNumberPattern>7[2-4]\\d{2,5}</nationalNumberPattern>\n",
   str% "      </mobile>\n",
   str% "    </territory>"]

/-- the text up to the end of territory id=TL countryCode=670 -/
noncomputable def TL : List Str :=
  [str% "\n",
   str% "\n",
   str% "    <!-- Timor-Leste (TL) -->\n",
   str% "    <!-- http://www.itu.int/oth/T02020000D0/en -->\n",
   str% "    <territory id=\"TL\" countryCode=\"670\" internationalPrefix=\"00\">\n",
   str% "      <availableFormats>\n",
   str% "        <numberFormat pattern=\"(\\d{3})(\\d{4})\">\n",
   str% "          <leadingDigits>\n",
   str% "            [2-489]|\n",
   str% "            70\n",
   str% "          </leadingDigits>\n",
   str% "          <format>$1 $2</format>\n",
   str% "        </numberFormat>\n",
   str% "        <!-- Since numbers grew an extra digit, we have no indication of how people are formatting\n",
   str% "             them. If we see another pattern being used, we should change this later. -->\n",
   str% "        <numberFormat pattern=\"(\\d{4})(\\d{4})\">\n",
   str% "          <leadingDigits>7</leadingDigits>\n",
   str% "          <format>$1 $2</format>\n",
   str% "        </numberFormat>\n",
   str% "      </availableFormats>\n",
   str% "      <generalDesc>\n",
   str% "        <nationalNumberPattern>\n",
   str% "          7\\d{7}|\n",
   str% "          (?:\n",
   str% "            [2-47]\\d|\n",
   str% "            [89]0\n",
   str% "          )\\d{5}\n",
   str% "        </nationalNumberPattern>\n",
   str% "      </generalDesc>\n",
   str% "      <fixedLine>\n",
   str% "        <possibleLengths national=\"7\"/>\n",
   str% "        <exampleNumber>2112345</exampleNumber>\n",
   str% "        <nationalNumberPattern>\n",
   str% "          (?:\n",
   str% "            2[1-5]|\n",
   str% "            3[1-9]|\n",
   str% "            4[1-4]\n",
   str% "          )\\d{5}\n",
   str% "        </nationalNumberPattern>\n",
   str% "      </fixedLine>\n",
   str% "      <mobile>\n",
   str% "        <possibleLengths national=\"8\"/>\n",
   str% "        <exampleNumber>77212345</exampleNumber>\n",
   str% "        <nationalNumberPattern>7[2-8]\\d{6}</nationalNumberPattern>\n",
   str% "      </mobile>\n",
   str% "      <tollFree>\n",
   str% "        <possibleLengths national=\"7\"/>\n",
   str% "        <exampleNumber>8012345</exampleNumber>\n",
   str% "        <nationalNumberPattern>80\\d{5}</nationalNumberPattern>\n",
   str% "      </tollFree>\n",
   str% "      <premiumRate>\n",
   str% "        <possibleLengths national=\"7\"/>\n",
   str% "        <exampleNumber>9012345</exampleNumber>\n",
   str% "        <nationalNumberPattern>90\\d{5}</nationalNumberPattern>\n",
   str% "      </premiumRate>\n",
   str% "      <!-- We don't include paging or voicemail because the identified paging range was used by\n",
   str% "           mobile previously, and for voicemail, it is unclear if the 2012 change affected these\n",
   str% "           numbers, or if the range was indeed previously used for voicemail at all. -->\n",
   str% "      <!-- We presume this wasn't affected by the numbering plan update. -->\n",
   str% "      <personalNumber>\n",
   str% "        <possibleLengths national=\"7\"/>\n",
   str% "        <exampleNumber>7012345</exampleNumber>\n",
   str% "        <nationalNumberPattern>70\\d{5}</nationalNumberPattern>\n",
   str% "      </personalNumber>\n",
   str% "    </territory>"]

/-- the text of this module -/
noncomputable def chunk13 : List (List Str) :=
  [SD, SE, SG, SH, SI, SJ, SK, SL, SM, SN, SO, SR, SS, ST, SV, SX, SY, SZ, TA, TC, TD, TG, TH, TJ, TK, TL]

end Phone.Data.S
