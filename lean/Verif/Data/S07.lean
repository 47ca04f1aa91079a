import Verif.Basic.Str
/-! Text of `/repo/assets/PhoneNumberMetadata.xml`, in lines. Generated by `tools/gen_xml.py`; do not edit. -/

set_option maxRecDepth 100000
namespace Phone.Data.S

/-- the text up to the end of territory id=IN countryCode=91 -/
noncomputable def IN : List Str :=
  [str% "\n",
   str% "\n",
   str% "    <!-- India (IN) -->\n",
   str% "    <!-- http://www.itu.int/oth/T0202000063/en -->\n",
   str% "    <!-- http://en.wikipedia.org/wiki/%2B91 -->\n",
   str% "    <!-- http://www.bsnl.co.in -->\n",
   str% "    <!-- http://dq.ndc.bsnl.co.in/bsnl-web/stdSearch.seam -->\n",
   str% "    <!-- http://www.dot.gov.in/access-services/allotment-msc-codes -->\n",
   str% "    <territory id=\"IN\" countryCode=\"91\" internationalPrefix=\"00\" nationalPrefix=\"0\"\n",
   str% "               mobileNumberPortableRegion=\"true\">\n",
   str% "      <availableFormats>\n",
   str% "        <!-- 7-digit \"short\" numbers. -->\n",
   str% "        <numberFormat pattern=\"(\\d{7})\">\n",
   str% "          <leadingDigits>575</leadingDigits>\n",
   str% "          <format>$1</format>\n",
   str% "          <intlFormat>NA</intlFormat>\n",
   str% "        </numberFormat>\n",
   str% "        <!-- 8-digit \"short\" numbers (optionally diallable with a national prefix). -->\n",
   str% "        <numberFormat pattern=\"(\\d{8})\" nationalPrefixOptionalWhenFormatting=\"true\">\n",
   str% "          <leadingDigits>\n",
   str% "            5(?:\n",
   str% "              0|\n",
   str% "              2[23]|\n",
   str% "              3[03]|\n",
   str% "              [67]1|\n",
   str% "              88\n",
   str% "            )\n",
   str% "          </leadingDigits>\n",
   str% "          <leadingDigits>\n",
   str% "            5(?:\n",
   str% "              0|\n",
   str% "              2(?:\n",
   str% "                21|\n",
   str% "                3\n",
   str% "              )|\n",
   str% "              3(?:\n",
   str% "                0|\n",
   str% "                3[23]\n",
   str% "              )|\n",
   str% "              616|\n",
   str% "              717|\n",
   str% "              888\n",
   str% "            )\n",
   str% "          </leadingDigits>\n",
   str% "          <leadingDigits>\n",
   str% "            5(?:\n",
   str% "              0|\n",
   str% "              2(?:\n",
   str% "                21|\n",
   str% "                3\n",
   str% "              )|\n",
   str% "              3(?:\n",
   str% "                0|\n",
   str% "                3[23]\n",
   str% "              )|\n",
   str% "              616|\n",
   str% "              717|\n",
   str% "              8888\n",
   str% "            )\n",
   str% "          </leadingDigits>\n",
   str% "          <format>$1</format>\n",
   str% "        </numberFormat>\n",
   str% "        <!-- 8,9-digit toll free numbers -->\n",
   str% "        <numberFormat pattern=\"(\\d{4})(\\d{4,5})\" nationalPrefixOptionalWhenFormatting=\"true\">\n",
   str% "          <leadingDigits>180</leadingDigits>\n",
   str% "          <leadingDigits>1800</leadingDigits>\n",
   str% "          <format>$1 $2</format>\n",
   str% "        </numberFormat>\n",
   str% "        <!-- 10 digit UAN numbers -->\n",
   str% "        <numberFormat pattern=\"(\\d{3})(\\d{3})(\\d{4})\" nationalPrefixOptionalWhenFormatting=\"true\">\n",
   str% "          <leadingDigits>140</leadingDigits>\n",
   str% "          <format>$1 $2 $3</format>\n",
   str% "        </numberFormat>\n",
   str% "        <!-- 2-digit area codes. -->\n",
   str% "        <numberFormat pattern=\"(\\d{2})(\\d{4})(\\d{4})\" nationalPrefixFormattingRule=\"$NP$FG\"\n",
   str% "                      nationalPrefixOptionalWhenFormatting=\"true\">\n",
   str% "          <leadingDigits>\n",
   str% "            11|\n",
   str% "            2[02]|\n",
   str% "            33|\n",
   str% "            4[04]|\n",
   str% "            79[1-7]|\n",
   str% "            80[2-46]\n",
   str% "          </leadingDigits>\n",
   str% "          <leadingDigits>\n",
   str% "            11|\n",
   str% "            2[02]|\n",
   str% "            33|\n",
   str% "            4[04]|\n",
   str% "            79(?:\n",
   str% "              [1-6]|\n",
   str% "              7[19]\n",
   str% "            )|\n",
   str% "            80(?:\n",
   str% "              [2-4]|\n",
   str% "              6[0-589]\n",
   str% "            )\n",
   str% "          </leadingDigits>\n",
   str% "          <leadingDigits>\n",
   str% "            11|\n",
   str% "            2[02]|\n",
   str% "            33|\n",
   str% "            4[04]|\n",
   str% "            79(?:\n",
   str% "              [124-6]|\n",
   str% "              3(?:\n",
   str% "                [02-9]|\n",
   str% "                1[0-24-9]\n",
   str% "              )|\n",
   str% "              7(?:\n",
   str% "                1|\n",
   str% "                9[1-6]\n",
   str% "              )\n",
   str% "            )|\n",
   str% "            80(?:\n",
   str% "              [2-4]|\n",
   str% "              6[0-589]\n",
   str% "            )\n",
   str% "          </leadingDigits>\n",
   str% "          <format>$1 $2 $3</format>\n",
   str% "        </numberFormat>\n",
   str% "        <!-- 3-digit area codes. -->\n",
   str% "        <numberFormat pattern=\"(\\d{3})(\\d{3})(\\d{4})\" nationalPrefixFormattingRule=\"$NP$FG\"\n",
   str% "                      nationalPrefixOptionalWhenFormatting=\"true\">\n",
   str% "          <leadingDigits>\n",
   str% "            1(?:\n",
   str% "              2[0-249]|\n",
   str% "              3[0-25]|\n",
   str% "              4[145]|\n",
   str% "              [68]|\n",
   str% "              7[1257]\n",
   str% "            )|\n",
   str% "            2(?:\n",
   str% "              1[257]|\n",
   str% "              3[013]|\n",
   str% "              4[01]|\n",
   str% "              5[0137]|\n",
   str% "              6[0158]|\n",
   str% "              78|\n",
   str% "              8[1568]\n",
   str% "            )|\n",
   str% "            3(?:\n",
   str% "              26|\n",
   str% "              4[1-3]|\n",
   str% "              5[34]|\n",
   str% "              6[01489]|\n",
   str% "              7[02-46]|\n",
   str% "              8[159]\n",
   str% "            )|\n",
   str% "            4(?:\n",
   str% "              1[36]|\n",
   str% "              2[1-47]|\n",
   str% "              5[12]|\n",
   str% "              6[0-26-9]|\n",
   str% "              7[0-24-9]|\n",
   str% "              8[013-57]|\n",
   str% "              9[014-7]\n",
   str% "            )|\n",
   str% "            5(?:\n",
   str% "              1[025]|\n",
   str% "              22|\n",
   str% "              [36][25]|\n",
   str% "              4[28]|\n",
   str% "              5[12]|\n",
   str% "              [78]1\n",
   str% "            )|\n",
   str% "            6(?:\n",
   str% "              12|\n",
   str% "              [2-4]1|\n",
   str% "              5[17]|\n",
   str% "              6[13]|\n",
   str% "              80\n",
   str% "            )|\n",
   str% "            7(?:\n",
   str% "              12|\n",
   str% "              3[134]|\n",
   str% "              61|\n",
   str% "              88\n",
   str% "            )|\n",
   str% "            8(?:\n",
   str% "              16|\n",
   str% "              2[014]|\n",
   str% "              3[126]|\n",
   str% "              6[136]|\n",
   str% "              7[078]|\n",
   str% "              8[34]|\n",
   str% "              91\n",
   str% "            )|\n",
   str% "            (?:\n",
   str% "              43|\n",
   str% "              59|\n",
   str% "              75\n",
   str% "            )[15]|\n",
   str% "            (?:\n",
   str% "              1[59]|\n",
   str% "              29|\n",
   str% "              67\n",
   str% "            )[14]\n",
   str% "          </leadingDigits>\n",
   str% "          <leadingDigits>\n",
   str% "            1(?:\n",
   str% "              2[0-24]|\n",
   str% "              3[0-25]|\n",
   str% "              4[145]|\n",
   str% "              [59][14]|\n",
   str% "              6[1-9]|\n",
   str% "              7[1257]|\n",
   str% "              8[1-57-9]\n",
   str% "            )|\n",
   str% "            2(?:\n",
   str% "              1[257]|\n",
   str% "              3[013]|\n",
   str% "              4[01]|\n",
   str% "              5[0137]|\n",
   str% "              6[058]|\n",
   str% "              78|\n",
   str% "              8[1568]|\n",
   str% "              9[14]\n",
   str% "            )|\n",
   str% "            3(?:\n",
   str% "              26|\n",
   str% "              4[1-3]|\n",
   str% "              5[34]|\n",
   str% "              6[01489]|\n",
   str% "              7[02-46]|\n",
   str% "              8[159]\n",
   str% "            )|\n",
   str% "            4(?:\n",
   str% "              1[36]|\n",
   str% "              2[1-47]|\n",
   str% "              3[15]|\n",
   str% "              5[12]|\n",
   str% "              6[0-26-9]|\n",
   str% "              7[0-24-9]|\n",
   str% "              8[013-57]|\n",
   str% "              9[014-7]\n",
   str% "            )|\n",
   str% "            5(?:\n",
   str% "              1[025]|\n",
   str% "              22|\n",
   str% "              [36][25]|\n",
   str% "              4[28]|\n",
   str% "              [578]1|\n",
   str% "              9[15]\n",
   str% "            )|\n",
   str% "            674|\n",
   str% "            7(?:\n",
   str% "              (?:\n",
   str% "                3[34]|\n",
   str% "                5[15]\n",
   str% "              )[2-6]|\n",
   str% "              61[346]|\n",
   str% "              88[0-8]\n",
   str% "            )|\n",
   str% "            8(?:\n",
   str% "              70[2-6]|\n",
   str% "              84[235-7]|\n",
   str% "              91[3-7]\n",
   str% "            )|\n",
   str% "            (?:\n",
   str% "              1(?:\n",
   str% "                29|\n",
   str% "                60|\n",
   str% "                8[06]\n",
   str% "              )|\n",
   str% "              261|\n",
   str% "              552|\n",
   str% "              6(?:\n",
   str% "                12|\n",
   str% "                [2-47]1|\n",
   str% "                5[17]|\n",
   str% "                6[13]|\n",
   str% "                80\n",
   str% "              )|\n",
   str% "              7(?:\n",
   str% "                12|\n",
   str% "                31\n",
   str% "              )|\n",
   str% "              8(?:\n",
   str% "                16|\n",
   str% "                2[014]|\n",
   str% "                3[126]|\n",
   str% "                6[136]|\n",
   str% "                7[78]|\n",
   str% "                83\n",
   str% "              )\n",
   str% "            )[2-7]\n",
   str% "          </leadingDigits>\n",
   str% "          <leadingDigits>\n",
   str% "            1(?:\n",
   str% "              2[0-24]|\n",
   str% "              3[0-25]|\n",
   str% "              4[145]|\n",
   str% "              [59][14]|\n",
   str% "              6[1-9]|\n",
   str% "              7[1257]|\n",
   str% "              8[1-57-9]\n",
   str% "            )|\n",
   str% "            2(?:\n",
   str% "              1[257]|\n",
   str% "              3[013]|\n",
   str% "              4[01]|\n",
   str% "              5[0137]|\n",
   str% "              6[058]|\n",
   str% "              78|\n",
   str% "              8[1568]|\n",
   str% "              9[14]\n",
   str% "            )|\n",
   str% "            3(?:\n",
   str% "              26|\n",
   str% "              4[1-3]|\n",
   str% "              5[34]|\n",
   str% "              6[01489]|\n",
   str% "              7[02-46]|\n",
   str% "              8[159]\n",
   str% "            )|\n",
   str% "            4(?:\n",
   str% "              1[36]|\n",
   str% "              2[1-47]|\n",
   str% "              3[15]|\n",
   str% "              5[12]|\n",
   str% "              6[0-26-9]|\n",
   str% "              7[0-24-9]|\n",
   str% "              8[013-57]|\n",
   str% "              9[014-7]\n",
   str% "            )|\n",
   str% "            5(?:\n",
   str% "              1[025]|\n",
   str% "              22|\n",
   str% "              [36][25]|\n",
   str% "              4[28]|\n",
   str% "              [578]1|\n",
   str% "              9[15]\n",
   str% "            )|\n",
   str% "            6(?:\n",
   str% "              12(?:\n",
   str% "                [2-6]|\n",
   str% "                7[0-8]\n",
   str% "              )|\n",
   str% "              74[2-7]\n",
   str% "            )|\n",
   str% "            7(?:\n",
   str% "              3171|\n",
   str% "              5[15][2-6]|\n",
   str% "              61[346]|\n",
   str% "              88(?:\n",
   str% "                [2-7]|\n",
   str% "                82\n",
   str% "              )\n",
   str% "            )|\n",
   str% "            8(?:\n",
   str% "              70[2-6]|\n",
   str% "              84(?:\n",
   str% "                [2356]|\n",
   str% "                7[19]\n",
   str% "              )|\n",
   str% "              91(?:\n",
   str% "                [3-6]|\n",
   str% "                7[19]\n",
   str% "              )\n",
   str% "            )|\n",
   str% "            73[134][2-6]|\n",
   str% "            8(?:\n",
   str% "              16|\n",
   str% "              2[014]|\n",
   str% "              3[126]|\n",
   str% "              6[136]|\n",
   str% "              7[78]|\n",
   str% "              83\n",
   str% "            )(?:\n",
   str% "              [2-6]|\n",
   str% "              7[19]\n",
   str% "            )|\n",
   str% "            (?:\n",
   str% "              1(?:\n",
   str% "                29|\n",
   str% "                60|\n",
   str% "                8[06]\n",
   str% "              )|\n",
   str% "              261|\n",
   str% "              552|\n",
   str% "              6(?:\n",
   str% "                [2-4]1|\n",
   str% "                5[17]|\n",
   str% "                6[13]|\n",
   str% "                7(?:\n",
   str% "                  1|\n",
   str% "                  4[0189]\n",
   str% "                )|\n",
   str% "                80\n",
   str% "              )|\n",
   str% "              7(?:\n",
   str% "                12|\n",
   str% "                88[01]\n",
   str% "              )\n",
   str% "            )[2-7]\n",
   str% "          </leadingDigits>\n",
   str% "          <format>$1 $2 $3</format>\n",
   str% "        </numberFormat>\n",
   str% "        <!-- 4-digit area codes. -->\n",
   str% "        <numberFormat pattern=\"(\\d{4})(\\d{3})(\\d{3})\" nationalPrefixFormattingRule=\"$NP$FG\"\n",
   str% "                      nationalPrefixOptionalWhenFormatting=\"true\">\n",
   str% "          <leadingDigits>\n",
   str% "            1(?:\n",
   str% "              [2-479]|\n",
   str% "              5[0235-9]\n",
   str% "            )|\n",
   str% "            [2-5]|\n",
   str% "            6(?:\n",
   str% "              1[1358]|\n",
   str% "              2[2457-9]|\n",
   str% "              3[2-5]|\n",
   str% "              4[235-7]|\n",
   str% "              5[2-689]|\n",
   str% "              6[24578]|\n",
   str% "              7[235689]|\n",
   str% "              8[1-6]\n",
   str% "            )|\n",
   str% "            7(?:\n",
   str% "              1[013-9]|\n",
   str% "              3[129]|\n",
   str% "              5[29]|\n",
   str% "              6[02-5]|\n",
   str% "              70\n",
   str% "            )|\n",
   str% "            807\n",
   str% "          </leadingDigits>\n",
   str% "          <leadingDigits>\n",
   str% "            1(?:\n",
   str% "              [2-479]|\n",
   str% "              5[0235-9]\n",
   str% "            )|\n",
   str% "            [2-5]|\n",
   str% "            6(?:\n",
   str% "              1[1358]|\n",
   str% "              2(?:\n",
   str% "                [2457]|\n",
   str% "                84|\n",
   str% "                95\n",
   str% "              )|\n",
   str% "              3(?:\n",
   str% "                [2-4]|\n",
   str% "                55\n",
   str% "              )|\n",
   str% "              4[235-7]|\n",
   str% "              5[2-689]|\n",
   str% "              6[24578]|\n",
   str% "              7(?:\n",
   str% "                [23569]|\n",
   str% "                8[0-57-9]\n",
   str% "              )|\n",
   str% "              8[1-6]\n",
   str% "            )|\n",
   str% "            7(?:\n",
   str% "              1(?:\n",
   str% "                [013-8]|\n",
   str% "                9[6-9]\n",
   str% "              )|\n",
   str% "              3(?:\n",
   str% "                17|\n",
   str% "                2[0-49]|\n",
   str% "                9[2-57]\n",
   str% "              )|\n",
   str% "              5(?:\n",
   str% "                2[1-3]|\n",
   str% "                9[0-6]\n",
   str% "              )|\n",
   str% "              6(?:\n",
   str% "                0[5689]|\n",
   str% "                2[5-9]|\n",
   str% "                3[02-8]|\n",
   str% "                4|\n",
   str% "                5[0-367]\n",
   str% "              )|\n",
   str% "              70[13-7]\n",
   str% "            )|\n",
   str% "            807[19]\n",
   str% "          </leadingDigits>\n",
   str% "          <leadingDigits>\n",
   str% "            1(?:\n",
   str% "              [2-479]|\n",
   str% "              5(?:\n",
   str% "                [0236-9]|\n",
   str% "                5[013-9]\n",
   str% "              )\n",
   str% "            )|\n",
   str% "            [2-5]|\n",
   str% "            6(?:\n",
   str% "              2(?:\n",
   str% "                84|\n",
   str% "                95\n",
   str% "              )|\n",
   str% "              355|\n",
   str% "              8(?:\n",
   str% "                28[235-7]|\n",
   str% "                3\n",
   str% "              )\n",
   str% "            )|\n",
   str% "            73179|\n",
   str% "            807(?:\n",
   str% "              1|\n",
   str% "              9[1-3]\n",
   str% "            )|\n",
   str% "            (?:\n",
   str% "              1552|\n",
   str% "              6(?:\n",
   str% "                (?:\n",
   str% "                  1[1358]|\n",
   str% "                  2[2457]|\n",
   str% "                  3[2-4]|\n",
   str% "                  4[235-7]|\n",
   str% "                  5[2-689]|\n",
   str% "                  6[24578]\n",
   str% "                )\\d|\n",
   str% "                7(?:\n",
   str% "                  [23569]\\d|\n",
   str% "                  8[0-57-9]\n",
   str% "                )|\n",
   str% "                8(?:\n",
   str% "                  [14-6]\\d|\n",
   str% "                  2[0-79]\n",
   str% "                )\n",
   str% "              )|\n",
   str% "              7(?:\n",
   str% "                1(?:\n",
   str% "                  [013-8]\\d|\n",
   str% "                  9[6-9]\n",
   str% "                )|\n",
   str% "                3(?:\n",
   str% "                  2[0-49]|\n",
   str% "                  9[2-57]\n",
   str% "                )|\n",
   str% "                5(?:\n",
   str% "                  2[1-3]|\n",
   str% "                  9[0-6]\n",
   str% "                )|\n",
   str% "                6(?:\n",
   str% "                  0[5689]|\n",
   str% "                  2[5-9]|\n",
   str% "                  3[02-8]|\n",
   str% "                  4\\d|\n",
   str% "                  5[0-367]\n",
   str% "                )|\n",
   str% "                70[13-7]\n",
   str% "              )\n",
   str% "            )[2-7]\n",
   str% "          </leadingDigits>\n",
   str% "          <format>$1 $2 $3</format>\n",
   str% "        </numberFormat>\n",
   str% "        <!-- Mobile format (this can include some fixed-line ranges due to limited precision\n",
   str% "             in some ranges). -->\n",
   str% "        <numberFormat pattern=\"(\\d{5})(\\d{5})\" nationalPrefixFormattingRule=\"$NP$FG\"\n",
   str% "                      nationalPrefixOptionalWhenFormatting=\"true\">\n",
   str% "          <leadingDigits>\n",
   str% "            16|\n",
   str% "            [6-9]\n",
   str% "          </leadingDigits>\n",
   str% "          <format>$1 $2</format>\n",
   str% "        </numberFormat>\n",
   str% "        <!-- 10-12 digit toll free and shared cost numbers. -->\n",
   str% "        <numberFormat pattern=\"(\\d{4})(\\d{2,4})(\\d{4})\" nationalPrefixOptionalWhenFormatting=\"true\">\n",
   str% "          <leadingDigits>18[06]</leadingDigits>\n",
   str% "          <leadingDigits>18[06]0</leadingDigits>\n",
   str% "          <format>$1 $2 $3</format>\n",
   str% "        </numberFormat>\n",
   str% "        <!-- 13-digit ITFS -->\n",
   str% "        <numberFormat pattern=\"(\\d{3})(\\d{3})(\\d{3})(\\d{4})\">\n",
   str% "          <leadingDigits>0</leadingDigits>\n",
   str% "          <format>$1 $2 $3 $4</format>\n",
   str% "          <intlFormat>NA</intlFormat>\n",
   str% "        </numberFormat>\n",
   str% "        <!-- 13 digit toll free and premium rate numbers -->\n",
   str% "        <numberFormat pattern=\"(\\d{4})(\\d{3})(\\d{3})(\\d{3})\"\n",
   str% "                      nationalPrefixOptionalWhenFormatting=\"true\">\n",
   str% "          <leadingDigits>18</leadingDigits>\n",
   str% "          <format>$1 $2 $3 $4</format>\n",
   str% "        </numberFormat>\n",
   str% "      </availableFormats>\n",
   str% "      <generalDesc>\n",
   str% "        <nationalNumberPattern>\n",
   str% "          (?:\n",
   str% "            000800|\n",
   str% "            [2-9]\\d\\d\n",
   str% "          )\\d{7}|\n",
   str% "          1\\d{7,12}\n",
   str% "        </nationalNumberPattern>\n",
   str% "      </generalDesc>\n",
   str% "      <noInternationalDialling>\n",
   str% "        <possibleLengths national=\"[8-13]\"/>\n",
   str% "        <nationalNumberPattern>\n",
   str% "          1800\\d{4,9}|\n",
   str% "          (?:\n",
   str% "            000800|\n",
   str% "            18(?:\n",
   str% "              03\\d\\d|\n",
   str% "              6(?:\n",
   str% "                0|\n",
   str% "                [12]\\d\\d\n",
   str% "              )\n",
   str% "            )\n",
   str% "          )\\d{7}\n",
   str% "        </nationalNumberPattern>\n",
   str% "      </noInternationalDialling>\n",
   str% "      <!-- This pattern has 3 parts: 2-digit NDCs, 3-digit NDCs, and 4-digit NDCs. This is because\n",
   str% "           the subscriber number following NDCs always begins with the operator codes 2-7. Not all\n",
   str% "           operator codes are available in all NDCs, but we don't maintain that level of\n",
   str% "           granularity. 4-digit NDCs are only maintained up to 3-digit granularity, unless more is\n",
   str% "           needed to disambiguate from e.g. mobile ranges. -->\n",
   str% "      <fixedLine>\n",
   str% "        <possibleLengths national=\"10\" localOnly=\"[6-8]\"/>\n",
   str% "        <exampleNumber>7410410123</exampleNumber>\n",
   str% "        <nationalNumberPattern>\n",
   str% "          (?:\n",
   str% "            2717(?:\n",
   str% "              [2-7]\\d|\n",
   str% "              95\n",
   str% "            )|\n",
   str% "            6828[235-7]\\d\n",
   str% "          )\\d{4}|\n",
   str% "          (?:\n",
   str% "            170[24]|\n",
   str% "            280[13468]|\n",
   str% "            4(?:\n",
   str% "              20[24]|\n",
   str% "              72[2-8]\n",
   str% "            )|\n",
   str% "            552[1-7]\n",
   str% "          )\\d{6}|\n",
   str% "          (?:\n",
   str% "            271[0-689]|\n",
   str% "            682[0-79]|\n",
   str% "            782[0-6]\n",
   str% "          )[2-7]\\d{5}|\n",
   str% "          (?:\n",
   str% "            2(?:\n",
   str% "              [02][2-79]|\n",
   str% "              90\n",
   str% "            )|\n",
   str% "            3(?:\n",
   str% "              23|\n",
   str% "              80\n",
   str% "            )|\n",
   str% "            683|\n",
   str% "            79[1-7]\n",
   str% "          )\\d{7}|\n",
   str% "          (?:\n",
   str% "            11|\n",
   str% "            33|\n",
   str% "            4[04]|\n",
   str% "            80\n",
   str% "          )[2-7]\\d{7}|\n",
   str% "          (?:\n",
   str% "            342|\n",
   str% "            674|\n",
   str% "            788\n",
   str% "          )(?:\n",
   str% "            [0189][2-7]|\n",
   str% "            [2-7]\\d\n",
   str% "          )\\d{5}|\n",
   str% "          (?:\n",
   str% "            1(?:\n",
   str% "              2[0-249]|\n",
   str% "              3[0-25]|\n",
   str% "              4[145]|\n",
   str% "              [59][14]|\n",
   str% "              6[014]|\n",
   str% "              7[1257]|\n",
   str% "              8[01346]\n",
   str% "            )|\n",
   str% "            2(?:\n",
   str% "              1[257]|\n",
   str% "              3[013]|\n",
   str% "              4[01]|\n",
   str% "              5[0137]|\n",
   str% "              6[0158]|\n",
   str% "              78|\n",
   str% "              8[1568]|\n",
   str% "              9[14]\n",
   str% "            )|\n",
   str% "            3(?:\n",
   str% "              26|\n",
   str% "              4[13]|\n",
   str% "              5[34]|\n",
   str% "              6[01489]|\n",
   str% "              7[02-46]|\n",
   str% "              8[159]\n",
   str% "            )|\n",
   str% "            4(?:\n",
   str% "              1[36]|\n",
   str% "              2[1-47]|\n",
   str% "              3[15]|\n",
   str% "              5[12]|\n",
   str% "              6[0-26-9]|\n",
   str% "              7[014-9]|\n",
   str% "              8[013-57]|\n",
   str% "              9[014-7]\n",
   str% "            )|\n",
   str% "            5(?:\n",
   str% "              1[025]|\n",
   str% "              22|\n",
   str% "              [36][25]|\n",
   str% "              4[28]|\n",
   str% "              [578]1|\n",
   str% "              9[15]\n",
   str% "            )|\n",
   str% "            6(?:\n",
   str% "              12|\n",
   str% "              [2-47]1|\n",
   str% "              5[17]|\n",
   str% "              6[13]|\n",
   str% "              80\n",
   str% "            )|\n",
   str% "            7(?:\n",
   str% "              12|\n",
   str% "              2[14]|\n",
   str% "              3[134]|\n",
   str% "              4[47]|\n",
   str% "              5[15]|\n",
   str% "              [67]1\n",
   str% "            )|\n",
   str% "            8(?:\n",
   str% "              16|\n",
   str% "              2[014]|\n",
   str% "              3[126]|\n",
   str% "              6[136]|\n",
   str% "              7[078]|\n",
   str% "              8[34]|\n",
   str% "              91\n",
   str% "            )\n",
   str% "          )[2-7]\\d{6}|\n",
   str% "          (?:\n",
   str% "            1(?:\n",
   str% "              2[35-8]|\n",
   str% "              3[346-9]|\n",
   str% "              4[236-9]|\n",
   str% "              [59][0235-9]|\n",
   str% "              6[235-9]|\n",
   str% "              7[34689]|\n",
   str% "              8[257-9]\n",
   str% "            )|\n",
   str% "            2(?:\n",
   str% "              1[134689]|\n",
   str% "              3[24-8]|\n",
   str% "              4[2-8]|\n",
   str% "              5[25689]|\n",
   str% "              6[2-4679]|\n",
   str% "              7[3-79]|\n",
   str% "              8[2-479]|\n",
   str% "              9[235-9]\n",
   str% "            )|\n",
   str% "            3(?:\n",
   str% "              01|\n",
   str% "              1[79]|\n",
   str% "              2[1245]|\n",
   str% "              4[5-8]|\n",
   str% "              5[125689]|\n",
   str% "              6[235-7]|\n",
   str% "              7[157-9]|\n",
   str% "              8[2-46-8]\n",
   str% "            )|\n",
   str% "            4(?:\n",
   str% "              1[14578]|\n",
   str% "              2[5689]|\n",
   str% "              3[2-467]|\n",
   str% "              5[4-7]|\n",
   str% "              6[35]|\n",
   str% "              73|\n",
   str% "              8[2689]|\n",
   str% "              9[2389]\n",
   str% "            )|\n",
   str% "            5(?:\n",
   str% "              [16][146-9]|\n",
   str% "              2[14-8]|\n",
   str% "              3[1346]|\n",
   str% "              4[14-69]|\n",
   str% "              5[46]|\n",
   str% "              7[2-4]|\n",
   str% "              8[2-8]|\n",
   str% "              9[246]\n",
   str% "            )|\n",
   str% "            6(?:\n",
   str% "              1[1358]|\n",
   str% "              2[2457]|\n",
   str% "              3[2-4]|\n",
   str% "              4[235-7]|\n",
   str% "              5[2-689]|\n",
   str% "              6[24578]|\n",
   str% "              7[235689]|\n",
   str% "              8[14-6]\n",
   str% "            )|\n",
   str% "            7(?:\n",
   str% "              1[013-9]|\n",
   str% "              2[0235-9]|\n",
   str% "              3[2679]|\n",
   str% "              4[1-35689]|\n",
   str% "              5[2-46-9]|\n",
   str% "              [67][02-9]|\n",
   str% "              8[013-7]|\n",
   str% "              9[089]\n",
   str% "            )|\n",
   str% "            8(?:\n",
   str% "              1[1357-9]|\n",
   str% "              2[235-8]|\n",
   str% "              3[03-57-9]|\n",
   str% "              4[0-24-9]|\n",
   str% "              5\\d|\n",
   str% "              6[2457-9]|\n",
   str% "              7[1-6]|\n",
   str% "              8[1256]|\n",
   str% "              9[2-4]\n",
   str% "            )\n",
   str% "          )\\d[2-7]\\d{5}\n",
   str% "        </nationalNumberPattern>\n",
   str% "      </fixedLine>\n",
   str% "      <!-- http://en.wikipedia.org/wiki/Mobile_telephone_numbering_in_India -->\n",
   str% "      <!-- The document titled \"List of MSC codes\" linked off\n",
   str% "           http://www.dot.gov.in/access-services/national-numbering-plan-2003 was helpful but last\n",
   str% "           updated 2012 - more updates at http://www.dot.gov.in/access-services/allotment-msc-codes. -->\n",
   str% "      <!-- A couple of additional prefixes found neither on the wikipedia page nor in the MSC\n",
   str% "           codes list, are added because SMS messages have been successfully sent to these\n",
   str% "           numbers. It seems almost impossible to know for some of these numbers whether they are\n",
   str% "           land-line or mobile, since the ranges overlap. We go to a maximum depth of five where\n",
   str% "           necessary to distinguish between mobile and fixed-line numbers. Extra prefixes added:\n",
   str% "           6391, 7317[2-4], 7601, 768[56][1-7], 7695, 81145, 83178, 83287 and 83678. New prefixes\n",
   str% "           were also added based on the document provided from mobile carriers:\n",
   str% "           https://github.com/google/libphonenumber/issues/260 and\n",
   str% "           https://github.com/google/libphonenumber/pull/692/ -->\n",
   str% "      <mobile>\n",
   str% "        <possibleLengths national=\"10\"/>\n",
   str% "        <exampleNumber>8123456789</exampleNumber>\n",
   str% "        <nationalNumberPattern>\n",
   str% "          (?:\n",
   str% "            6(?:\n",
   str% "              1279|\n",
   str% "              828[01489]\n",
   str% "            )|\n",
   str% "            7(?:\n",
   str% "              887[02-9]|\n",
   str% "              9(?:\n",
   str% "                313|\n",
   str% "                79[07-9]\n",
   str% "              )\n",
   str% "            )|\n",
   str% "            8(?:\n",
   str% "              079[04-9]|\n",
   str% "              (?:\n",
   str% "                84|\n",
   str% "                91\n",
   str% "              )7[02-8]\n",
   str% "            )\n",
   str% "          )\\d{5}|\n",
   str% "          (?:\n",
   str% "            160[01]|\n",
   str% "            6(?:\n",
   str% "              (?:\n",
   str% "                12|\n",
   str% "                [2-4]1|\n",
   str% "                5[17]|\n",
   str% "                6[13]|\n",
   str% "                80\n",
   str% "              )[0189]|\n",
   str% "              7(?:\n",
   str% "                1[0189]|\n",
   str% "                86\n",
   str% "              )\n",
   str% "            )|\n",
   str% "            7(?:\n",
   str% "              1(?:\n",
   str% "                2[0189]|\n",
   str% "                9[0-5]\n",
   str% "              )|\n",
   str% "              3(?:\n",
   str% "                2[5-8]|\n",
   str% "                [34][017-9]|\n",
   str% "                9[016-9]\n",
   str% "              )|\n",
   str% "              5(?:\n",
   str% "                [15][017-9]|\n",
   str% "                2[04-9]|\n",
   str% "                9[7-9]\n",
   str% "              )|\n",
   str% "              6(?:\n",
   str% "                0[0-47]|\n",
   str% "                1[0-257-9]|\n",
   str% "                2[0-4]|\n",
   str% "                3[19]|\n",
   str% "                5[4589]\n",
   str% "              )|\n",
   str% "              70[0289]|\n",
   str% "              88[089]|\n",
   str% "              97[02-8]\n",
   str% "            )|\n",
   str% "            8(?:\n",
   str% "              0(?:\n",
   str% "                6[67]|\n",
   str% "                7[02-8]\n",
   str% "              )|\n",
   str% "              70[017-9]|\n",
   str% "              84[01489]|\n",
   str% "              91[0-289]\n",
   str% "            )\n",
   str% "          )\\d{6}|\n",
   str% "          (?:\n",
   str% "            731|\n",
   str% "            8(?:\n",
   str% "              16|\n",
   str% "              2[014]|\n",
   str% "              3[126]|\n",
   str% "              6[136]|\n",
   str% "              7[78]|\n",
   str% "              83\n",
   str% "            )\n",
   str% "          )(?:\n",
   str% "            [0189]\\d|\n",
   str% "            7[02-8]\n",
   str% "          )\\d{5}|\n",
   str% "          (?:\n",
   str% "            6(?:\n",
   str% "              (?:\n",
   str% "                1[1358]|\n",
   str% "                2[2457]|\n",
   str% "                3[2-4]|\n",
   str% "                4[235-7]|\n",
   str% "                5[2-689]|\n",
   str% "                6[24578]\n",
   str% "              )\\d|\n",
   str% "              7(?:\n",
   str% "                [23569]\\d|\n",
   str% "                4[0189]|\n",
   str% "                8[0-57-9]\n",
   str% "              )|\n",
   str% "              8(?:\n",
   str% "                [14-6]\\d|\n",
   str% "                2[0-79]\n",
   str% "              )\n",
   str% "            )|\n",
   str% "            7(?:\n",
   str% "              1(?:\n",
   str% "                [013-8]\\d|\n",
   str% "                9[6-9]\n",
   str% "              )|\n",
   str% "              3(?:\n",
   str% "                2[0-49]|\n",
   str% "                9[2-5]\n",
   str% "              )|\n",
   str% "              5(?:\n",
   str% "                2[1-3]|\n",
   str% "                9[0-6]\n",
   str% "              )|\n",
   str% "              6(?:\n",
   str% "                0[5689]|\n",
   str% "                2[5-9]|\n",
   str% "                3[02-8]|\n",
   str% "                4\\d|\n",
   str% "                5[0-367]\n",
   str% "              )|\n",
   str% "              70[13-7]|\n",
   str% "              881\n",
   str% "            )\n",
   str% "          )[0189]\\d{5}|\n",
   str% "          (?:\n",
   str% "            6(?:\n",
   str% "              [09]\\d|\n",
   str% "              1[04679]|\n",
   str% "              2[03689]|\n",
   str% "              3[05-9]|\n",
   str% "              4[0489]|\n",
   str% "              50|\n",
   str% "              6[069]|\n",
   str% "              7[07]|\n",
   str% "              8[7-9]\n",
   str% "            )|\n",
   str% "            7(?:\n",
   str% "              [024]\\d|\n",
   str% "              3[05-8]|\n",
   str% "              5[0346-8]|\n",
   str% "              6[6-9]|\n",
   str% "              7[1-9]|\n",
   str% "              8[0-79]|\n",
   str% "              9[089]\n",
   str% "            )|\n",
   str% "            8(?:\n",
   str% "              0[01589]|\n",
   str% "              1[0-57-9]|\n",
   str% "              2[235-9]|\n",
   str% "              3[03-57-9]|\n",
   str% "              [45]\\d|\n",
   str% "              6[02457-9]|\n",
   str% "              7[1-69]|\n",
   str% "              8[0-25-9]|\n",
   str% "              9[02-9]\n",
   str% "            )|\n",
   str% "            9\\d\\d\n",
   str% "          )\\d{7}\n",
   str% "        </nationalNumberPattern>\n",
   str% "      </mobile>\n",
   str% "      <!-- Information gathered from sites such as\n",
   str% "           http://www.surfindia.com/india-facts/toll-free-no.html and\n",
   str% "           http://indmusings.blogspot.com/2008/09/free-help-line-numbersindia.html\n",
   str% "           http://www.bsnl.co.in/service/telev.htm -->\n",
   str% "      <tollFree>\n",
   str% "        <possibleLengths national=\"[8-13]\"/>\n",
   str% "        <exampleNumber>1800123456</exampleNumber>\n",
   str% "        <nationalNumberPattern>\n",
   str% "          000800\\d{7}|\n",
   str% "          180(?:\n",
   str% "            0\\d{4,9}|\n",
   str% "            3\\d{9}\n",
   str% "          )\n",
   str% "        </nationalNumberPattern>\n",
   str% "      </tollFree>\n",
   str% "      <!-- Only televoting numbers are covered here for now. The 900 numbers are not covered\n",
   str% "           because they overlap with mobile, and we haven't found any real numbers online.\n",
   str% "           1863 424 Tele-voting (Different Charge Rate) numbers are not added as there are no\n",
   str% "           valid numbers online. -->\n",
   str% "      <premiumRate>\n",
   str% "        <possibleLengths national=\"13\"/>\n",
   str% "        <exampleNumber>1861123456789</exampleNumber>\n",
   str% "        <nationalNumberPattern>186[12]\\d{9}</nationalNumberPattern>\n",
   str% "      </premiumRate>\n",
   str% "      <!-- While described as \"universal numbers\" in the numbering plan, evidence suggests\n",
   str% "           that 1860 number are best described as shared cost. See \"Call Local Service\" in:\n",
   str% "           http://www.tatadocomo.com/corporates/toll-free.aspx -->\n",
   str% "      <sharedCost>\n",
   str% "        <possibleLengths national=\"11\"/>\n",
   str% "        <exampleNumber>18603451234</exampleNumber>\n",
   str% "        <nationalNumberPattern>1860\\d{7}</nationalNumberPattern>\n",
   str% "      </sharedCost>\n",
   str% "      <!-- Telemarketing numbers: http://en.wikipedia.org/wiki/Telephone_numbers_in_India. 1869 -\n",
   str% "           long distance UAN numbers are not added here as there are no valid numbers online. -->\n",
   str% "      <uan>\n",
   str% "        <possibleLengths national=\"10\"/>\n",
   str% "        <exampleNumber>1409305260</exampleNumber>\n",
   str% "        <nationalNumberPattern>140\\d{7}</nationalNumberPattern>\n",
   str% "      </uan>\n",
   str% "    </territory>"]

/-- the text up to the end of territory id=IO countryCode=246 -/
noncomputable def IO : List Str :=
  [str% "\n",
   str% "\n",
   str% "    <!-- British Indian Ocean Territory (IO) -->\n",
   str% "    <!-- http://www.itu.int/oth/T0202000039/en -->\n",
   str% "    <territory id=\"IO\" countryCode=\"246\" internationalPrefix=\"00\">\n",
   str% "      <availableFormats>\n",
   str% "        <numberFormat pattern=\"(\\d{3})(\\d{4})\">\n",
   str% "          <leadingDigits>3</leadingDigits>\n",
   str% "          <format>$1 $2</format>\n",
   str% "        </numberFormat>\n",
   str% "      </availableFormats>\n",
   str% "      <generalDesc>\n",
   str% "        <nationalNumberPattern>3\\d{6}</nationalNumberPattern>\n",
   str% "      </generalDesc>\n",
   str% "      <fixedLine>\n",
   str% "        <possibleLengths national=\"7\"/>\n",
   str% "        <exampleNumber>3709100</exampleNumber>\n",
   str% "        <nationalNumberPattern>37\\d{5}</nationalNumberPattern>\n",
   str% "      </fixedLine>\n",
   str% "      <mobile>\n",
   str% "        <possibleLengths national=\"7\"/>\n",
   str% "        <exampleNumber>3801234</exampleNumber>\n",
   str% "        <nationalNumberPattern>38\\d{5}</nationalNumberPattern>\n",
   str% "      </mobile>\n",
   str% "    </territory>"]

/-- the text up to the end of territory id=IQ countryCode=964 -/
noncomputable def IQ : List Str :=
  [str% "\n",
   str% "\n",
   str% "    <!-- Iraq (IQ) -->\n",
   str% "    <!-- No tollFree or premiumRate information can be found. -->\n",
   str% "    <!-- https://www.itu.int/oth/T0202000067/en -->\n",
   str% "    <!-- http://en.wikipedia.org/wiki/%2B964 -->\n",
   str% "    <!-- http://wtng.info/wtng-964-ik.html -->\n",
   str% "    <territory id=\"IQ\" countryCode=\"964\" internationalPrefix=\"00\" nationalPrefix=\"0\">\n",
   str% "      <availableFormats>\n",
   str% "        <numberFormat pattern=\"(\\d)(\\d{3})(\\d{4})\" nationalPrefixFormattingRule=\"$NP$FG\">\n",
   str% "          <leadingDigits>1</leadingDigits>\n",
   str% "          <format>$1 $2 $3</format>\n",
   str% "        </numberFormat>\n",
   str% "        <numberFormat pattern=\"(\\d{2})(\\d{3})(\\d{3,4})\" nationalPrefixFormattingRule=\"$NP$FG\">\n",
   str% "          <leadingDigits>[2-6]</leadingDigits>\n",
   str% "          <format>$1 $2 $3</format>\n",
   str% "        </numberFormat>\n",
   str% "        <numberFormat pattern=\"(\\d{3})(\\d{3})(\\d{4})\" nationalPrefixFormattingRule=\"$NP$FG\">\n",
   str% "          <leadingDigits>7</leadingDigits>\n",
   str% "          <format>$1 $2 $3</format>\n",
   str% "        </numberFormat>\n",
   str% "      </availableFormats>\n",
   str% "      <generalDesc>\n",
   str% "        <nationalNumberPattern>\n",
   str% "          (?:\n",
   str% "            1|\n",
   str% "            7\\d\\d\n",
   str% "          )\\d{7}|\n",
   str% "          [2-6]\\d{7,8}\n",
   str% "        </nationalNumberPattern>\n",
   str% "      </generalDesc>\n",
   str% "      <fixedLine>\n",
   str% "        <possibleLengths national=\"8,9\" localOnly=\"6,7\"/>\n",
   str% "        <exampleNumber>12345678</exampleNumber>\n",
   str% "        <nationalNumberPattern>\n",
   str% "          1\\d{7}|\n",
   str% "          (?:\n",
   str% "            2[13-5]|\n",
   str% "            3[02367]|\n",
   str% "            4[023]|\n",
   str% "            5[03]|\n",
   str% "            6[026]\n",
   str% "          )\\d{6,7}\n",
   str% "        </nationalNumberPattern>\n",
   str% "      </fixedLine>\n",
   str% "      <mobile>\n",
   str% "        <possibleLengths national=\"10\"/>\n",
   str% "        <exampleNumber>7912345678</exampleNumber>\n",
   str% "        <nationalNumberPattern>7[3-9]\\d{8}</nationalNumberPattern>\n",
   str% "      </mobile>\n",
   str% "    </territory>"]

/-- the text up to the end of territory id=IR countryCode=98 -/
noncomputable def IR : List Str :=
  [str% "\n",
   str% "\n",
   str% "    <!-- Iran (IR) -->\n",
   str% "    <!-- http://en.wikipedia.org/wiki/%2B98 -->\n",
   str% "    <!-- http://www.itu.int/oth/T0202000066/en -->\n",
   str% "    <!-- http://www.tct.ir/?siteid=1&pageid=195 -->\n",
   str% "    <!-- http://118.tct.ir/citycode.htm -->\n",
   str% "    <!-- Prefix 9950 is mentioned as Public trunk with variable length 5 to 10 digits in ITU doc.\n",
   str% "         As we are unaware of the exact usage of this range and no online references we are not\n",
   str% "         adding it. -->\n",
   str% "    <territory id=\"IR\" countryCode=\"98\" internationalPrefix=\"00\" nationalPrefix=\"0\"\n",
   str% "               mobileNumberPortableRegion=\"true\">\n",
   str% "      <availableFormats>\n",
   str% "        <!-- Format for short UAN numbers 096XX and 096XXX (we only need this format so the\n",
   str% "             national prefix formatting rule is inherited properly). -->\n",
   str% "        <numberFormat pattern=\"(\\d{4,5})\" nationalPrefixFormattingRule=\"$NP$FG\">\n",
   str% "          <leadingDigits>96</leadingDigits>\n",
   str% "          <format>$1</format>\n",
   str% "        </numberFormat>\n",
   str% "        <!-- Older 6-7 length fixed line ranges. -->\n",
   str% "        <numberFormat pattern=\"(\\d{2})(\\d{4,5})\" nationalPrefixFormattingRule=\"$NP$FG\">\n",
   str% "          <leadingDigits>\n",
   str% "            (?:\n",
   str% "              1[137]|\n",
   str% "              2[13-68]|\n",
   str% "              3[1458]|\n",
   str% "              4[145]|\n",
   str% "              5[1468]|\n",
   str% "              6[16]|\n",
   str% "              7[1467]|\n",
   str% "              8[13467]\n",
   str% "            )[12689]\n",
   str% "          </leadingDigits>\n",
   str% "          <format>$1 $2</format>\n",
   str% "        </numberFormat>\n",
   str% "        <!-- Non-geographical number (mobile and some fixed line ranges). -->\n",
   str% "        <numberFormat pattern=\"(\\d{3})(\\d{3})(\\d{3,4})\" nationalPrefixFormattingRule=\"$NP$FG\">\n",
   str% "          <leadingDigits>9</leadingDigits>\n",
   str% "          <format>$1 $2 $3</format>\n",
   str% "        </numberFormat>\n",
   str% "        <!-- 10-digit fixed line (formatting follows wikipedia). -->\n",
   str% "        <numberFormat pattern=\"(\\d{2})(\\d{4})(\\d{4})\" nationalPrefixFormattingRule=\"$NP$FG\">\n",
   str% "          <leadingDigits>[1-8]</leadingDigits>\n",
   str% "          <format>$1 $2 $3</format>\n",
   str% "        </numberFormat>\n",
   str% "      </availableFormats>\n",
   str% "      <generalDesc>\n",
   str% "        <nationalNumberPattern>\n",
   str% "          [1-9]\\d{9}|\n",
   str% "          (?:\n",
   str% "            [1-8]\\d\\d|\n",
   str% "            9\n",
   str% "          )\\d{3,4}\n",
   str% "        </nationalNumberPattern>\n",
   str% "      </generalDesc>\n",
   str% "      <noInternationalDialling>\n",
   str% "        <possibleLengths national=\"4,5,10\"/>\n",
   str% "        <nationalNumberPattern>\n",
   str% "          9(?:\n",
   str% "            4440\\d{5}|\n",
   str% "            6(?:\n",
   str% "              0[12]|\n",
   str% "              2[16-8]|\n",
   str% "              3(?:\n",
   str% "                08|\n",
   str% "                [14]5|\n",
   str% "                [23]|\n",
   str% "                66\n",
   str% "              )|\n",
   str% "              4(?:\n",
   str% "                0|\n",
   str% "                80\n",
   str% "              )|\n",
   str% "              5[01]|\n",
   str% "              6[89]|\n",
   str% "              86|\n",
   str% "              9[19]\n",
   str% "            )\n",
   str% "          )\n",
   str% "        </nationalNumberPattern>\n",
   str% "      </noInternationalDialling>\n",
   str% "      <!-- In Summer 2014 Iran unified all fixed phone numbers in the following way:\n",
   str% "           Each province is assigned a two digit prefix.\n",
   str% "           Within each province, all numbers are exactly eight digits.  The expression below is\n",
   str% "           mostly organized by province.  For each province we accept all eight-digit combinations\n",
   str% "           and according to the ITU communication of 21.VI.2016, 94000 and 942 are also fixed-line\n",
   str% "           prefixes, but not area codes.\n",
   str% "\n",
   str% "           11 Mazandaran\n",
   str% "           13 Gilan\n",
   str% "           17 Golestan\n",
   str% "           21 Tehran\n",
   str% "           23 Semnan\n",
   str% "           24 Zanjan\n",
   str% "           25 Qom\n",
   str% "           26 Alborz\n",
   str% "           28 Qazvin\n",
   str% "           31 Isfahan\n",
   str% "           34 Kerman\n",
   str% "           35 Yazd\n",
   str% "           38 Chahar Mahaal and Bakhtiari\n",
   str% "           41 East Azerbaijan\n",
   str% "           44 West Azerbaijan\n",
   str% "           45 Ardabil\n",
   str% "           51 Razavi Khorasan\n",
   str% "           54 Sistan and Baluchestan\n",
   str% "           56 South Khorasan\n",
   str% "           58 North Khorasan\n",
   str% "           61 Khuzestan\n",
   str% "           66 Lorestan\n",
   str% "           71 Fars\n",
   str% "           74 Kohgiluyeh and Boyer-Ahmad\n",
   str% "           76 Hormozgan\n",
   str% "           77 Bushehr\n",
   str% "           81 Hamadan\n",
   str% "           83 Kermanshah\n",
   str% "           84 Ilam\n",
   str% "           86 Markazi\n",
   str% "           87 Kurdistan\n",
   str% "           As per user reports and test results [16]\\d{3} and [289]\\d{3,4} shortcodes can be\n",
   str% "           dialled by prefixing area codes. ITU mentions the length of Fixed Phone numbers are of\n",
   str% "           5 to 10 digits. However, no valid numbers were found online are less than 10 digits,\n",
   str% "           so there's only support for 10 digits. ITU mentions multiple \"Fixed Phone\"\n",
   str% "           categories called \"Fixed wireless Access\" and \"Fixed Non geographical\" along with plain\n",
   str% "           \"Fixed Phone\" with geocoding details. As no more details are provided, they are\n",
   str% "           supported as fixed-line numbers. -->\n",
   str% "      <fixedLine>\n",
   str% "        <possibleLengths national=\"6,7,10\" localOnly=\"4,5,8\"/>\n",
   str% "        <exampleNumber>2123456789</exampleNumber>\n",
   str% "        <nationalNumberPattern>\n",
   str% "          (?:\n",
   str% "            1[137]|\n",
   str% "            2[13-68]|\n",
   str% "            3[1458]|\n",
   str% "            4[145]|\n",
   str% "            5[1468]|\n",
   str% "            6[16]|\n",
   str% "            7[1467]|\n",
   str% "            8[13467]\n",
   str% "          )(?:\n",
   str% "            [03-57]\\d{7}|\n",
   str% "            [16]\\d{3}(?:\n",
   str% "              \\d{4}\n",
   str% "            )?|\n",
   str% "            [289]\\d{3}(?:\n",
   str% "              \\d(?:\n",
   str% "                \\d{3}\n",
   str% "              )?\n",
   str% "            )?\n",
   str% "          )|\n",
   str% "          94(?:\n",
   str% "            000[09]|\n",
   str% "            (?:\n",
   str% "              12\\d|\n",
   str% "              30[0-2]\n",
   str% "            )\\d|\n",
   str% "            2(?:\n",
   str% "              [02689]0\\d|\n",
   str% "              121\n",
   str% "            )|\n",
   str% "            4(?:\n",
   str% "              111|\n",
   str% "              40\\d\n",
   str% "            )\n",
   str% "          )\\d{4}\n",
   str% "        </nationalNumberPattern>\n",
   str% "      </fixedLine>\n",
   str% "      <!-- 992 prefix is been supported based on user report. -->\n",
   str% "      <mobile>\n",
   str% "        <possibleLengths national=\"10\"/>\n",
   str% "        <exampleNumber>9123456789</exampleNumber>\n",
   str% "        <nationalNumberPattern>\n",
   str% "          9(?:\n",
   str% "            (?:\n",
   str% "              0[0-5]|\n",
   str% "              [13]\\d|\n",
   str% "              2[0-3]\n",
   str% "            )\\d\\d|\n",
   str% "            9(?:\n",
   str% "              [0-46]\\d\\d|\n",
   str% "              5(?:\n",
   str% "                10|\n",
   str% "                5\\d\n",
   str% "              )|\n",
   str% "              8(?:\n",
   str% "                [12]\\d|\n",
   str% "                88\n",
   str% "              )|\n",
   str% "              9(?:\n",
   str% "                [01359]\\d|\n",
   str% "                21|\n",
   str% "                69|\n",
   str% "                77|\n",
   str% "                8[7-9]\n",
   str% "              )\n",
   str% "            )\n",
   str% "          )\\d{5}\n",
   str% "        </nationalNumberPattern>\n",
   str% "      </mobile>\n",
   str% "      <!-- UAN ranges from http://118.tct.ir/necnum.htm (\"096\" numbers are not shortcodes since\n",
   str% "           they require the national prefix). -->\n",
   str% "      <uan>\n",
   str% "        <possibleLengths national=\"4,5\"/>\n",
   str% "        <exampleNumber>9601</exampleNumber>\n",
   str% "        <nationalNumberPattern>\n",
   str% "          96(?:\n",
   str% "            0[12]|\n",
   str% "            2[16-8]|\n",
   str% "            3(?:\n",
   str% "              08|\n",
   str% "              [14]5|\n",
   str% "              [23]|\n",
   str% "              66\n",
   str% "            )|\n",
   str% "            4(?:\n",
   str% "              0|\n",
   str% "              80\n",
   str% "            )|\n",
   str% "            5[01]|\n",
   str% "            6[89]|\n",
   str% "            86|\n",
   str% "            9[19]\n",
   str% "          )\n",
   str% "        </nationalNumberPattern>\n",
   str% "      </uan>\n",
   str% "    </territory>"]

/-- the text up to the end of territory id=IS countryCode=354 -/
noncomputable def IS : List Str :=
  [str% "\n",
   str% "\n",
   str% "    <!-- Iceland (IS) -->\n",
   str% "    <!-- http://www.pta.is/default.aspx?cat_id=85 -->\n",
   str% "    <!-- http://www.pfs.is/default.aspx?cat_id=14&module_id=210&element_id=4 -->\n",
   str% "    <!-- http://www.pfs.is/english/telecom-affairs/numbering/ -->\n",
   str% "    <territory id=\"IS\" countryCode=\"354\" preferredInternationalPrefix=\"00\"\n",
   str% "               internationalPrefix=\"00|1(?:0(?:01|[12]0)|100)\" mobileNumberPortableRegion=\"true\">\n",
   str% "      <availableFormats>\n",
   str% "        <numberFormat pattern=\"(\\d{3})(\\d{4})\">\n",
   str% "          <leadingDigits>[4-9]</leadingDigits>\n",
   str% "          <format>$1 $2</format>\n",
   str% "        </numberFormat>\n",
   str% "        <numberFormat pattern=\"(\\d{3})(\\d{3})(\\d{3})\">\n",
   str% "          <leadingDigits>3</leadingDigits>\n",
   str% "          <format>$1 $2 $3</format>\n",
   str% "        </numberFormat>\n",
   str% "      </availableFormats>\n",
   str% "      <generalDesc>\n",
   str% "        <nationalNumberPattern>\n",
   str% "          (?:\n",
   str% "            38\\d|\n",
   str% "            [4-9]\n",
   str% "          )\\d{6}\n",
   str% "        </nationalNumberPattern>\n",
   str% "      </generalDesc>\n",
   str% "      <!-- Including 87[23] XXXX here as it is listed as a fax number. -->\n",
   str% "      <fixedLine>\n",
   str% "        <possibleLengths national=\"7\"/>\n",
   str% "        <exampleNumber>4101234</exampleNumber>\n",
   str% "        <nationalNumberPattern>\n",
   str% "          (?:\n",
   str% "            4(?:\n",
   str% "              1[0-24-69]|\n",
   str% "              2[0-7]|\n",
   str% "              [37][0-8]|\n",
   str% "              4[0-24589]|\n",
   str% "              5[0-68]|\n",
   str% "              6\\d|\n",
   str% "              8[0-36-8]\n",
   str% "            )|\n",
   str% "            5(?:\n",
   str% "              05|\n",
   str% "              [156]\\d|\n",
   str% "              2[02578]|\n",
   str% "              3[0-579]|\n",
   str% "              4[03-7]|\n",
   str% "              7[0-2578]|\n",
   str% "              8[0-35-9]|\n",
   str% "              9[013-689]\n",
   str% "            )|\n",
   str% "            872\n",
   str% "          )\\d{4}\n",
   str% "        </nationalNumberPattern>\n",
   str% "      </fixedLine>\n",
   str% "      <!-- TETRA = TErrestrial Trunked RAdio is included under mobile. -->\n",
   str% "      <mobile>\n",
   str% "        <possibleLengths national=\"7,9\"/>\n",
   str% "        <exampleNumber>6111234</exampleNumber>\n",
   str% "        <nationalNumberPattern>\n",
   str% "          (?:\n",
   str% "            38[589]\\d\\d|\n",
   str% "            6(?:\n",
   str% "              1[1-8]|\n",
   str% "              2[0-6]|\n",
   str% "              3[026-9]|\n",
   str% "              4[014679]|\n",
   str% "              5[0159]|\n",
   str% "              6[0-69]|\n",
   str% "              70|\n",
   str% "              8[06-8]|\n",
   str% "              9\\d\n",
   str% "            )|\n",
   str% "            7(?:\n",
   str% "              5[057]|\n",
   str% "              [6-9]\\d\n",
   str% "            )|\n",
   str% "            8(?:\n",
   str% "              2[0-59]|\n",
   str% "              [3-69]\\d|\n",
   str% "              8[238]\n",
   str% "            )\n",
   str% "          )\\d{4}\n",
   str% "        </nationalNumberPattern>\n",
   str% "      </mobile>\n",
   str% "      <!-- The UIFN numbers mentioned in the Excel document are not yet included since no real\n",
   str% "           numbers can be found online, and it is not clear what these are; the standard\n",
   str% "           definition would have them under the +800 country code instead of Iceland. -->\n",
   str% "      <tollFree>\n",
   str% "        <possibleLengths national=\"7\"/>\n",
   str% "        <exampleNumber>8001234</exampleNumber>\n",
   str% "        <nationalNumberPattern>80[0-8]\\d{4}</nationalNumberPattern>\n",
   str% "      </tollFree>\n",
   str% "      <premiumRate>\n",
   str% "        <possibleLengths national=\"7\"/>\n",
   str% "        <exampleNumber>9001234</exampleNumber>\n",
   str% "        <nationalNumberPattern>\n",
   str% "          90(?:\n",
   str% "            0\\d|\n",
   str% "            1[5-79]|\n",
   str% "            2[015-79]|\n",
   str% "            3[135-79]|\n",
   str% "            4[125-7]|\n",
   str% "            5[25-79]|\n",
   str% "            7[1-37]|\n",
   str% "            8[0-35-7]\n",
   str% "          )\\d{3}\n",
   str% "        </nationalNumberPattern>\n",
   str% "      </premiumRate>\n",
   str% "      <voip>\n",
   str% "        <possibleLengths national=\"7\"/>\n",
   str% "        <exampleNumber>4921234</exampleNumber>\n",
   str% "        <nationalNumberPattern>49[0-24-79]\\d{4}</nationalNumberPattern>\n",
   str% "      </voip>\n",
   str% "      <uan>\n",
   str% "        <possibleLengths national=\"7\"/>\n",
   str% "        <exampleNumber>8091234</exampleNumber>\n",
   str% "        <nationalNumberPattern>809\\d{4}</nationalNumberPattern>\n",
   str% "      </uan>\n",
   str% "      <voicemail>\n",
   str% "        <possibleLengths national=\"7\"/>\n",
   str% "        <exampleNumber>6891234</exampleNumber>\n",
   str% "        <nationalNumberPattern>\n",
   str% "          (?:\n",
   str% "            689|\n",
   str% "            8(?:\n",
   str% "              7[18]|\n",
   str% "              80\n",
   str% "            )|\n",
   str% "            95[48]\n",
   str% "          )\\d{4}\n",
   str% "        </nationalNumberPattern>\n",
   str% "      </voicemail>\n",
   str% "    </territory>"]

/-- the text up to the end of territory id=IT countryCode=39 -/
noncomputable def IT : List Str :=
  [str% "\n",
   str% "\n",
   str% "    <!-- Italy (IT) -->\n",
   str% "    <!-- Main region for 'VA' -->\n",
   str% "    <!-- http://en.wikipedia.org/wiki/%2B39 -->\n",
   str% "    <!-- https://www.agcom.it/piano-di-numerazione -->\n",
   str% "    <territory id=\"IT\" mainCountryForCode=\"true\" countryCode=\"39\" internationalPrefix=\"00\"\n",
   str% "               mobileNumberPortableRegion=\"true\">\n",
   str% "      <availableFormats>\n",
   str% "        <!-- Shortcodes (4-5 digits). -->\n",
   str% "        <numberFormat pattern=\"(\\d{4,5})\">\n",
   str% "          <leadingDigits>\n",
   str% "            1(?:\n",
   str% "              0|\n",
   str% "              9[246]\n",
   str% "            )\n",
   str% "          </leadingDigits>\n",
   str% "          <leadingDigits>\n",
   str% "            1(?:\n",
   str% "              0|\n",
   str% "              9(?:\n",
   str% "                2[2-9]|\n",
   str% "                [46]\n",
   str% "              )\n",
   str% "            )\n",
   str% "          </leadingDigits>\n",
   str% "          <format>$1</format>\n",
   str% "          <intlFormat>NA</intlFormat>\n",
   str% "        </numberFormat>\n",
   str% "        <!-- Shortcodes (6 digits). -->\n",
   str% "        <numberFormat pattern=\"(\\d{6})\">\n",
   str% "          <leadingDigits>\n",
   str% "            1(?:\n",
   str% "              1|\n",
   str% "              92\n",
   str% "            )\n",
   str% "          </leadingDigits>\n",
   str% "          <format>$1</format>\n",
   str% "          <intlFormat>NA</intlFormat>\n",
   str% "        </numberFormat>\n",
   str% "        <numberFormat pattern=\"(\\d{2})(\\d{4,6})\">\n",
   str% "          <leadingDigits>0[26]</leadingDigits>\n",
   str% "          <format>$1 $2</format>\n",
   str% "        </numberFormat>\n",
   str% "        <numberFormat pattern=\"(\\d{3})(\\d{3,6})\">\n",
   str% "          <leadingDigits>\n",
   str% "            0[13-57-9][0159]|\n",
   str% "            8(?:\n",
   str% "              03|\n",
   str% "              4[17]|\n",
   str% "              9[2-5]\n",
   str% "            )\n",
   str% "          </leadingDigits>\n",
   str% "          <leadingDigits>\n",
   str% "            0[13-57-9][0159]|\n",
   str% "            8(?:\n",
   str% "              03|\n",
   str% "              4[17]|\n",
   str% "              9(?:\n",
   str% "                2|\n",
   str% "                3[04]|\n",
   str% "                [45][0-4]\n",
   str% "              )\n",
   str% "            )\n",
   str% "          </leadingDigits>\n",
   str% "          <format>$1 $2</format>\n",
   str% "        </numberFormat>\n",
   str% "        <numberFormat pattern=\"(\\d{4})(\\d{2,6})\">\n",
   str% "          <leadingDigits>\n",
   str% "            0(?:\n",
   str% "              [13-579][2-46-8]|\n",
   str% "              8[236-8]\n",
   str% "            )\n",
   str% "          </leadingDigits>\n",
   str% "          <format>$1 $2</format>\n",
   str% "        </numberFormat>\n",
   str% "        <numberFormat pattern=\"(\\d{4})(\\d{4})\">\n",
   str% "          <leadingDigits>894</leadingDigits>\n",
   str% "          <format>$1 $2</format>\n",
   str% "        </numberFormat>\n",
   str% "        <!-- The leading zero for fixed numbers will be prepended before the matching of these\n",
   str% "             regular expressions. -->\n",
   str% "        <numberFormat pattern=\"(\\d{2})(\\d{3,4})(\\d{4})\">\n",
   str% "          <leadingDigits>\n",
   str% "            0[26]|\n",
   str% "            5\n",
   str% "          </leadingDigits>\n",
   str% "          <format>$1 $2 $3</format>\n",
   str% "        </numberFormat>\n",
   str% "        <numberFormat pattern=\"(\\d{3})(\\d{3})(\\d{3,4})\">\n",
   str% "          <leadingDigits>\n",
   str% "            1(?:\n",
   str% "              44|\n",
   str% "              [679]\n",
   str% "            )|\n",
   str% "            [378]|\n",
   str% "            43\n",
   str% "          </leadingDigits>\n",
   str% "          <format>$1 $2 $3</format>\n",
   str% "        </numberFormat>\n",
   str% "        <numberFormat pattern=\"(\\d{3})(\\d{3,4})(\\d{4})\">\n",
   str% "          <leadingDigits>\n",
   str% "            0[13-57-9][0159]|\n",
   str% "            14\n",
   str% "          </leadingDigits>\n",
   str% "          <format>$1 $2 $3</format>\n",
   str% "        </numberFormat>\n",
   str% "        <numberFormat pattern=\"(\\d{2})(\\d{4})(\\d{5})\">\n",
   str% "          <leadingDigits>0[26]</leadingDigits>\n",
   str% "          <format>$1 $2 $3</format>\n",
   str% "        </numberFormat>\n",
   str% "        <numberFormat pattern=\"(\\d{4})(\\d{3})(\\d{4})\">\n",
   str% "          <leadingDigits>0</leadingDigits>\n",
   str% "          <format>$1 $2 $3</format>\n",
   str% "        </numberFormat>\n",
   str% "        <numberFormat pattern=\"(\\d{3})(\\d{4})(\\d{4,5})\">\n",
   str% "          <leadingDigits>[03]</leadingDigits>\n",
   str% "          <format>$1 $2 $3</format>\n",
   str% "        </numberFormat>\n",
   str% "      </availableFormats>\n",
   str% "      <generalDesc>\n",
   str% "        <nationalNumberPattern>\n",
   str% "          0\\d{5,11}|\n",
   str% "          1\\d{8,10}|\n",
   str% "          3(?:\n",
   str% "            [0-8]\\d{7,10}|\n",
   str% "            9\\d{7,8}\n",
   str% "          )|\n",
   str% "          (?:\n",
   str% "            43|\n",
   str% "            55|\n",
   str% "            70\n",
   str% "          )\\d{8}|\n",
   str% "          8\\d{5}(?:\n",
   str% "            \\d{2,4}\n",
   str% "          )?\n",
   str% "        </nationalNumberPattern>\n",
   str% "      </generalDesc>\n",
   str% "      <noInternationalDialling>\n",
   str% "        <possibleLengths national=\"9\"/>\n",
   str% "        <nationalNumberPattern>848\\d{6}</nationalNumberPattern>\n",
   str% "      </noInternationalDialling>\n",
   str% "      <!-- Maximum lengths in the ITU document are 10, but it states above that for numbers\n",
   str% "           starting with 01, the maximum length is in fact 11. In fact, online, numbers can be\n",
   str% "           found with other prefixes that are 11 digits long as well, so we allow it for all the\n",
   str% "           three and four digit area codes. -->\n",
   str% "      <fixedLine>\n",
   str% "        <possibleLengths national=\"[6-12]\"/>\n",
   str% "        <exampleNumber>0212345678</exampleNumber>\n",
   str% "        <nationalNumberPattern>\n",
   str% "          0(?:\n",
   str% "            669[0-79]\\d{1,6}|\n",
   str% "            831\\d{2,8}\n",
   str% "          )|\n",
   str% "          0(?:\n",
   str% "            1(?:\n",
   str% "              [0159]\\d|\n",
   str% "              [27][1-5]|\n",
   str% "              31|\n",
   str% "              4[1-4]|\n",
   str% "              6[1356]|\n",
   str% "              8[2-57]\n",
   str% "            )|\n",
   str% "            2\\d\\d|\n",
   str% "            3(?:\n",
   str% "              [0159]\\d|\n",
   str% "              2[1-4]|\n",
   str% "              3[12]|\n",
   str% "              [48][1-6]|\n",
   str% "              6[2-59]|\n",
   str% "              7[1-7]\n",
   str% "            )|\n",
   str% "            4(?:\n",
   str% "              [0159]\\d|\n",
   str% "              [23][1-9]|\n",
   str% "              4[245]|\n",
   str% "              6[1-5]|\n",
   str% "              7[1-4]|\n",
   str% "              81\n",
   str% "            )|\n",
   str% "            5(?:\n",
   str% "              [0159]\\d|\n",
   str% "              2[1-5]|\n",
   str% "              3[2-6]|\n",
   str% "              4[1-79]|\n",
   str% "              6[4-6]|\n",
   str% "              7[1-578]|\n",
   str% "              8[3-8]\n",
   str% "            )|\n",
   str% "            6(?:\n",
   str% "              [0-57-9]\\d|\n",
   str% "              6[0-8]\n",
   str% "            )|\n",
   str% "            7(?:\n",
   str% "              [0159]\\d|\n",
   str% "              2[12]|\n",
   str% "              3[1-7]|\n",
   str% "              4[2-46]|\n",
   str% "              6[13569]|\n",
   str% "              7[13-6]|\n",
   str% "              8[1-59]\n",
   str% "            )|\n",
   str% "            8(?:\n",
   str% "              [0159]\\d|\n",
   str% "              2[3-578]|\n",
   str% "              3[2356]|\n",
   str% "              [6-8][1-5]\n",
   str% "            )|\n",
   str% "            9(?:\n",
   str% "              [0159]\\d|\n",
   str% "              [238][1-5]|\n",
   str% "              4[12]|\n",
   str% "              6[1-8]|\n",
   str% "              7[1-6]\n",
   str% "            )\n",
   str% "          )\\d{2,7}\n",
   str% "        </nationalNumberPattern>\n",
   str% "      </fixedLine>\n",
   str% "      <!-- User reported the existence of new 11 digit long numbers for TIM with the prefix 33X, so\n",
   str% "           it is also supported.\n",
   str% "           Prefix 43 is 10 digits long and is used for SMS Application To\n",
   str% "           Person (A2P) for OTP, marketing, etc -->\n",
   str% "      <mobile>\n",
   str% "        <possibleLengths national=\"9,10\"/>\n",
   str% "        <exampleNumber>3123456789</exampleNumber>\n",
   str% "        <nationalNumberPattern>\n",
   str% "          3[2-9]\\d{7,8}|\n",
   str% "          (?:\n",
   str% "            31|\n",
   str% "            43\n",
   str% "          )\\d{8}\n",
   str% "        </nationalNumberPattern>\n",
   str% "      </mobile>\n",
   str% "      <tollFree>\n",
   str% "        <possibleLengths national=\"6,9\"/>\n",
   str% "        <exampleNumber>800123456</exampleNumber>\n",
   str% "        <nationalNumberPattern>\n",
   str% "          80(?:\n",
   str% "            0\\d{3}|\n",
   str% "            3\n",
   str% "          )\\d{3}\n",
   str% "        </nationalNumberPattern>\n",
   str% "      </tollFree>\n",
   str% "      <!-- Adding 0878 numbers, as per\n",
   str% "           http://www.aduc.it/notizia/polizia+mette+allerta+sul+numero+0878_73136.php. Other\n",
   str% "           premium prefixes are mentioned here:\n",
   str% "           http://www.dirittodellinformatica.it/news/telefonia/agcom-blocco-permanente-prefissi-144-166-892-899-20080520241.html -->\n",
   str% "      <premiumRate>\n",
   str% "        <possibleLengths national=\"6,[8-10]\"/>\n",
   str% "        <exampleNumber>899123456</exampleNumber>\n",
   str% "        <nationalNumberPattern>\n",
   str% "          (?:\n",
   str% "            0878\\d{3}|\n",
   str% "            89(?:\n",
   str% "              2\\d|\n",
   str% "              3[04]|\n",
   str% "              4(?:\n",
   str% "                [0-4]|\n",
   str% "                [5-9]\\d\\d\n",
   str% "              )|\n",
   str% "              5[0-4]\n",
   str% "            )\n",
   str% "          )\\d\\d|\n",
   str% "          (?:\n",
   str% "            1(?:\n",
   str% "              44|\n",
   str% "              6[346]\n",
   str% "            )|\n",
   str% "            89(?:\n",
   str% "              38|\n",
   str% "              5[5-9]|\n",
   str% "              9\n",
   str% "            )\n",
   str% "          )\\d{6}\n",
   str% "        </nationalNumberPattern>\n",
   str% "      </premiumRate>\n",
   str% "      <sharedCost>\n",
   str% "        <possibleLengths national=\"6,9\"/>\n",
   str% "        <exampleNumber>848123456</exampleNumber>\n",
   str% "        <nationalNumberPattern>\n",
   str% "          84(?:\n",
   str% "            [08]\\d{3}|\n",
   str% "            [17]\n",
   str% "          )\\d{3}\n",
   str% "        </nationalNumberPattern>\n",
   str% "      </sharedCost>\n",
   str% "      <personalNumber>\n",
   str% "        <possibleLengths national=\"9,10\"/>\n",
   str% "        <exampleNumber>1781234567</exampleNumber>\n",
   str% "        <nationalNumberPattern>\n",
   str% "          1(?:\n",
   str% "            78\\d|\n",
   str% "            99\n",
   str% "          )\\d{6}\n",
   str% "        </nationalNumberPattern>\n",
   str% "      </personalNumber>\n",
   str% "      <voip>\n",
   str% "        <possibleLengths national=\"10\"/>\n",
   str% "        <exampleNumber>5512345678</exampleNumber>\n",
   str% "        <nationalNumberPattern>55\\d{8}</nationalNumberPattern>\n",
   str% "      </voip>\n",
   str% "      <voicemail>\n",
   str% "        <possibleLengths national=\"11,12\"/>\n",
   str% "        <exampleNumber>33101234501</exampleNumber>\n",
   str% "        <nationalNumberPattern>3[2-8]\\d{9,10}</nationalNumberPattern>\n",
   str% "      </voicemail>\n",
   str% "    </territory>"]

/-- the text up to the end of territory id=JE countryCode=44 -/
noncomputable def JE : List Str :=
  [str% "\n",
   str% "\n",
   str% "    <!-- Jersey (JE) -->\n",
   str% "    <!-- Calling code and formatting shared with 'GB' -->\n",
   str% "    <!-- Note that the numbers are fine-grained where needed in order to disambiguate between the\n",
   str% "         4 regions i.e UK, Isle of Man, Jersey and Guernsey. -->\n",
   str% "    <!-- http://static.ofcom.org.uk/static/numbering/ -->\n",
   str% "    <!-- http://en.wikipedia.org/wiki/Telephone_numbers_in_the_United_Kingdom -->\n",
   str% "    <!-- http://www.jcra.je/cms3/v2/public/cmsChild.asp?pageID=1024&childID=1036 -->\n",
   str% "    <territory id=\"JE\" countryCode=\"44\" internationalPrefix=\"00\" nationalPrefix=\"0\"\n",
   str% "               nationalPrefixForParsing=\"([0-24-8]\\d{5})$|0|180020\"\n",
   str% "               nationalPrefixTransformRule=\"1534$1\">\n",
   str% "      <generalDesc>\n",
   str% "        <nationalNumberPattern>\n",
   str% "          1534\\d{6}|\n",
   str% "          (?:\n",
   str% "            [3578]\\d|\n",
   str% "            90\n",
   str% "          )\\d{8}\n",
   str% "        </nationalNumberPattern>\n",
   str% "      </generalDesc>\n",
   str% "      <!-- Specific to JE. -->\n",
   str% "      <!-- 1534 with 10 digits. -->\n",
   str% "      <fixedLine>\n",
   str% "        <possibleLengths national=\"10\" localOnly=\"6\"/>\n",
   str% "        <exampleNumber>1534456789</exampleNumber>\n",
   str% "        <nationalNumberPattern>1534[0-24-8]\\d{5}</nationalNumberPattern>\n",
   str% "      </fixedLine>\n",
   str% "      <mobile>\n",
   str% "        <possibleLengths national=\"10\"/>\n",
   str% "        <exampleNumber>7797712345</exampleNumber>\n",
   str% "        <nationalNumberPattern>\n",
   str% "          7(?:\n",
   str% "            (?:\n",
   str% "              (?:\n",
   str% "                50|\n",
   str% "                82\n",
   str% "              )9|\n",
   str% "              937\n",
   str% "            )\\d|\n",
   str% "            7(?:\n",
   str% "              00[378]|\n",
   str% "              97\\d\n",
   str% "            )\n",
   str% "          )\\d{5}\n",
   str% "        </nationalNumberPattern>\n",
   str% "      </mobile>\n",
   str% "      <!-- Pager numbers as per GB. -->\n",
   str% "      <pager>\n",
   str% "        <possibleLengths national=\"10\"/>\n",
   str% "        <exampleNumber>7640123456</exampleNumber>\n",
   str% "        <nationalNumberPattern>\n",
   str% "          76(?:\n",
   str% "            464|\n",
   str% "            652\n",
   str% "          )\\d{5}|\n",
   str% "          76(?:\n",
   str% "            0[0-28]|\n",
   str% "            2[356]|\n",
   str% "            34|\n",
   str% "            4[01347]|\n",
   str% "            5[49]|\n",
   str% "            6[0-369]|\n",
   str% "            77|\n",
   str% "            8[14]|\n",
   str% "            9[139]\n",
   str% "          )\\d{6}\n",
   str% "        </nationalNumberPattern>\n",
   str% "      </pager>\n",
   str% "      <!-- Specific to JE. -->\n",
   str% "      <!-- 800 735, 800 781, 808 901 with 10 digits. -->\n",
   str% "      <tollFree>\n",
   str% "        <possibleLengths national=\"10\"/>\n",
   str% "        <exampleNumber>8007354567</exampleNumber>\n",
   str% "        <nationalNumberPattern>\n",
   str% "          80(?:\n",
   str% "            07(?:\n",
   str% "              35|\n",
   str% "              81\n",
   str% "            )|\n",
   str% "            8901\n",
   str% "          )\\d{4}\n",
   str% "        </nationalNumberPattern>\n",
   str% "      </tollFree>\n",
   str% "      <!-- 844 405, 844 442, 844 469, 844 703, 845 041, 845 800, 870 002, 871 206, 900 665, 900 669,\n",
   str% "           901 810, 907 107, 907 155 with 10 digits. -->\n",
   str% "      <premiumRate>\n",
   str% "        <possibleLengths national=\"10\"/>\n",
   str% "        <exampleNumber>9018105678</exampleNumber>\n",
   str% "        <nationalNumberPattern>\n",
   str% "          (?:\n",
   str% "            8(?:\n",
   str% "              4(?:\n",
   str% "                4(?:\n",
   str% "                  4(?:\n",
   str% "                    05|\n",
   str% "                    42|\n",
   str% "                    69\n",
   str% "                  )|\n",
   str% "                  703\n",
   str% "                )|\n",
   str% "                5(?:\n",
   str% "                  041|\n",
   str% "                  800\n",
   str% "                )\n",
   str% "              )|\n",
   str% "              7(?:\n",
   str% "                0002|\n",
   str% "                1206\n",
   str% "              )\n",
   str% "            )|\n",
   str% "            90(?:\n",
   str% "              066[59]|\n",
   str% "              1810|\n",
   str% "              71(?:\n",
   str% "                07|\n",
   str% "                55\n",
   str% "              )\n",
   str% "            )\n",
   str% "          )\\d{4}\n",
   str% "        </nationalNumberPattern>\n",
   str% "      </premiumRate>\n",
   str% "      <!-- 70 1511 with 10 digits. -->\n",
   str% "      <personalNumber>\n",
   str% "        <possibleLengths national=\"10\"/>\n",
   str% "        <exampleNumber>7015115678</exampleNumber>\n",
   str% "        <nationalNumberPattern>701511\\d{4}</nationalNumberPattern>\n",
   str% "      </personalNumber>\n",
   str% "      <!-- VoIP numbers as per GB. -->\n",
   str% "      <voip>\n",
   str% "        <possibleLengths national=\"10\"/>\n",
   str% "        <exampleNumber>5612345678</exampleNumber>\n",
   str% "        <nationalNumberPattern>56\\d{8}</nationalNumberPattern>\n",
   str% "      </voip>\n",
   str% "      <!-- 300 735, 300 781, 308 901, 33d, 344 405, 344 442, 344 469, 344 703, 345 041, 345 800,\n",
   str% "           370 002, 371 206, 55 with 10 digits. -->\n",
   str% "      <uan>\n",
   str% "        <possibleLengths national=\"10\"/>\n",
   str% "        <exampleNumber>5512345678</exampleNumber>\n",
   str% "        <nationalNumberPattern>\n",
   str% "          (?:\n",
   str% "            3(?:\n",
   str% "              0(?:\n",
   str% "                07(?:\n",
   str% "                  35|\n",
   str% "                  81\n",
   str% "                )|\n",
   str% "                8901\n",
   str% "              )|\n",
   str% "              3\\d{4}|\n",
   str% "              4(?:\n",
   str% "                4(?:\n",
   str% "                  4(?:\n",
   str% "                    05|\n",
   str% "                    42|\n",
   str% "                    69\n",
   str% "                  )|\n",
   str% "                  703\n",
   str% "                )|\n",
   str% "                5(?:\n",
   str% "                  041|\n",
   str% "                  800\n",
   str% "                )\n",
   str% "              )|\n",
   str% "              7(?:\n",
   str% "                0002|\n",
   str% "                1206\n",
   str% "              )\n",
   str% "            )|\n",
   str% "            55\\d{4}\n",
   str% "          )\\d{4}\n",
   str% "        </nationalNumberPattern>\n",
   str% "      </uan>\n",
   str% "    </territory>"]

/-- the text of this module -/
noncomputable def chunk07 : List (List Str) :=
  [IN, IO, IQ, IR, IS, IT, JE]

end Phone.Data.S
