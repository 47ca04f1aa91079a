import Verif.Basic.Str
/-! Text of `/repo/assets/PhoneNumberMetadata.xml`, in lines. Generated by `tools/gen_xml.py`; do not edit. -/

set_option maxRecDepth 100000
namespace Phone.Data.S

/-- the text up to the end of territory id=AS countryCode=1 -/
noncomputable def AS : List Str :=
  [str% "\n",
   str% "\n",
   str% "    <!-- American Samoa (AS) -->\n",
   str% "    <!-- Calling code and formatting shared with 'US' -->\n",
   str% "    <!-- http://www.itu.int/oth/T0202000004/en -->\n",
   str% "    <territory id=\"AS\" countryCode=\"1\" leadingDigits=\"684\" internationalPrefix=\"011\"\n",
   str% "               nationalPrefix=\"1\" nationalPrefixForParsing=\"([267]\\d{6})$|1\"\n",
   str% "               nationalPrefixTransformRule=\"684$1\">\n",
   str% "      <generalDesc>\n",
   str% "        <nationalNumberPattern>\n",
   str% "          (?:\n",
   str% "            [58]\\d\\d|\n",
   str% "            684|\n",
   str% "            900\n",
   str% "          )\\d{7}\n",
   str% "        </nationalNumberPattern>\n",
   str% "      </generalDesc>\n",
   str% "      <fixedLine>\n",
   str% "        <possibleLengths national=\"10\" localOnly=\"7\"/>\n",
   str% "        <exampleNumber>6846221234</exampleNumber>\n",
   str% "        <nationalNumberPattern>\n",
   str% "          684(?:\n",
   str% "            274|\n",
   str% "            6(?:\n",
   str% "              22|\n",
   str% "              33|\n",
   str% "              44|\n",
   str% "              55|\n",
   str% "              77|\n",
   str% "              88|\n",
   str% "              9[19]\n",
   str% "            )\n",
   str% "          )\\d{4}\n",
   str% "        </nationalNumberPattern>\n",
   str% "      </fixedLine>\n",
   str% "      <!-- Added 25[246] and 272, operated by Blue Sky. Added 731, 770, operated by ASTCA. -->\n",
   str% "      <mobile>\n",
   str% "        <possibleLengths national=\"10\" localOnly=\"7\"/>\n",
   str% "        <exampleNumber>6847331234</exampleNumber>\n",
   str% "        <nationalNumberPattern>\n",
   str% "          684(?:\n",
   str% "            2(?:\n",
   str% "              48|\n",
   str% "              5[2468]|\n",
   str% "              7[246]\n",
   str% "            )|\n",
   str% "            7(?:\n",
   str% "              3[13]|\n",
   str% "              70|\n",
   str% "              82\n",
   str% "            )\n",
   str% "          )\\d{4}\n",
   str% "        </nationalNumberPattern>\n",
   str% "      </mobile>\n",
   str% "      <tollFree>\n",
   str% "        <possibleLengths national=\"10\"/>\n",
   str% "        <exampleNumber>8002123456</exampleNumber>\n",
   str% "        <nationalNumberPattern>\n",
   str% "          8(?:\n",
   str% "            00|\n",
   str% "            33|\n",
   str% "            44|\n",
   str% "            55|\n",
   str% "            66|\n",
   str% "            77|\n",
   str% "            88\n",
   str% "          )[2-9]\\d{6}\n",
   str% "        </nationalNumberPattern>\n",
   str% "      </tollFree>\n",
   str% "      <premiumRate>\n",
   str% "        <possibleLengths national=\"10\"/>\n",
   str% "        <exampleNumber>9002123456</exampleNumber>\n",
   str% "        <nationalNumberPattern>900[2-9]\\d{6}</nationalNumberPattern>\n",
   str% "      </premiumRate>\n",
   str% "      <!-- https://www.nationalnanpa.com/number_resource_info/5XX_codes.html -->\n",
   str% "      <personalNumber>\n",
   str% "        <possibleLengths national=\"10\"/>\n",
   str% "        <exampleNumber>5002345678</exampleNumber>\n",
   str% "        <nationalNumberPattern>\n",
   str% "          52(?:\n",
   str% "            3(?:\n",
   str% "              [2-46-9][02-9]\\d|\n",
   str% "              5(?:\n",
   str% "                [02-46-9]\\d|\n",
   str% "                5[0-46-9]\n",
   str% "              )\n",
   str% "            )|\n",
   str% "            4(?:\n",
   str% "              [2-478][02-9]\\d|\n",
   str% "              5(?:\n",
   str% "                [034]\\d|\n",
   str% "                2[024-9]|\n",
   str% "                5[0-46-9]\n",
   str% "              )|\n",
   str% "              6(?:\n",
   str% "                0[1-9]|\n",
   str% "                [2-9]\\d\n",
   str% "              )|\n",
   str% "              9(?:\n",
   str% "                [05-9]\\d|\n",
   str% "                2[0-5]|\n",
   str% "                49\n",
   str% "              )\n",
   str% "            )\n",
   str% "          )\\d{4}|\n",
   str% "          52[34][2-9]1[02-9]\\d{4}|\n",
   str% "          5(?:\n",
   str% "            00|\n",
   str% "            2[125-9]|\n",
   str% "            3[23]|\n",
   str% "            44|\n",
   str% "            66|\n",
   str% "            77|\n",
   str% "            88\n",
   str% "          )[2-9]\\d{6}\n",
   str% "        </nationalNumberPattern>\n",
   str% "      </personalNumber>\n",
   str% "    </territory>"]

/-- the text up to the end of territory id=AT countryCode=43 -/
noncomputable def AT : List Str :=
  [str% "\n",
   str% "\n",
   str% "    <!-- Austria (AT) -->\n",
   str% "    <!-- http://www.rtr.at/en/tk/E129 -->\n",
   str% "    <territory id=\"AT\" countryCode=\"43\" internationalPrefix=\"00\" nationalPrefix=\"0\"\n",
   str% "               mobileNumberPortableRegion=\"true\">\n",
   str% "      <availableFormats>\n",
   str% "        <!-- Shortcode format -->\n",
   str% "        <numberFormat pattern=\"(\\d{4})\">\n",
   str% "          <leadingDigits>14</leadingDigits>\n",
   str% "          <format>$1</format>\n",
   str% "          <intlFormat>NA</intlFormat>\n",
   str% "        </numberFormat>\n",
   str% "        <!-- Vienna (Wien) fixed line format (1-digit area code). -->\n",
   str% "        <numberFormat pattern=\"(\\d)(\\d{3,12})\" nationalPrefixFormattingRule=\"$NP$FG\">\n",
   str% "          <leadingDigits>\n",
   str% "            1(?:\n",
   str% "              11|\n",
   str% "              [2-9]\n",
   str% "            )\n",
   str% "          </leadingDigits>\n",
   str% "          <format>$1 $2</format>\n",
   str% "        </numberFormat>\n",
   str% "        <!-- VOIP (517xx only, which seems like the only VOIP range with a 3-digit prefix). -->\n",
   str% "        <numberFormat pattern=\"(\\d{3})(\\d{2})\" nationalPrefixFormattingRule=\"$NP$FG\">\n",
   str% "          <leadingDigits>517</leadingDigits>\n",
   str% "          <format>$1 $2</format>\n",
   str% "        </numberFormat>\n",
   str% "        <!-- VOIP (5-7 digits).\n",
   str% "             These formats are the most common for prefixes 050, 057 and 059, as found on Austrian web pages. -->\n",
   str% "        <numberFormat pattern=\"(\\d{2})(\\d{3,5})\" nationalPrefixFormattingRule=\"$NP$FG\">\n",
   str% "          <leadingDigits>5[079]</leadingDigits>\n",
   str% "          <format>$1 $2</format>\n",
   str% "        </numberFormat>\n",
   str% "        <!-- Shortcode format -->\n",
   str% "        <numberFormat pattern=\"(\\d{6})\">\n",
   str% "          <leadingDigits>[18]</leadingDigits>\n",
   str% "          <format>$1</format>\n",
   str% "          <intlFormat>NA</intlFormat>\n",
   str% "        </numberFormat>\n",
   str% "        <!-- 3-digit area codes (fixed line, including premium rate and toll free). -->\n",
   str% "        <numberFormat pattern=\"(\\d{3})(\\d{3,10})\" nationalPrefixFormattingRule=\"$NP$FG\">\n",
   str% "          <leadingDigits>\n",
   str% "            (?:\n",
   str% "              31|\n",
   str% "              4\n",
   str% "            )6|\n",
   str% "            51|\n",
   str% "            6(?:\n",
   str% "              48|\n",
   str% "              5[0-3579]|\n",
   str% "              [6-9]\n",
   str% "            )|\n",
   str% "            7(?:\n",
   str% "              20|\n",
   str% "              32|\n",
   str% "              8\n",
   str% "            )|\n",
   str% "            [89]\n",
   str% "          </leadingDigits>\n",
   str% "          <leadingDigits>\n",
   str% "            (?:\n",
   str% "              31|\n",
   str% "              4\n",
   str% "            )6|\n",
   str% "            51|\n",
   str% "            6(?:\n",
   str% "              485|\n",
   str% "              5[0-3579]|\n",
   str% "              [6-9]\n",
   str% "            )|\n",
   str% "            7(?:\n",
   str% "              20|\n",
   str% "              32|\n",
   str% "              8\n",
   str% "            )|\n",
   str% "            [89]\n",
   str% "          </leadingDigits>\n",
   str% "          <format>$1 $2</format>\n",
   str% "        </numberFormat>\n",
   str% "        <!-- 4-digit area codes (fixed line only). -->\n",
   str% "        <numberFormat pattern=\"(\\d{4})(\\d{3,9})\" nationalPrefixFormattingRule=\"$NP$FG\">\n",
   str% "          <leadingDigits>\n",
   str% "            [2-467]|\n",
   str% "            5[2-6]\n",
   str% "          </leadingDigits>\n",
   str% "          <format>$1 $2</format>\n",
   str% "        </numberFormat>\n",
   str% "        <!-- VOIP (8-9 digits). -->\n",
   str% "        <numberFormat pattern=\"(\\d{2})(\\d{3})(\\d{3,4})\" nationalPrefixFormattingRule=\"$NP$FG\">\n",
   str% "          <leadingDigits>5</leadingDigits>\n",
   str% "          <format>$1 $2 $3</format>\n",
   str% "        </numberFormat>\n",
   str% "        <!-- VOIP (10-13 digits). -->\n",
   str% "        <numberFormat pattern=\"(\\d{2})(\\d{4})(\\d{4,7})\" nationalPrefixFormattingRule=\"$NP$FG\">\n",
   str% "          <leadingDigits>5</leadingDigits>\n",
   str% "          <format>$1 $2 $3</format>\n",
   str% "        </numberFormat>\n",
   str% "      </availableFormats>\n",
   str% "      <generalDesc>\n",
   str% "        <nationalNumberPattern>\n",
   str% "          1\\d{3,12}|\n",
   str% "          2\\d{6,12}|\n",
   str% "          43(?:\n",
   str% "            (?:\n",
   str% "              0\\d|\n",
   str% "              5[02-9]\n",
   str% "            )\\d{3,9}|\n",
   str% "            2\\d{4,5}|\n",
   str% "            [3467]\\d{4}|\n",
   str% "            8\\d{4,6}|\n",
   str% "            9\\d{4,7}\n",
   str% "          )|\n",
   str% "          5\\d{4,12}|\n",
   str% "          8\\d{7,12}|\n",
   str% "          9\\d{8,12}|\n",
   str% "          (?:\n",
   str% "            [367]\\d|\n",
   str% "            4[0-24-9]\n",
   str% "          )\\d{4,11}\n",
   str% "        </nationalNumberPattern>\n",
   str% "      </generalDesc>\n",
   str% "      <!-- Note that the full area code is not validated - just the first 3 digits. This also\n",
   str% "           means that even though for most Austrian numbers the minimum length is 7, we allow 6\n",
   str% "           since we don't differentiate below between 3 and 4 digit area codes for reasons of\n",
   str% "           efficiency. -->\n",
   str% "      <fixedLine>\n",
   str% "        <possibleLengths national=\"[4-13]\" localOnly=\"3\"/>\n",
   str% "        <exampleNumber>1234567890</exampleNumber>\n",
   str% "        <nationalNumberPattern>\n",
   str% "          1(?:\n",
   str% "            11\\d|\n",
   str% "            [2-9]\\d{3,11}\n",
   str% "          )|\n",
   str% "          (?:\n",
   str% "            316|\n",
   str% "            463\n",
   str% "          )\\d{3,10}|\n",
   str% "          648[34]\\d{3,9}|\n",
   str% "          (?:\n",
   str% "            51|\n",
   str% "            66|\n",
   str% "            73\n",
   str% "          )2\\d{3,10}|\n",
   str% "          (?:\n",
   str% "            2(?:\n",
   str% "              1[467]|\n",
   str% "              2[13-8]|\n",
   str% "              5[2357]|\n",
   str% "              6[1-46-8]|\n",
   str% "              7[1-8]|\n",
   str% "              8[124-7]|\n",
   str% "              9[1458]\n",
   str% "            )|\n",
   str% "            3(?:\n",
   str% "              1[1-578]|\n",
   str% "              3[23568]|\n",
   str% "              4[5-7]|\n",
   str% "              5[1378]|\n",
   str% "              6[1-38]|\n",
   str% "              8[3-68]\n",
   str% "            )|\n",
   str% "            4(?:\n",
   str% "              2[1-8]|\n",
   str% "              35|\n",
   str% "              7[1368]|\n",
   str% "              8[2457]\n",
   str% "            )|\n",
   str% "            5(?:\n",
   str% "              2[1-8]|\n",
   str% "              3[357]|\n",
   str% "              4[147]|\n",
   str% "              5[12578]|\n",
   str% "              6[37]\n",
   str% "            )|\n",
   str% "            6(?:\n",
   str% "              13|\n",
   str% "              2[1-47]|\n",
   str% "              4[135-7]|\n",
   str% "              5[468]\n",
   str% "            )|\n",
   str% "            7(?:\n",
   str% "              2[1-8]|\n",
   str% "              35|\n",
   str% "              4[13478]|\n",
   str% "              5[68]|\n",
   str% "              6[16-8]|\n",
   str% "              7[1-6]|\n",
   str% "              9[45]\n",
   str% "            )\n",
   str% "          )\\d{4,10}\n",
   str% "        </nationalNumberPattern>\n",
   str% "      </fixedLine>\n",
   str% "      <mobile>\n",
   str% "        <possibleLengths national=\"[7-13]\"/>\n",
   str% "        <exampleNumber>664123456</exampleNumber>\n",
   str% "        <nationalNumberPattern>\n",
   str% "          6(?:\n",
   str% "            485|\n",
   str% "            (?:\n",
   str% "              5[0-3579]|\n",
   str% "              6[013-9]|\n",
   str% "              [7-9]\\d\n",
   str% "            )\\d\n",
   str% "          )\\d{3,9}\n",
   str% "        </nationalNumberPattern>\n",
   str% "      </mobile>\n",
   str% "      <tollFree>\n",
   str% "        <possibleLengths national=\"[9-13]\"/>\n",
   str% "        <exampleNumber>800123456</exampleNumber>\n",
   str% "        <nationalNumberPattern>800\\d{6,10}</nationalNumberPattern>\n",
   str% "      </tollFree>\n",
   str% "      <premiumRate>\n",
   str% "        <possibleLengths national=\"[9-13]\"/>\n",
   str% "        <exampleNumber>900123456</exampleNumber>\n",
   str% "        <nationalNumberPattern>\n",
   str% "          (?:\n",
   str% "            8[69][2-68]|\n",
   str% "            9(?:\n",
   str% "              0[01]|\n",
   str% "              3[019]\n",
   str% "            )\n",
   str% "          )\\d{6,10}\n",
   str% "        </nationalNumberPattern>\n",
   str% "      </premiumRate>\n",
   str% "      <sharedCost>\n",
   str% "        <possibleLengths national=\"[8-13]\"/>\n",
   str% "        <exampleNumber>810123456</exampleNumber>\n",
   str% "        <nationalNumberPattern>\n",
   str% "          8(?:\n",
   str% "            10|\n",
   str% "            2[018]\n",
   str% "          )\\d{6,10}|\n",
   str% "          828\\d{5}\n",
   str% "        </nationalNumberPattern>\n",
   str% "      </sharedCost>\n",
   str% "      <!-- Convergent service numbers 780 are supported here as VOIP is closest match for such\n",
   str% "           numbers. All location independent corporate numbers are supported as we found these\n",
   str% "           are dialled via IP. -->\n",
   str% "      <voip>\n",
   str% "        <possibleLengths national=\"[5-13]\"/>\n",
   str% "        <exampleNumber>780123456</exampleNumber>\n",
   str% "        <nationalNumberPattern>\n",
   str% "          5(?:\n",
   str% "            0[1-9]|\n",
   str% "            17|\n",
   str% "            [79]\\d\n",
   str% "          )\\d{2,10}|\n",
   str% "          7[28]0\\d{6,10}\n",
   str% "        </nationalNumberPattern>\n",
   str% "      </voip>\n",
   str% "    </territory>"]

/-- the text up to the end of territory id=AU countryCode=61 -/
noncomputable def AU : List Str :=
  [str% "\n",
   str% "\n",
   str% "    <!-- Australia (AU) -->\n",
   str% "    <!-- Main region for 'CC,CX' -->\n",
   str% "    <!-- International prefix based on the wikipedia page, either being a combination of the\n",
   str% "         \"Provider override codes\" with the default IDD (0011) following, or the default IDD,\n",
   str% "         or the other IDD codes for non-default carriers. -->\n",
   str% "    <!-- http://www.itu.int/oth/T020200000D/en -->\n",
   str% "    <!-- http://en.wikipedia.org/wiki/Telephone_numbers_in_Australia -->\n",
   str% "    <!-- https://www.thenumberingsystem.com.au/#/number-register/search -->\n",
   str% "    <territory id=\"AU\" mainCountryForCode=\"true\" countryCode=\"61\"\n",
   str% "               preferredInternationalPrefix=\"0011\"\n",
   str% "               internationalPrefix=\"001[14-689]|14(?:1[14]|34|4[17]|[56]6|7[47]|88)0011\"\n",
   str% "               nationalPrefix=\"0\" nationalPrefixForParsing=\"(183[12])|0\"\n",
   str% "               mobileNumberPortableRegion=\"true\">\n",
   str% "      <availableFormats>\n",
   str% "        <!-- Pager (5-6 digits) -->\n",
   str% "        <numberFormat pattern=\"(\\d{2})(\\d{3,4})\" nationalPrefixFormattingRule=\"$NP$FG\">\n",
   str% "          <leadingDigits>16</leadingDigits>\n",
   str% "          <format>$1 $2</format>\n",
   str% "        </numberFormat>\n",
   str% "        <!-- 6-digit variable cost fixed line (toll free, premium rate, shared cost) -->\n",
   str% "        <numberFormat pattern=\"(\\d{2})(\\d{2})(\\d{2})\">\n",
   str% "          <leadingDigits>13</leadingDigits>\n",
   str% "          <format>$1 $2 $3</format>\n",
   str% "          <intlFormat>NA</intlFormat>\n",
   str% "        </numberFormat>\n",
   str% "        <!-- Premium rate SMS (6 digit) -->\n",
   str% "        <numberFormat pattern=\"(\\d{3})(\\d{3})\">\n",
   str% "          <leadingDigits>19</leadingDigits>\n",
   str% "          <format>$1 $2</format>\n",
   str% "          <intlFormat>NA</intlFormat>\n",
   str% "        </numberFormat>\n",
   str% "        <!-- 7-digit variable cost fixed line (toll free, premium rate, shared cost) -->\n",
   str% "        <numberFormat pattern=\"(\\d{3})(\\d{4})\">\n",
   str% "          <leadingDigits>180</leadingDigits>\n",
   str% "          <leadingDigits>1802</leadingDigits>\n",
   str% "          <format>$1 $2</format>\n",
   str% "          <intlFormat>NA</intlFormat>\n",
   str% "        </numberFormat>\n",
   str% "        <!-- Premium rate SMS (7-8 digit) -->\n",
   str% "        <numberFormat pattern=\"(\\d{4})(\\d{3,4})\">\n",
   str% "          <leadingDigits>19</leadingDigits>\n",
   str% "          <format>$1 $2</format>\n",
   str% "          <intlFormat>NA</intlFormat>\n",
   str% "        </numberFormat>\n",
   str% "        <!-- Pager (7-9 digits) -->\n",
   str% "        <numberFormat pattern=\"(\\d{2})(\\d{3})(\\d{2,4})\" nationalPrefixFormattingRule=\"$NP$FG\">\n",
   str% "          <leadingDigits>16</leadingDigits>\n",
   str% "          <format>$1 $2 $3</format>\n",
   str% "        </numberFormat>\n",
   str% "        <!-- Mobile and VOIP -->\n",
   str% "        <numberFormat pattern=\"(\\d{3})(\\d{3})(\\d{3})\" nationalPrefixFormattingRule=\"$NP$FG\">\n",
   str% "          <leadingDigits>\n",
   str% "            14|\n",
   str% "            4\n",
   str% "          </leadingDigits>\n",
   str% "          <format>$1 $2 $3</format>\n",
   str% "        </numberFormat>\n",
   str% "        <!-- Fixed line -->\n",
   str% "        <numberFormat pattern=\"(\\d)(\\d{4})(\\d{4})\" nationalPrefixFormattingRule=\"($NP$FG)\"\n",
   str% "                      carrierCodeFormattingRule=\"$CC ($FG)\">\n",
   str% "          <leadingDigits>[2378]</leadingDigits>\n",
   str% "          <format>$1 $2 $3</format>\n",
   str% "        </numberFormat>\n",
   str% "        <!-- 10-digit variable cost fixed line (toll free, premium rate, shared cost) -->\n",
   str% "        <numberFormat pattern=\"(\\d{4})(\\d{3})(\\d{3})\">\n",
   str% "          <leadingDigits>\n",
   str% "            1(?:\n",
   str% "              30|\n",
   str% "              [89]\n",
   str% "            )\n",
   str% "          </leadingDigits>\n",
   str% "          <format>$1 $2 $3</format>\n",
   str% "        </numberFormat>\n",
   str% "        <numberFormat pattern=\"(\\d{4})(\\d{4})(\\d{4})\">\n",
   str% "          <leadingDigits>130</leadingDigits>\n",
   str% "          <format>$1 $2 $3</format>\n",
   str% "          <intlFormat>NA</intlFormat>\n",
   str% "        </numberFormat>\n",
   str% "      </availableFormats>\n",
   str% "      <generalDesc>\n",
   str% "        <nationalNumberPattern>\n",
   str% "          1(?:\n",
   str% "            [0-79]\\d{7}(?:\n",
   str% "              \\d(?:\n",
   str% "                \\d{2}\n",
   str% "              )?\n",
   str% "            )?|\n",
   str% "            8[0-24-9]\\d{7}\n",
   str% "          )|\n",
   str% "          [2-478]\\d{8}|\n",
   str% "          1\\d{4,7}\n",
   str% "        </nationalNumberPattern>\n",
   str% "      </generalDesc>\n",
   str% "      <noInternationalDialling>\n",
   str% "        <possibleLengths national=\"[6-8],10,12\"/>\n",
   str% "        <nationalNumberPattern>\n",
   str% "          1(?:\n",
   str% "            3(?:\n",
   str% "              00\\d{5}|\n",
   str% "              45[0-4]\n",
   str% "            )|\n",
   str% "            802\n",
   str% "          )\\d{3}|\n",
   str% "          1[38]00\\d{6}|\n",
   str% "          13\\d{4}\n",
   str% "        </nationalNumberPattern>\n",
   str% "      </noInternationalDialling>\n",
   str% "      <!-- Note: Excludes prefixes used by Cocos Islands and Christmas Islands. -->\n",
   str% "      <fixedLine>\n",
   str% "        <possibleLengths national=\"9\" localOnly=\"8\"/>\n",
   str% "        <exampleNumber>212345678</exampleNumber>\n",
   str% "        <nationalNumberPattern>\n",
   str% "          (?:\n",
   str% "            (?:\n",
   str% "              241|\n",
   str% "              349\n",
   str% "            )0\\d\\d|\n",
   str% "            8(?:\n",
   str% "              51(?:\n",
   str% "                0(?:\n",
   str% "                  0[03-9]|\n",
   str% "                  [12479]\\d|\n",
   str% "                  3[2-9]|\n",
   str% "                  5[0-8]|\n",
   str% "                  6[1-9]|\n",
   str% "                  8[0-7]\n",
   str% "                )|\n",
   str% "                1(?:\n",
   str% "                  [0235689]\\d|\n",
   str% "                  1[0-69]|\n",
   str% "                  4[0-589]|\n",
   str% "                  7[0-47-9]\n",
   str% "                )|\n",
   str% "                2(?:\n",
   str% "                  0[0-79]|\n",
   str% "                  [18][13579]|\n",
   str% "                  2[14-9]|\n",
   str% "                  3[0-46-9]|\n",
   str% "                  [4-6]\\d|\n",
   str% "                  7[89]|\n",
   str% "                  9[0-4]\n",
   str% "                )|\n",
   str% "                [34]\\d\\d\n",
   str% "              )|\n",
   str% "              91(?:\n",
   str% "                (?:\n",
   str% "                  [0-58]\\d|\n",
   str% "                  6[0135-9]\n",
   str% "                )\\d|\n",
   str% "                7(?:\n",
   str% "                  0[0-24-9]|\n",
   str% "                  [1-9]\\d\n",
   str% "                )|\n",
   str% "                9(?:\n",
   str% "                  [0-46-9]\\d|\n",
   str% "                  5[0-79]\n",
   str% "                )\n",
   str% "              )\n",
   str% "            )\n",
   str% "          )\\d{3}|\n",
   str% "          (?:\n",
   str% "            2(?:\n",
   str% "              [0-26-9]\\d|\n",
   str% "              3[0-8]|\n",
   str% "              4[02-9]|\n",
   str% "              5[0135-9]\n",
   str% "            )|\n",
   str% "            3(?:\n",
   str% "              [0-3589]\\d|\n",
   str% "              4[0-578]|\n",
   str% "              6[1-9]|\n",
   str% "              7[0-35-9]\n",
   str% "            )|\n",
   str% "            7(?:\n",
   str% "              [013-57-9]\\d|\n",
   str% "              2[0-8]\n",
   str% "            )|\n",
   str% "            8(?:\n",
   str% "              55|\n",
   str% "              6[0-8]|\n",
   str% "              [78]\\d|\n",
   str% "              9[02-9]\n",
   str% "            )\n",
   str% "          )\\d{6}\n",
   str% "        </nationalNumberPattern>\n",
   str% "      </fixedLine>\n",
   str% "      <!-- Note CC and CX should be updated as well if this pattern changes. Maintaining three digit\n",
   str% "           granularity of the ranges mentioned as *assigned* in:\n",
   str% "           https://www.thenumberingsystem.com.au/download/EnhancedFullDownload.zip -->\n",
   str% "      <mobile>\n",
   str% "        <possibleLengths national=\"9\"/>\n",
   str% "        <exampleNumber>412345678</exampleNumber>\n",
   str% "        <nationalNumberPattern>\n",
   str% "          4(?:\n",
   str% "            79[01]|\n",
   str% "            83[0-36-9]|\n",
   str% "            95[0-3]\n",
   str% "          )\\d{5}|\n",
   str% "          4(?:\n",
   str% "            [0-36]\\d|\n",
   str% "            4[047-9]|\n",
   str% "            [58][0-24-9]|\n",
   str% "            7[02-8]|\n",
   str% "            9[0-47-9]\n",
   str% "          )\\d{6}\n",
   str% "        </nationalNumberPattern>\n",
   str% "      </mobile>\n",
   str% "      <pager>\n",
   str% "        <possibleLengths national=\"[5-9]\"/>\n",
   str% "        <exampleNumber>1631234</exampleNumber>\n",
   str% "        <nationalNumberPattern>163\\d{2,6}</nationalNumberPattern>\n",
   str% "      </pager>\n",
   str% "      <tollFree>\n",
   str% "        <possibleLengths national=\"7,10\"/>\n",
   str% "        <exampleNumber>1800123456</exampleNumber>\n",
   str% "        <nationalNumberPattern>\n",
   str% "          180(?:\n",
   str% "            0\\d{3}|\n",
   str% "            2\n",
   str% "          )\\d{3}\n",
   str% "        </nationalNumberPattern>\n",
   str% "      </tollFree>\n",
   str% "      <premiumRate>\n",
   str% "        <possibleLengths national=\"10\"/>\n",
   str% "        <exampleNumber>1900123456</exampleNumber>\n",
   str% "        <nationalNumberPattern>190[0-26]\\d{6}</nationalNumberPattern>\n",
   str% "      </premiumRate>\n",
   str% "      <!-- Local-rate (SmartNumbers) are put here because they are a reverse-charge network,\n",
   str% "           although they charge a small local call connect fee (around 25c). These start with 13\n",
   str% "           or 1300. Prefix 1300 of length 12 digit added based on user report. -->\n",
   str% "      <sharedCost>\n",
   str% "        <possibleLengths national=\"6,8,10,12\"/>\n",
   str% "        <exampleNumber>1300123456</exampleNumber>\n",
   str% "        <nationalNumberPattern>\n",
   str% "          13(?:\n",
   str% "            00\\d{6}(?:\n",
   str% "              \\d{2}\n",
   str% "            )?|\n",
   str% "            45[0-4]\\d{3}\n",
   str% "          )|\n",
   str% "          13\\d{4}\n",
   str% "        </nationalNumberPattern>\n",
   str% "      </sharedCost>\n",
   str% "      <!-- Includes MobileSat and Thuraya satellite services. According to the wikipedia page,\n",
   str% "           other ranges 14[1-3] are not currently used. Supporting them here as VOIP is the closest\n",
   str% "           match. -->\n",
   str% "      <voip>\n",
   str% "        <possibleLengths national=\"9\"/>\n",
   str% "        <exampleNumber>147101234</exampleNumber>\n",
   str% "        <nationalNumberPattern>\n",
   str% "          14(?:\n",
   str% "            5(?:\n",
   str% "              1[0458]|\n",
   str% "              [23][458]\n",
   str% "            )|\n",
   str% "            71\\d\n",
   str% "          )\\d{4}\n",
   str% "        </nationalNumberPattern>\n",
   str% "      </voip>\n",
   str% "    </territory>"]

/-- the text up to the end of territory id=AW countryCode=297 -/
noncomputable def AW : List Str :=
  [str% "\n",
   str% "\n",
   str% "    <!-- Aruba (AW) -->\n",
   str% "    <!-- http://www.itu.int/oth/T020200000B/en -->\n",
   str% "    <territory id=\"AW\" countryCode=\"297\" internationalPrefix=\"00\">\n",
   str% "      <availableFormats>\n",
   str% "        <numberFormat pattern=\"(\\d{3})(\\d{4})\">\n",
   str% "          <leadingDigits>[25-9]</leadingDigits>\n",
   str% "          <format>$1 $2</format>\n",
   str% "        </numberFormat>\n",
   str% "      </availableFormats>\n",
   str% "      <generalDesc>\n",
   str% "        <nationalNumberPattern>\n",
   str% "          (?:\n",
   str% "            [25-79]\\d\\d|\n",
   str% "            800\n",
   str% "          )\\d{4}\n",
   str% "        </nationalNumberPattern>\n",
   str% "      </generalDesc>\n",
   str% "      <fixedLine>\n",
   str% "        <possibleLengths national=\"7\"/>\n",
   str% "        <exampleNumber>5212345</exampleNumber>\n",
   str% "        <nationalNumberPattern>\n",
   str% "          5(?:\n",
   str% "            2\\d|\n",
   str% "            8[1-9]\n",
   str% "          )\\d{4}\n",
   str% "        </nationalNumberPattern>\n",
   str% "      </fixedLine>\n",
   str% "      <!-- The prefixes 994 and 96[45], while not in the plan, seem to be used in mobile numbers\n",
   str% "           found online. -->\n",
   str% "      <mobile>\n",
   str% "        <possibleLengths national=\"7\"/>\n",
   str% "        <exampleNumber>5601234</exampleNumber>\n",
   str% "        <nationalNumberPattern>\n",
   str% "          (?:\n",
   str% "            290|\n",
   str% "            5[69]\\d|\n",
   str% "            6(?:\n",
   str% "              [03]0|\n",
   str% "              22|\n",
   str% "              4[0-2]|\n",
   str% "              [69]\\d\n",
   str% "            )|\n",
   str% "            7(?:\n",
   str% "              [34]\\d|\n",
   str% "              7[07]\n",
   str% "            )|\n",
   str% "            9(?:\n",
   str% "              6[45]|\n",
   str% "              9[4-8]\n",
   str% "            )\n",
   str% "          )\\d{4}\n",
   str% "        </nationalNumberPattern>\n",
   str% "      </mobile>\n",
   str% "      <tollFree>\n",
   str% "        <possibleLengths national=\"7\"/>\n",
   str% "        <exampleNumber>8001234</exampleNumber>\n",
   str% "        <nationalNumberPattern>800\\d{4}</nationalNumberPattern>\n",
   str% "      </tollFree>\n",
   str% "      <premiumRate>\n",
   str% "        <possibleLengths national=\"7\"/>\n",
   str% "        <exampleNumber>9001234</exampleNumber>\n",
   str% "        <nationalNumberPattern>900\\d{4}</nationalNumberPattern>\n",
   str% "      </premiumRate>\n",
   str% "      <voip>\n",
   str% "        <possibleLengths national=\"7\"/>\n",
   str% "        <exampleNumber>5011234</exampleNumber>\n",
   str% "        <nationalNumberPattern>\n",
   str% "          (?:\n",
   str% "            28\\d|\n",
   str% "            501\n",
   str% "          )\\d{4}\n",
   str% "        </nationalNumberPattern>\n",
   str% "      </voip>\n",
   str% "    </territory>"]

/-- the text up to the end of territory id=AX countryCode=358 -/
noncomputable def AX : List Str :=
  [str% "\n",
   str% "\n",
   str% "    <!-- \u00C5land Islands (AX) -->\n",
   str% "    <!-- Calling code and formatting shared with 'FI' -->\n",
   str% "    <!-- Adding all international carrier access codes in below doc that we found corroborating\n",
   str% "         evidence for. Considering these are available in AX region as well.\n",
   str% "         https://www.viestintavirasto.fi/en/internettelephone/numberingoftelecommunicationsnetworks/internationalcalls/internationalcarrieraccesscodes.html -->\n",
   str% "    <!-- Not supporting national long distance carrier codes as these are overlapping with UAN\n",
   str% "         ranges mentioned in ITU doc. -->\n",
   str% "    <!-- https://www.viestintavirasto.fi/internetpuhelin/puhelinverkonnumerointi.html -->\n",
   str% "    <territory id=\"AX\" countryCode=\"358\" leadingDigits=\"18\" preferredInternationalPrefix=\"00\"\n",
   str% "               internationalPrefix=\"00|99(?:[01469]|5(?:[14]1|3[23]|5[59]|77|88|9[09]))\"\n",
   str% "               nationalPrefix=\"0\">\n",
   str% "      <generalDesc>\n",
   str% "        <nationalNumberPattern>\n",
   str% "          2\\d{4,9}|\n",
   str% "          35\\d{4,5}|\n",
   str% "          (?:\n",
   str% "            60\\d\\d|\n",
   str% "            800\n",
   str% "          )\\d{4,6}|\n",
   str% "          7\\d{5,11}|\n",
   str% "          (?:\n",
   str% "            [14]\\d|\n",
   str% "            3[0-46-9]|\n",
   str% "            50\n",
   str% "          )\\d{4,8}\n",
   str% "        </nationalNumberPattern>\n",
   str% "      </generalDesc>\n",
   str% "      <fixedLine>\n",
   str% "        <possibleLengths national=\"[6-9]\"/>\n",
   str% "        <exampleNumber>181234567</exampleNumber>\n",
   str% "        <nationalNumberPattern>18[1-8]\\d{3,6}</nationalNumberPattern>\n",
   str% "      </fixedLine>\n",
   str% "      <!-- The mobile, toll free, premium rate and UAN numbers are copied from Finland. -->\n",
   str% "      <!-- Only 8, 9 and 10 digit numbers are possible as per www.viestintavirasto.fi's plan.\n",
   str% "           Supporting other lengths based on user reports. -->\n",
   str% "      <mobile>\n",
   str% "        <possibleLengths national=\"[6-10]\"/>\n",
   str% "        <exampleNumber>412345678</exampleNumber>\n",
   str% "        <nationalNumberPattern>\n",
   str% "          4946\\d{2,6}|\n",
   str% "          (?:\n",
   str% "            4[0-8]|\n",
   str% "            50\n",
   str% "          )\\d{4,8}\n",
   str% "        </nationalNumberPattern>\n",
   str% "      </mobile>\n",
   str% "      <tollFree>\n",
   str% "        <possibleLengths national=\"[7-9]\"/>\n",
   str% "        <exampleNumber>800123456</exampleNumber>\n",
   str% "        <nationalNumberPattern>800\\d{4,6}</nationalNumberPattern>\n",
   str% "      </tollFree>\n",
   str% "      <premiumRate>\n",
   str% "        <possibleLengths national=\"8,9\"/>\n",
   str% "        <exampleNumber>600123456</exampleNumber>\n",
   str% "        <nationalNumberPattern>[67]00\\d{5,6}</nationalNumberPattern>\n",
   str% "      </premiumRate>\n",
   str% "      <!-- Covers nationwide non-geographic numbers, and nationwide \"service numbers\", typically\n",
   str% "           assigned to institutions such as universities, the national post, etc, where they are\n",
   str% "           not otherwise classified as toll-free or premium-rate numbers. -->\n",
   str% "      <uan>\n",
   str% "        <possibleLengths national=\"[5-12]\"/>\n",
   str% "        <exampleNumber>10112345</exampleNumber>\n",
   str% "        <nationalNumberPattern>\n",
   str% "          20\\d{4,8}|\n",
   str% "          60[12]\\d{5,6}|\n",
   str% "          7(?:\n",
   str% "            099\\d{4,5}|\n",
   str% "            5[03-9]\\d{3,7}\n",
   str% "          )|\n",
   str% "          20[2-59]\\d\\d|\n",
   str% "          (?:\n",
   str% "            606|\n",
   str% "            7(?:\n",
   str% "              0[78]|\n",
   str% "              1|\n",
   str% "              3\\d\n",
   str% "            )\n",
   str% "          )\\d{7}|\n",
   str% "          (?:\n",
   str% "            10|\n",
   str% "            29|\n",
   str% "            3[09]|\n",
   str% "            70[1-5]\\d\n",
   str% "          )\\d{4,8}\n",
   str% "        </nationalNumberPattern>\n",
   str% "      </uan>\n",
   str% "    </territory>"]

/-- the text up to the end of territory id=AZ countryCode=994 -/
noncomputable def AZ : List Str :=
  [str% "\n",
   str% "\n",
   str% "    <!-- Azerbaijan (AZ) -->\n",
   str% "    <!-- http://www.itu.int/oth/T020200000F/en -->\n",
   str% "    <territory id=\"AZ\" countryCode=\"994\" internationalPrefix=\"00\" nationalPrefix=\"0\"\n",
   str% "               mobileNumberPortableRegion=\"true\">\n",
   str% "      <availableFormats>\n",
   str% "        <numberFormat pattern=\"(\\d{3})(\\d{2})(\\d{2})\">\n",
   str% "          <leadingDigits>[1-9]</leadingDigits>\n",
   str% "          <format>$1 $2 $3</format>\n",
   str% "          <intlFormat>NA</intlFormat>\n",
   str% "        </numberFormat>\n",
   str% "        <!-- Premium rate (and maybe other special ranges). -->\n",
   str% "        <numberFormat pattern=\"(\\d{3})(\\d{2})(\\d{2})(\\d{2})\" nationalPrefixFormattingRule=\"$NP$FG\">\n",
   str% "          <leadingDigits>90</leadingDigits>\n",
   str% "          <format>$1 $2 $3 $4</format>\n",
   str% "        </numberFormat>\n",
   str% "        <numberFormat pattern=\"(\\d{2})(\\d{3})(\\d{2})(\\d{2})\" nationalPrefixFormattingRule=\"($NP$FG)\">\n",
   str% "          <leadingDigits>\n",
   str% "            1[28]|\n",
   str% "            2|\n",
   str% "            365|\n",
   str% "            46\n",
   str% "          </leadingDigits>\n",
   str% "          <leadingDigits>\n",
   str% "            1[28]|\n",
   str% "            2|\n",
   str% "            365[45]|\n",
   str% "            46\n",
   str% "          </leadingDigits>\n",
   str% "          <leadingDigits>\n",
   str% "            1[28]|\n",
   str% "            2|\n",
   str% "            365(?:\n",
   str% "              4|\n",
   str% "              5[02]\n",
   str% "            )|\n",
   str% "            46\n",
   str% "          </leadingDigits>\n",
   str% "          <format>$1 $2 $3 $4</format>\n",
   str% "        </numberFormat>\n",
   str% "        <!-- ITU uses XX XXX XXXX for mobile numbers, but numbers online typically\n",
   str% "             use XX XXX XX XX. -->\n",
   str% "        <numberFormat pattern=\"(\\d{2})(\\d{3})(\\d{2})(\\d{2})\" nationalPrefixFormattingRule=\"$NP$FG\">\n",
   str% "          <leadingDigits>[13-9]</leadingDigits>\n",
   str% "          <format>$1 $2 $3 $4</format>\n",
   str% "        </numberFormat>\n",
   str% "      </availableFormats>\n",
   str% "      <generalDesc>\n",
   str% "        <nationalNumberPattern>\n",
   str% "          365\\d{6}|\n",
   str% "          (?:\n",
   str% "            [124579]\\d|\n",
   str% "            60|\n",
   str% "            88\n",
   str% "          )\\d{7}\n",
   str% "        </nationalNumberPattern>\n",
   str% "      </generalDesc>\n",
   str% "      <!-- 12109 fixed line numbers are mentioned as \"Information Operator Assistance\"\n",
   str% "           by ITU. Added it to fixedline numbers as whole 12 range numbers are fixedline\n",
   str% "           numbers in Baku. -->\n",
   str% "      <fixedLine>\n",
   str% "        <possibleLengths national=\"9\" localOnly=\"7\"/>\n",
   str% "        <exampleNumber>123123456</exampleNumber>\n",
   str% "        <nationalNumberPattern>\n",
   str% "          (?:\n",
   str% "            2[12]428|\n",
   str% "            3655[02]\n",
   str% "          )\\d{4}|\n",
   str% "          (?:\n",
   str% "            2(?:\n",
   str% "              22[0-79]|\n",
   str% "              63[0-28]\n",
   str% "            )|\n",
   str% "            3654\n",
   str% "          )\\d{5}|\n",
   str% "          (?:\n",
   str% "            (?:\n",
   str% "              1[28]|\n",
   str% "              46\n",
   str% "            )\\d|\n",
   str% "            2(?:\n",
   str% "              [014-6]2|\n",
   str% "              [23]3\n",
   str% "            )\n",
   str% "          )\\d{6}\n",
   str% "        </nationalNumberPattern>\n",
   str% "      </fixedLine>\n",
   str% "      <!-- Prefix 36554 is added to mobile as per confirmation from Ministry of\n",
   str% "           Communications in Azerbaijan. -->\n",
   str% "      <mobile>\n",
   str% "        <possibleLengths national=\"9\"/>\n",
   str% "        <exampleNumber>401234567</exampleNumber>\n",
   str% "        <nationalNumberPattern>\n",
   str% "          36554\\d{4}|\n",
   str% "          (?:\n",
   str% "            [16]0|\n",
   str% "            4[04]|\n",
   str% "            5[015]|\n",
   str% "            7[07]|\n",
   str% "            99\n",
   str% "          )\\d{7}\n",
   str% "        </nationalNumberPattern>\n",
   str% "      </mobile>\n",
   str% "      <!-- 88 is listed as fixed-line for Baku in the ITU document, but online numbers seem to\n",
   str% "           suggest they are in fact national toll-free numbers. -->\n",
   str% "      <tollFree>\n",
   str% "        <possibleLengths national=\"9\"/>\n",
   str% "        <exampleNumber>881234567</exampleNumber>\n",
   str% "        <nationalNumberPattern>88\\d{7}</nationalNumberPattern>\n",
   str% "      </tollFree>\n",
   str% "      <!-- These are marked as Interactive Calls in the ITU document. -->\n",
   str% "      <premiumRate>\n",
   str% "        <possibleLengths national=\"9\"/>\n",
   str% "        <exampleNumber>900200123</exampleNumber>\n",
   str% "        <nationalNumberPattern>900200\\d{3}</nationalNumberPattern>\n",
   str% "      </premiumRate>\n",
   str% "    </territory>"]

/-- the text up to the end of territory id=BA countryCode=387 -/
noncomputable def BA : List Str :=
  [str% "\n",
   str% "\n",
   str% "    <!-- Bosnia & Herzegovina (BA) -->\n",
   str% "    <!-- accessible from http://www.cra.ba/en/telecom/numbering/ -->\n",
   str% "    <!-- http://www.rak.ba/eng/index.php?uid=1272016657 -->\n",
   str% "    <!-- http://en.wikipedia.org/wiki/+387 -->\n",
   str% "    <territory id=\"BA\" countryCode=\"387\" internationalPrefix=\"00\" nationalPrefix=\"0\"\n",
   str% "               mobileNumberPortableRegion=\"true\">\n",
   str% "      <availableFormats>\n",
   str% "        <numberFormat pattern=\"(\\d{3})(\\d{3})\">\n",
   str% "          <leadingDigits>[2-9]</leadingDigits>\n",
   str% "          <format>$1-$2</format>\n",
   str% "          <intlFormat>NA</intlFormat>\n",
   str% "        </numberFormat>\n",
   str% "        <numberFormat pattern=\"(\\d{2})(\\d{3})(\\d{3})\" nationalPrefixFormattingRule=\"$NP$FG\">\n",
   str% "          <leadingDigits>\n",
   str% "            6[1-3]|\n",
   str% "            [7-9]\n",
   str% "          </leadingDigits>\n",
   str% "          <format>$1 $2 $3</format>\n",
   str% "        </numberFormat>\n",
   str% "        <numberFormat pattern=\"(\\d{2})(\\d{3})(\\d{3})\" nationalPrefixFormattingRule=\"$NP$FG\">\n",
   str% "          <leadingDigits>\n",
   str% "            [3-5]|\n",
   str% "            6[56]\n",
   str% "          </leadingDigits>\n",
   str% "          <format>$1 $2-$3</format>\n",
   str% "        </numberFormat>\n",
   str% "        <!-- 9-digit mobile. -->\n",
   str% "        <numberFormat pattern=\"(\\d{2})(\\d{2})(\\d{2})(\\d{3})\" nationalPrefixFormattingRule=\"$NP$FG\">\n",
   str% "          <leadingDigits>6</leadingDigits>\n",
   str% "          <format>$1 $2 $3 $4</format>\n",
   str% "        </numberFormat>\n",
   str% "      </availableFormats>\n",
   str% "      <generalDesc>\n",
   str% "        <nationalNumberPattern>\n",
   str% "          6\\d{8}|\n",
   str% "          (?:\n",
   str% "            [35689]\\d|\n",
   str% "            49|\n",
   str% "            70\n",
   str% "          )\\d{6}\n",
   str% "        </nationalNumberPattern>\n",
   str% "      </generalDesc>\n",
   str% "      <!-- For easier maintenance, supporting ranges at 3 digit granularity vs 4 digit granular\n",
   str% "           ranges mentioned in RAK's doc. -->\n",
   str% "      <fixedLine>\n",
   str% "        <possibleLengths national=\"8\" localOnly=\"6\"/>\n",
   str% "        <exampleNumber>30212345</exampleNumber>\n",
   str% "        <nationalNumberPattern>\n",
   str% "          (?:\n",
   str% "            3(?:\n",
   str% "              [05-79][2-9]|\n",
   str% "              1[4579]|\n",
   str% "              [23][24-9]|\n",
   str% "              4[2-4689]|\n",
   str% "              8[2457-9]\n",
   str% "            )|\n",
   str% "            49[2-579]|\n",
   str% "            5(?:\n",
   str% "              0[2-49]|\n",
   str% "              [13][2-9]|\n",
   str% "              [268][2-4679]|\n",
   str% "              4[4689]|\n",
   str% "              5[2-79]|\n",
   str% "              7[2-69]|\n",
   str% "              9[2-4689]\n",
   str% "            )\n",
   str% "          )\\d{5}\n",
   str% "        </nationalNumberPattern>\n",
   str% "      </fixedLine>\n",
   str% "      <mobile>\n",
   str% "        <possibleLengths national=\"8,9\"/>\n",
   str% "        <exampleNumber>61123456</exampleNumber>\n",
   str% "        <nationalNumberPattern>\n",
   str% "          6040\\d{5}|\n",
   str% "          6(?:\n",
   str% "            03|\n",
   str% "            [1-356]|\n",
   str% "            44|\n",
   str% "            7\\d\n",
   str% "          )\\d{6}\n",
   str% "        </nationalNumberPattern>\n",
   str% "      </mobile>\n",
   str% "      <tollFree>\n",
   str% "        <possibleLengths national=\"8\"/>\n",
   str% "        <exampleNumber>80123456</exampleNumber>\n",
   str% "        <nationalNumberPattern>8[08]\\d{6}</nationalNumberPattern>\n",
   str% "      </tollFree>\n",
   str% "      <premiumRate>\n",
   str% "        <possibleLengths national=\"8\"/>\n",
   str% "        <exampleNumber>90123456</exampleNumber>\n",
   str% "        <nationalNumberPattern>9[0246]\\d{6}</nationalNumberPattern>\n",
   str% "      </premiumRate>\n",
   str% "      <!-- Using this category to model national tariff numbers - these are under Shared Cost in\n",
   str% "           the plan. -->\n",
   str% "      <sharedCost>\n",
   str% "        <possibleLengths national=\"8\"/>\n",
   str% "        <exampleNumber>82123456</exampleNumber>\n",
   str% "        <nationalNumberPattern>8[12]\\d{6}</nationalNumberPattern>\n",
   str% "      </sharedCost>\n",
   str% "      <!-- Using this to classify nomad numbers. 702[0-4] ranges are no longer mentioned in\n",
   str% "           official RAK's doc (Dated 21-11-2017). For easier maintenance, supporting ranges at 4\n",
   str% "           digit granularity vs 4 and 5 digit granular ranges mentioned in RAK's doc. -->\n",
   str% "      <uan>\n",
   str% "        <possibleLengths national=\"8\"/>\n",
   str% "        <exampleNumber>70341234</exampleNumber>\n",
   str% "        <nationalNumberPattern>\n",
   str% "          703[235]0\\d{3}|\n",
   str% "          70(?:\n",
   str% "            2[0-5]|\n",
   str% "            3[0146]|\n",
   str% "            [56]0\n",
   str% "          )\\d{4}\n",
   str% "        </nationalNumberPattern>\n",
   str% "      </uan>\n",
   str% "    </territory>"]

/-- the text up to the end of territory id=BB countryCode=1 -/
noncomputable def BB : List Str :=
  [str% "\n",
   str% "\n",
   str% "    <!-- Barbados (BB) -->\n",
   str% "    <!-- Calling code and formatting shared with 'US' -->\n",
   str% "    <!-- http://www.itu.int/oth/T0202000013/en -->\n",
   str% "    <territory id=\"BB\" countryCode=\"1\" leadingDigits=\"246\" internationalPrefix=\"011\"\n",
   str% "               nationalPrefix=\"1\" nationalPrefixForParsing=\"([2-9]\\d{6})$|1\"\n",
   str% "               nationalPrefixTransformRule=\"246$1\" mobileNumberPortableRegion=\"true\">\n",
   str% "      <generalDesc>\n",
   str% "        <nationalNumberPattern>\n",
   str% "          (?:\n",
   str% "            246|\n",
   str% "            [58]\\d\\d|\n",
   str% "            900\n",
   str% "          )\\d{7}\n",
   str% "        </nationalNumberPattern>\n",
   str% "      </generalDesc>\n",
   str% "      <!-- Fixed Telephony (ATM/IP) and Fixed Wireless phone numbers are supported here. -->\n",
   str% "      <fixedLine>\n",
   str% "        <possibleLengths national=\"10\" localOnly=\"7\"/>\n",
   str% "        <exampleNumber>2464123456</exampleNumber>\n",
   str% "        <nationalNumberPattern>\n",
   str% "          246521[0369]\\d{3}|\n",
   str% "          246(?:\n",
   str% "            2(?:\n",
   str% "              2[78]|\n",
   str% "              7[0-4]\n",
   str% "            )|\n",
   str% "            4(?:\n",
   str% "              1[024-6]|\n",
   str% "              2\\d|\n",
   str% "              3[2-9]\n",
   str% "            )|\n",
   str% "            5(?:\n",
   str% "              20|\n",
   str% "              [34]\\d|\n",
   str% "              54|\n",
   str% "              7[1-3]\n",
   str% "            )|\n",
   str% "            6(?:\n",
   str% "              2\\d|\n",
   str% "              38\n",
   str% "            )|\n",
   str% "            7[35]7|\n",
   str% "            9(?:\n",
   str% "              1[89]|\n",
   str% "              63\n",
   str% "            )\n",
   str% "          )\\d{4}\n",
   str% "        </nationalNumberPattern>\n",
   str% "      </fixedLine>\n",
   str% "      <mobile>\n",
   str% "        <possibleLengths national=\"10\" localOnly=\"7\"/>\n",
   str% "        <exampleNumber>2462501234</exampleNumber>\n",
   str% "        <nationalNumberPattern>\n",
   str% "          246(?:\n",
   str% "            (?:\n",
   str% "              2(?:\n",
   str% "                [3568]\\d|\n",
   str% "                4[0-57-9]\n",
   str% "              )|\n",
   str% "              3(?:\n",
   str% "                5[2-9]|\n",
   str% "                6[0-6]\n",
   str% "              )|\n",
   str% "              4(?:\n",
   str% "                46|\n",
   str% "                5\\d\n",
   str% "              )|\n",
   str% "              69[5-7]|\n",
   str% "              8(?:\n",
   str% "                [2-5]\\d|\n",
   str% "                83\n",
   str% "              )\n",
   str% "            )\\d|\n",
   str% "            52(?:\n",
   str% "              1[147]|\n",
   str% "              20\n",
   str% "            )\n",
   str% "          )\\d{3}\n",
   str% "        </nationalNumberPattern>\n",
   str% "      </mobile>\n",
   str% "      <tollFree>\n",
   str% "        <possibleLengths national=\"10\"/>\n",
   str% "        <exampleNumber>8002123456</exampleNumber>\n",
   str% "        <nationalNumberPattern>\n",
   str% "          8(?:\n",
   str% "            00|\n",
   str% "            33|\n",
   str% "            44|\n",
   str% "            55|\n",
   str% "            66|\n",
   str% "            77|\n",
   str% "            88\n",
   str% "          )[2-9]\\d{6}\n",
   str% "        </nationalNumberPattern>\n",
   str% "      </tollFree>\n",
   str% "      <premiumRate>\n",
   str% "        <possibleLengths national=\"10\" localOnly=\"7\"/>\n",
   str% "        <exampleNumber>9002123456</exampleNumber>\n",
   str% "        <nationalNumberPattern>\n",
   str% "          (?:\n",
   str% "            246976|\n",
   str% "            900[2-9]\\d\\d\n",
   str% "          )\\d{4}\n",
   str% "        </nationalNumberPattern>\n",
   str% "      </premiumRate>\n",
   str% "      <!-- https://www.nationalnanpa.com/number_resource_info/5XX_codes.html -->\n",
   str% "      <personalNumber>\n",
   str% "        <possibleLengths national=\"10\"/>\n",
   str% "        <exampleNumber>5002345678</exampleNumber>\n",
   str% "        <nationalNumberPattern>\n",
   str% "          52(?:\n",
   str% "            3(?:\n",
   str% "              [2-46-9][02-9]\\d|\n",
   str% "              5(?:\n",
   str% "                [02-46-9]\\d|\n",
   str% "                5[0-46-9]\n",
   str% "              )\n",
   str% "            )|\n",
   str% "            4(?:\n",
   str% "              [2-478][02-9]\\d|\n",
   str% "              5(?:\n",
   str% "                [034]\\d|\n",
   str% "                2[024-9]|\n",
   str% "                5[0-46-9]\n",
   str% "              )|\n",
   str% "              6(?:\n",
   str% "                0[1-9]|\n",
   str% "                [2-9]\\d\n",
   str% "              )|\n",
   str% "              9(?:\n",
   str% "                [05-9]\\d|\n",
   str% "                2[0-5]|\n",
   str% "                49\n",
   str% "              )\n",
   str% "            )\n",
   str% "          )\\d{4}|\n",
   str% "          52[34][2-9]1[02-9]\\d{4}|\n",
   str% "          5(?:\n",
   str% "            00|\n",
   str% "            2[125-9]|\n",
   str% "            3[23]|\n",
   str% "            44|\n",
   str% "            66|\n",
   str% "            77|\n",
   str% "            88\n",
   str% "          )[2-9]\\d{6}\n",
   str% "        </nationalNumberPattern>\n",
   str% "      </personalNumber>\n",
   str% "      <voip>\n",
   str% "        <possibleLengths national=\"10\" localOnly=\"7\"/>\n",
   str% "        <exampleNumber>2463101234</exampleNumber>\n",
   str% "        <nationalNumberPattern>24631\\d{5}</nationalNumberPattern>\n",
   str% "      </voip>\n",
   str% "      <!-- Call Centres, CENTREX and Direct Inward Dialling (DID) prefixes have been added under\n",
   str% "           uan. -->\n",
   str% "      <uan>\n",
   str% "        <possibleLengths national=\"10\" localOnly=\"7\"/>\n",
   str% "        <exampleNumber>2464301234</exampleNumber>\n",
   str% "        <nationalNumberPattern>\n",
   str% "          246(?:\n",
   str% "            292|\n",
   str% "            367|\n",
   str% "            4(?:\n",
   str% "              1[7-9]|\n",
   str% "              3[01]|\n",
   str% "              4[47-9]|\n",
   str% "              67\n",
   str% "            )|\n",
   str% "            7(?:\n",
   str% "              1[2-9]|\n",
   str% "              2\\d|\n",
   str% "              3[016]|\n",
   str% "              53\n",
   str% "            )\n",
   str% "          )\\d{4}\n",
   str% "        </nationalNumberPattern>\n",
   str% "      </uan>\n",
   str% "    </territory>"]

/-- the text up to the end of territory id=BD countryCode=880 -/
noncomputable def BD : List Str :=
  [str% "\n",
   str% "\n",
   str% "    <!-- Bangladesh (BD) -->\n",
   str% "    <!-- As per official evidence, 001 and 002 can be used for International dialing covering toll\n",
   str% "         quality and non-toll quality services. But these are not in use according to our tests\n",
   str% "         (see b/29552679). -->\n",
   str% "    <!-- http://www.itu.int/oth/T0202000012/en -->\n",
   str% "    <!-- http://en.wikipedia.org/wiki/Telephone_numbers_in_Bangladesh -->\n",
   str% "    <!-- http://www.btrc.gov.bd/national-numbering-plan -->\n",
   str% "    <territory id=\"BD\" countryCode=\"880\" internationalPrefix=\"00\" nationalPrefix=\"0\">\n",
   str% "      <availableFormats>\n",
   str% "        <numberFormat pattern=\"(\\d{2})(\\d{4,6})\" nationalPrefixFormattingRule=\"$NP$FG\">\n",
   str% "          <leadingDigits>\n",
   str% "            31[5-8]|\n",
   str% "            [459]1\n",
   str% "          </leadingDigits>\n",
   str% "          <format>$1-$2</format>\n",
   str% "        </numberFormat>\n",
   str% "        <numberFormat pattern=\"(\\d{3})(\\d{3,7})\" nationalPrefixFormattingRule=\"$NP$FG\">\n",
   str% "          <leadingDigits>\n",
   str% "            3(?:\n",
   str% "              [67]|\n",
   str% "              8[013-9]\n",
   str% "            )|\n",
   str% "            4(?:\n",
   str% "              6[168]|\n",
   str% "              7|\n",
   str% "              [89][18]\n",
   str% "            )|\n",
   str% "            5(?:\n",
   str% "              6[128]|\n",
   str% "              9\n",
   str% "            )|\n",
   str% "            6(?:\n",
   str% "              [15]|\n",
   str% "              28|\n",
   str% "              4[14]\n",
   str% "            )|\n",
   str% "            7[2-589]|\n",
   str% "            8(?:\n",
   str% "              0[014-9]|\n",
   str% "              [12]\n",
   str% "            )|\n",
   str% "            9[358]|\n",
   str% "            (?:\n",
   str% "              3[2-5]|\n",
   str% "              4[235]|\n",
   str% "              5[2-578]|\n",
   str% "              6[0389]|\n",
   str% "              76|\n",
   str% "              8[3-7]|\n",
   str% "              9[24]\n",
   str% "            )1|\n",
   str% "            (?:\n",
   str% "              44|\n",
   str% "              66\n",
   str% "            )[01346-9]\n",
   str% "          </leadingDigits>\n",
   str% "          <format>$1-$2</format>\n",
   str% "        </numberFormat>\n",
   str% "        <!-- Mobile numbers, VOIP, and four-digit fixed-line area codes. We use the same format for\n",
   str% "             all VOIP numbers as they are not consistent and these ranges are assigned at 4 digit\n",
   str% "             granularity. -->\n",
   str% "        <numberFormat pattern=\"(\\d{4})(\\d{3,6})\" nationalPrefixFormattingRule=\"$NP$FG\">\n",
   str% "          <leadingDigits>\n",
   str% "            [13-9]|\n",
   str% "            2[23]\n",
   str% "          </leadingDigits>\n",
   str% "          <format>$1-$2</format>\n",
   str% "        </numberFormat>\n",
   str% "        <numberFormat pattern=\"(\\d)(\\d{7,8})\" nationalPrefixFormattingRule=\"$NP$FG\">\n",
   str% "          <leadingDigits>2</leadingDigits>\n",
   str% "          <format>$1-$2</format>\n",
   str% "        </numberFormat>\n",
   str% "      </availableFormats>\n",
   str% "      <generalDesc>\n",
   str% "        <nationalNumberPattern>\n",
   str% "          [1-469]\\d{9}|\n",
   str% "          8[0-79]\\d{7,8}|\n",
   str% "          [2-79]\\d{8}|\n",
   str% "          [2-9]\\d{7}|\n",
   str% "          [3-9]\\d{6}|\n",
   str% "          [57-9]\\d{5}\n",
   str% "        </nationalNumberPattern>\n",
   str% "      </generalDesc>\n",
   str% "      <!-- It might be that lengths 6-8 are local numbers only. Documentation is poor on\n",
   str% "           Bangladesh numbers. -->\n",
   str% "      <!-- There was a plan to move to 10 digit fixed-line numbers, but this does not seem to have\n",
   str% "           been realised, judging by online numbers and wikipedia. These patterns are grouped\n",
   str% "           first by leading digit, then within by number of digits. Several Dhaka prefixes(02 731,\n",
   str% "           02 890, 02 910, 02 550 etc.) are included despite not being mentioned on Wikipedia /\n",
   str% "           ITU due to online evidence. Another oddity is Chittagong - some numbers have a leading\n",
   str% "           2, others do not - both are allowed for now. For some area codes, the subscriber number\n",
   str% "           length described in our source documentation doesn't match numbers online (e.g. 05222)\n",
   str% "           so we allow both for now. (This applies to 0431, 04329, 04623, 05327 as well). We have\n",
   str% "           also added 04452 and 04923 from numbers found online. Included prefixes 2778, 2841, 2893,\n",
   str% "           2963, 298[59] and 4462 as per user report. 9-digit 24 and 25 prefix numbers were added\n",
   str% "           based on user reports, although a doc from BRTC mentions that they are 10-digit numbers,\n",
   str% "           which we think might be a typo. -->\n",
   str% "      <fixedLine>\n",
   str% "        <possibleLengths national=\"[6-10]\"/>\n",
   str% "        <exampleNumber>27111234</exampleNumber>\n",
   str% "        <nationalNumberPattern>\n",
   str% "          (?:\n",
   str% "            4(?:\n",
   str% "              31\\d\\d|\n",
   str% "              423\n",
   str% "            )|\n",
   str% "            5222\n",
   str% "          )\\d{3}(?:\n",
   str% "            \\d{2}\n",
   str% "          )?|\n",
   str% "          8332[6-9]\\d\\d|\n",
   str% "          (?:\n",
   str% "            3(?:\n",
   str% "              03[56]|\n",
   str% "              224\n",
   str% "            )|\n",
   str% "            4(?:\n",
   str% "              22[25]|\n",
   str% "              653\n",
   str% "            )\n",
   str% "          )\\d{3,4}|\n",
   str% "          (?:\n",
   str% "            3(?:\n",
   str% "              42[47]|\n",
   str% "              529|\n",
   str% "              823\n",
   str% "            )|\n",
   str% "            4(?:\n",
   str% "              027|\n",
   str% "              525|\n",
   str% "              65(?:\n",
   str% "                28|\n",
   str% "                8\n",
   str% "              )\n",
   str% "            )|\n",
   str% "            562|\n",
   str% "            6257|\n",
   str% "            7(?:\n",
   str% "              1(?:\n",
   str% "                5[3-5]|\n",
   str% "                6[12]|\n",
   str% "                7[156]|\n",
   str% "                89\n",
   str% "              )|\n",
   str% "              22[589]56|\n",
   str% "              32|\n",
   str% "              42675|\n",
   str% "              52(?:\n",
   str% "                [25689](?:\n",
   str% "                  56|\n",
   str% "                  8\n",
   str% "                )|\n",
   str% "                [347]8\n",
   str% "              )|\n",
   str% "              71(?:\n",
   str% "                6[1267]|\n",
   str% "                75|\n",
   str% "                89\n",
   str% "              )|\n",
   str% "              92374\n",
   str% "            )|\n",
   str% "            82(?:\n",
   str% "              2[59]|\n",
   str% "              32\n",
   str% "            )56|\n",
   str% "            9(?:\n",
   str% "              03[23]56|\n",
   str% "              23(?:\n",
   str% "                256|\n",
   str% "                373\n",
   str% "              )|\n",
   str% "              31|\n",
   str% "              5(?:\n",
   str% "                1|\n",
   str% "                2[4589]56\n",
   str% "              )\n",
   str% "            )\n",
   str% "          )\\d{3}|\n",
   str% "          (?:\n",
   str% "            3(?:\n",
   str% "              02[348]|\n",
   str% "              22[35]|\n",
   str% "              324|\n",
   str% "              422\n",
   str% "            )|\n",
   str% "            4(?:\n",
   str% "              22[67]|\n",
   str% "              32[236-9]|\n",
   str% "              6(?:\n",
   str% "                2[46]|\n",
   str% "                5[57]\n",
   str% "              )|\n",
   str% "              953\n",
   str% "            )|\n",
   str% "            5526|\n",
   str% "            6(?:\n",
   str% "              024|\n",
   str% "              6655\n",
   str% "            )|\n",
   str% "            81\n",
   str% "          )\\d{4,5}|\n",
   str% "          (?:\n",
   str% "            2(?:\n",
   str% "              7(?:\n",
   str% "                1[0-267]|\n",
   str% "                2[0-289]|\n",
   str% "                3[0-29]|\n",
   str% "                4[01]|\n",
   str% "                5[1-3]|\n",
   str% "                6[013]|\n",
   str% "                7[0178]|\n",
   str% "                91\n",
   str% "              )|\n",
   str% "              8(?:\n",
   str% "                0[125]|\n",
   str% "                1[1-6]|\n",
   str% "                2[0157-9]|\n",
   str% "                3[1-69]|\n",
   str% "                41|\n",
   str% "                6[1-35]|\n",
   str% "                7[1-5]|\n",
   str% "                8[1-8]|\n",
   str% "                9[0-6]\n",
   str% "              )|\n",
   str% "              9(?:\n",
   str% "                0[0-2]|\n",
   str% "                1[0-4]|\n",
   str% "                2[568]|\n",
   str% "                3[3-6]|\n",
   str% "                5[5-7]|\n",
   str% "                6[0136-9]|\n",
   str% "                7[0-7]|\n",
   str% "                8[014-9]\n",
   str% "              )\n",
   str% "            )|\n",
   str% "            3(?:\n",
   str% "              0(?:\n",
   str% "                2[025-79]|\n",
   str% "                3[2-4]\n",
   str% "              )|\n",
   str% "              181|\n",
   str% "              22[12]|\n",
   str% "              32[2356]|\n",
   str% "              824\n",
   str% "            )|\n",
   str% "            4(?:\n",
   str% "              02[09]|\n",
   str% "              22[348]|\n",
   str% "              32[045]|\n",
   str% "              523|\n",
   str% "              6(?:\n",
   str% "                27|\n",
   str% "                54\n",
   str% "              )\n",
   str% "            )|\n",
   str% "            666(?:\n",
   str% "              22|\n",
   str% "              53\n",
   str% "            )|\n",
   str% "            7(?:\n",
   str% "              22[57-9]|\n",
   str% "              42[56]|\n",
   str% "              82[35]\n",
   str% "            )8|\n",
   str% "            8(?:\n",
   str% "              0[124-9]|\n",
   str% "              2(?:\n",
   str% "                181|\n",
   str% "                2[02-4679]8\n",
   str% "              )|\n",
   str% "              4[12]|\n",
   str% "              [5-7]2\n",
   str% "            )|\n",
   str% "            9(?:\n",
   str% "              [04]2|\n",
   str% "              2(?:\n",
   str% "                2|\n",
   str% "                328\n",
   str% "              )|\n",
   str% "              81\n",
   str% "            )\n",
   str% "          )\\d{4}|\n",
   str% "          (?:\n",
   str% "            2(?:\n",
   str% "              [23]\\d|\n",
   str% "              [45]\n",
   str% "            )\\d\\d|\n",
   str% "            3(?:\n",
   str% "              1(?:\n",
   str% "                2[5-7]|\n",
   str% "                [5-7]\n",
   str% "              )|\n",
   str% "              425|\n",
   str% "              822\n",
   str% "            )|\n",
   str% "            4(?:\n",
   str% "              033|\n",
   str% "              1\\d|\n",
   str% "              [257]1|\n",
   str% "              332|\n",
   str% "              4(?:\n",
   str% "                2[246]|\n",
   str% "                5[25]\n",
   str% "              )|\n",
   str% "              6(?:\n",
   str% "                2[35]|\n",
   str% "                56|\n",
   str% "                62\n",
   str% "              )|\n",
   str% "              8(?:\n",
   str% "                23|\n",
   str% "                54\n",
   str% "              )|\n",
   str% "              92[2-5]\n",
   str% "            )|\n",
   str% "            5(?:\n",
   str% "              02[03489]|\n",
   str% "              22[457]|\n",
   str% "              32[35-79]|\n",
   str% "              42[46]|\n",
   str% "              6(?:\n",
   str% "                [18]|\n",
   str% "                53\n",
   str% "              )|\n",
   str% "              724|\n",
   str% "              826\n",
   str% "            )|\n",
   str% "            6(?:\n",
   str% "              023|\n",
   str% "              2(?:\n",
   str% "                2[2-5]|\n",
   str% "                5[3-5]|\n",
   str% "                8\n",
   str% "              )|\n",
   str% "              32[3478]|\n",
   str% "              42[34]|\n",
   str% "              52[47]|\n",
   str% "              6(?:\n",
   str% "                [18]|\n",
   str% "                6(?:\n",
   str% "                  2[34]|\n",
   str% "                  5[24]\n",
   str% "                )\n",
   str% "              )|\n",
   str% "              [78]2[2-5]|\n",
   str% "              92[2-6]\n",
   str% "            )|\n",
   str% "            7(?:\n",
   str% "              02|\n",
   str% "              21\\d|\n",
   str% "              [3-589]1|\n",
   str% "              6[12]|\n",
   str% "              72[24]\n",
   str% "            )|\n",
   str% "            8(?:\n",
   str% "              217|\n",
   str% "              3[12]|\n",
   str% "              [5-7]1\n",
   str% "            )|\n",
   str% "            9[24]1\n",
   str% "          )\\d{5}|\n",
   str% "          (?:\n",
   str% "            (?:\n",
   str% "              3[2-8]|\n",
   str% "              5[2-57-9]|\n",
   str% "              6[03-589]\n",
   str% "            )1|\n",
   str% "            4[4689][18]\n",
   str% "          )\\d{5}|\n",
   str% "          [59]1\\d{5}\n",
   str% "        </nationalNumberPattern>\n",
   str% "      </fixedLine>\n",
   str% "      <!-- Presuming that mobile numbers with the prefixes 66, 37, 44 and 38 must be followed by\n",
   str% "           numbers [02-9] or they would clash with fixed-line codes. According to the plan, mobile\n",
   str% "           numbers should be moving to 1[13-9] anyway. -->\n",
   str% "      <mobile>\n",
   str% "        <possibleLengths national=\"10\"/>\n",
   str% "        <exampleNumber>1812345678</exampleNumber>\n",
   str% "        <nationalNumberPattern>\n",
   str% "          (?:\n",
   str% "            1[13-9]\\d|\n",
   str% "            644\n",
   str% "          )\\d{7}|\n",
   str% "          (?:\n",
   str% "            3[78]|\n",
   str% "            44|\n",
   str% "            66\n",
   str% "          )[02-9]\\d{7}\n",
   str% "        </nationalNumberPattern>\n",
   str% "      </mobile>\n",
   str% "      <!-- Note: Including Tele-voting numbers here as they are free of charge. -->\n",
   str% "      <tollFree>\n",
   str% "        <possibleLengths national=\"10\"/>\n",
   str% "        <exampleNumber>8001234567</exampleNumber>\n",
   str% "        <nationalNumberPattern>80[03]\\d{7}</nationalNumberPattern>\n",
   str% "      </tollFree>\n",
   str% "      <!-- Prefix 9643 added as per user report. -->\n",
   str% "      <voip>\n",
   str% "        <possibleLengths national=\"10\"/>\n",
   str% "        <exampleNumber>9604123456</exampleNumber>\n",
   str% "        <nationalNumberPattern>\n",
   str% "          96(?:\n",
   str% "            0[469]|\n",
   str% "            1[0-47]|\n",
   str% "            3[389]|\n",
   str% "            43|\n",
   str% "            6[69]|\n",
   str% "            7[78]\n",
   str% "          )\\d{6}\n",
   str% "        </nationalNumberPattern>\n",
   str% "      </voip>\n",
   str% "    </territory>"]

/-- the text up to the end of territory id=BE countryCode=32 -/
noncomputable def BE : List Str :=
  [str% "\n",
   str% "\n",
   str% "    <!-- Belgium (BE) -->\n",
   str% "    <!-- https://www.bipt.be/operatoren/publicatie/nationaal-nummeringsplan -->\n",
   str% "    <!-- https://www.bipt.be/operatoren/publicatie/databank-gereserveerde-en-toegewezen-nummers -->\n",
   str% "    <!-- http://en.wikipedia.org/wiki/Telephone_numbers_in_Belgium -->\n",
   str% "    <territory id=\"BE\" countryCode=\"32\" internationalPrefix=\"00\" nationalPrefix=\"0\"\n",
   str% "               mobileNumberPortableRegion=\"true\">\n",
   str% "      <availableFormats>\n",
   str% "        <numberFormat pattern=\"(\\d{3})(\\d{2})(\\d{3})\" nationalPrefixFormattingRule=\"$NP$FG\">\n",
   str% "          <leadingDigits>\n",
   str% "            (?:\n",
   str% "              80|\n",
   str% "              9\n",
   str% "            )0\n",
   str% "          </leadingDigits>\n",
   str% "          <format>$1 $2 $3</format>\n",
   str% "        </numberFormat>\n",
   str% "        <numberFormat pattern=\"(\\d)(\\d{3})(\\d{2})(\\d{2})\" nationalPrefixFormattingRule=\"$NP$FG\">\n",
   str% "          <leadingDigits>\n",
   str% "            [239]|\n",
   str% "            4[23]\n",
   str% "          </leadingDigits>\n",
   str% "          <format>$1 $2 $3 $4</format>\n",
   str% "        </numberFormat>\n",
   str% "        <numberFormat pattern=\"(\\d{2})(\\d{2})(\\d{2})(\\d{2})\" nationalPrefixFormattingRule=\"$NP$FG\">\n",
   str% "          <leadingDigits>[15-8]</leadingDigits>\n",
   str% "          <format>$1 $2 $3 $4</format>\n",
   str% "        </numberFormat>\n",
   str% "        <numberFormat pattern=\"(\\d{3})(\\d{2})(\\d{2})(\\d{2})\" nationalPrefixFormattingRule=\"$NP$FG\">\n",
   str% "          <leadingDigits>4</leadingDigits>\n",
   str% "          <format>$1 $2 $3 $4</format>\n",
   str% "        </numberFormat>\n",
   str% "      </availableFormats>\n",
   str% "      <generalDesc>\n",
   str% "        <nationalNumberPattern>\n",
   str% "          4\\d{8}|\n",
   str% "          [1-9]\\d{7}\n",
   str% "        </nationalNumberPattern>\n",
   str% "      </generalDesc>\n",
   str% "      <fixedLine>\n",
   str% "        <possibleLengths national=\"8\"/>\n",
   str% "        <exampleNumber>12345678</exampleNumber>\n",
   str% "        <nationalNumberPattern>\n",
   str% "          80[2-8]\\d{5}|\n",
   str% "          (?:\n",
   str% "            1[0-69]|\n",
   str% "            [23][2-8]|\n",
   str% "            4[23]|\n",
   str% "            5\\d|\n",
   str% "            6[013-57-9]|\n",
   str% "            71|\n",
   str% "            8[1-79]|\n",
   str% "            9[2-4]\n",
   str% "          )\\d{6}\n",
   str% "        </nationalNumberPattern>\n",
   str% "      </fixedLine>\n",
   str% "      <mobile>\n",
   str% "        <possibleLengths national=\"9\"/>\n",
   str% "        <exampleNumber>450001234</exampleNumber>\n",
   str% "        <nationalNumberPattern>4[5-9]\\d{7}</nationalNumberPattern>\n",
   str% "      </mobile>\n",
   str% "      <tollFree>\n",
   str% "        <possibleLengths national=\"8\"/>\n",
   str% "        <exampleNumber>80012345</exampleNumber>\n",
   str% "        <nationalNumberPattern>800[1-9]\\d{4}</nationalNumberPattern>\n",
   str% "      </tollFree>\n",
   str% "      <premiumRate>\n",
   str% "        <possibleLengths national=\"8\"/>\n",
   str% "        <exampleNumber>90012345</exampleNumber>\n",
   str% "        <nationalNumberPattern>\n",
   str% "          (?:\n",
   str% "            70(?:\n",
   str% "              2[0-57]|\n",
   str% "              3[04-7]|\n",
   str% "              44|\n",
   str% "              6[04-69]|\n",
   str% "              7[0579]\n",
   str% "            )|\n",
   str% "            90\\d\\d\n",
   str% "          )\\d{4}\n",
   str% "        </nationalNumberPattern>\n",
   str% "      </premiumRate>\n",
   str% "      <sharedCost>\n",
   str% "        <possibleLengths national=\"8\"/>\n",
   str% "        <exampleNumber>78791234</exampleNumber>\n",
   str% "        <nationalNumberPattern>7879\\d{4}</nationalNumberPattern>\n",
   str% "      </sharedCost>\n",
   str% "      <!-- 78X numbers are nomadic and standard rate as per voipgate.com and Wikipedia. And these\n",
   str% "           are customer care numbers as per online results. Supporting here as UAN is closest\n",
   str% "           match. http://www.voipgate.com/site/news/newsflash/new-numbers-available-the-netherlands-and-austria.html -->\n",
   str% "      <uan>\n",
   str% "        <possibleLengths national=\"8\"/>\n",
   str% "        <exampleNumber>78102345</exampleNumber>\n",
   str% "        <nationalNumberPattern>\n",
   str% "          78(?:\n",
   str% "            0[578]|\n",
   str% "            1[014-8]|\n",
   str% "            2[25]|\n",
   str% "            3[15-8]|\n",
   str% "            48|\n",
   str% "            5[05]|\n",
   str% "            60|\n",
   str% "            7[06-8]|\n",
   str% "            9\\d\n",
   str% "          )\\d{4}\n",
   str% "        </nationalNumberPattern>\n",
   str% "      </uan>\n",
   str% "    </territory>"]

/-- the text up to the end of territory id=BF countryCode=226 -/
noncomputable def BF : List Str :=
  [str% "\n",
   str% "\n",
   str% "    <!-- Burkina Faso (BF) -->\n",
   str% "    <!-- http://www.itu.int/oth/T0202000021/en -->\n",
   str% "    <!-- http://www.onatel.bf/plan-national-de-numerotation.aspx -->\n",
   str% "    <territory id=\"BF\" countryCode=\"226\" internationalPrefix=\"00\">\n",
   str% "      <availableFormats>\n",
   str% "        <!-- The national numbering plan from ITU suggests grouping of 2, 2 and 4, but we have\n",
   str% "             chosen to use the standard from numbers found on the internet instead. -->\n",
   str% "        <numberFormat pattern=\"(\\d{2})(\\d{2})(\\d{2})(\\d{2})\">\n",
   str% "          <leadingDigits>[024-7]</leadingDigits>\n",
   str% "          <format>$1 $2 $3 $4</format>\n",
   str% "        </numberFormat>\n",
   str% "      </availableFormats>\n",
   str% "      <generalDesc>\n",
   str% "        <nationalNumberPattern>[024-7]\\d{7}</nationalNumberPattern>\n",
   str% "      </generalDesc>\n",
   str% "      <fixedLine>\n",
   str% "        <possibleLengths national=\"8\"/>\n",
   str% "        <exampleNumber>20491234</exampleNumber>\n",
   str% "        <nationalNumberPattern>\n",
   str% "          2(?:\n",
   str% "            0(?:\n",
   str% "              49|\n",
   str% "              5[23]|\n",
   str% "              6[5-7]|\n",
   str% "              9[016-9]\n",
   str% "            )|\n",
   str% "            4(?:\n",
   str% "              4[569]|\n",
   str% "              5[4-6]|\n",
   str% "              6[5-7]|\n",
   str% "              7[0179]\n",
   str% "            )|\n",
   str% "            5(?:\n",
   str% "              [34]\\d|\n",
   str% "              50|\n",
   str% "              6[5-8]\n",
   str% "            )\n",
   str% "          )\\d{4}\n",
   str% "        </nationalNumberPattern>\n",
   str% "      </fixedLine>\n",
   str% "      <mobile>\n",
   str% "        <possibleLengths national=\"8\"/>\n",
   str% "        <exampleNumber>70123456</exampleNumber>\n",
   str% "        <nationalNumberPattern>\n",
   str% "          (?:\n",
   str% "            0[1-7]|\n",
   str% "            4[4-6]|\n",
   str% "            5[0-8]|\n",
   str% "            [67]\\d\n",
   str% "          )\\d{6}\n",
   str% "        </nationalNumberPattern>\n",
   str% "      </mobile>\n",
   str% "    </territory>"]

/-- the text up to the end of territory id=BG countryCode=359 -/
noncomputable def BG : List Str :=
  [str% "\n",
   str% "\n",
   str% "    <!-- Bulgaria (BG) -->\n",
   str% "    <!-- http://www.itu.int/oth/T0202000020/en -->\n",
   str% "    <!-- https://en.wikipedia.org/wiki/Telephone_numbers_in_Bulgaria -->\n",
   str% "    <territory id=\"BG\" countryCode=\"359\" internationalPrefix=\"00\" nationalPrefix=\"0\"\n",
   str% "               mobileNumberPortableRegion=\"true\">\n",
   str% "      <availableFormats>\n",
   str% "        <!-- 6-digit shortcodes. -->\n",
   str% "        <numberFormat pattern=\"(\\d{6})\">\n",
   str% "          <leadingDigits>1</leadingDigits>\n",
   str% "          <format>$1</format>\n",
   str% "          <intlFormat>NA</intlFormat>\n",
   str% "        </numberFormat>\n",
   str% "        <!-- Formatting rules follow the conventions seen in web-search results. A space has been\n",
   str% "             used to separate the area code from the rest of the number, based on sites like\n",
   str% "             http://www.goldenpages.bg. -->\n",
   str% "        <numberFormat pattern=\"(\\d)(\\d)(\\d{2})(\\d{2})\" nationalPrefixFormattingRule=\"$NP$FG\">\n",
   str% "          <leadingDigits>2</leadingDigits>\n",
   str% "          <format>$1 $2 $3 $4</format>\n",
   str% "        </numberFormat>\n",
   str% "        <numberFormat pattern=\"(\\d{3})(\\d{4})\" nationalPrefixFormattingRule=\"$NP$FG\">\n",
   str% "          <leadingDigits>\n",
   str% "            43[1-6]|\n",
   str% "            70[1-9]\n",
   str% "          </leadingDigits>\n",
   str% "          <format>$1 $2</format>\n",
   str% "        </numberFormat>\n",
   str% "        <numberFormat pattern=\"(\\d)(\\d{3})(\\d{3,4})\" nationalPrefixFormattingRule=\"$NP$FG\">\n",
   str% "          <leadingDigits>2</leadingDigits>\n",
   str% "          <format>$1 $2 $3</format>\n",
   str% "        </numberFormat>\n",
   str% "        <numberFormat pattern=\"(\\d{2})(\\d{3})(\\d{2,3})\" nationalPrefixFormattingRule=\"$NP$FG\">\n",
   str% "          <leadingDigits>\n",
   str% "            [356]|\n",
   str% "            4[124-7]|\n",
   str% "            7[1-9]|\n",
   str% "            8[1-6]|\n",
   str% "            9[1-7]\n",
   str% "          </leadingDigits>\n",
   str% "          <format>$1 $2 $3</format>\n",
   str% "        </numberFormat>\n",
   str% "        <!-- Personal numbers & toll free. -->\n",
   str% "        <numberFormat pattern=\"(\\d{3})(\\d{2})(\\d{3})\" nationalPrefixFormattingRule=\"$NP$FG\">\n",
   str% "          <leadingDigits>\n",
   str% "            (?:\n",
   str% "              70|\n",
   str% "              8\n",
   str% "            )0\n",
   str% "          </leadingDigits>\n",
   str% "          <format>$1 $2 $3</format>\n",
   str% "        </numberFormat>\n",
   str% "        <numberFormat pattern=\"(\\d{3})(\\d{3})(\\d{2})\" nationalPrefixFormattingRule=\"$NP$FG\">\n",
   str% "          <leadingDigits>\n",
   str% "            43[1-7]|\n",
   str% "            7\n",
   str% "          </leadingDigits>\n",
   str% "          <format>$1 $2 $3</format>\n",
   str% "        </numberFormat>\n",
   str% "        <!-- Mobile and premium rate. -->\n",
   str% "        <numberFormat pattern=\"(\\d{2})(\\d{3})(\\d{3,4})\" nationalPrefixFormattingRule=\"$NP$FG\">\n",
   str% "          <leadingDigits>\n",
   str% "            [48]|\n",
   str% "            9[08]\n",
   str% "          </leadingDigits>\n",
   str% "          <format>$1 $2 $3</format>\n",
   str% "        </numberFormat>\n",
   str% "        <numberFormat pattern=\"(\\d{3})(\\d{3})(\\d{3})\" nationalPrefixFormattingRule=\"$NP$FG\">\n",
   str% "          <leadingDigits>9</leadingDigits>\n",
   str% "          <format>$1 $2 $3</format>\n",
   str% "        </numberFormat>\n",
   str% "      </availableFormats>\n",
   str% "      <generalDesc>\n",
   str% "        <nationalNumberPattern>\n",
   str% "          00800\\d{7}|\n",
   str% "          [2-7]\\d{6,7}|\n",
   str% "          [89]\\d{6,8}|\n",
   str% "          2\\d{5}\n",
   str% "        </nationalNumberPattern>\n",
   str% "      </generalDesc>\n",
   str% "      <!-- We found evidence at least for ranges 28 and 29 followed by 4 digits in 2016, although\n",
   str% "           the latest ITU doc doesn't mention that. -->\n",
   str% "      <fixedLine>\n",
   str% "        <possibleLengths national=\"[6-8]\" localOnly=\"4,5\"/>\n",
   str% "        <exampleNumber>2123456</exampleNumber>\n",
   str% "        <nationalNumberPattern>\n",
   str% "          2\\d{5,7}|\n",
   str% "          (?:\n",
   str% "            43[1-6]|\n",
   str% "            70[1-9]\n",
   str% "          )\\d{4,5}|\n",
   str% "          (?:\n",
   str% "            [36]\\d|\n",
   str% "            4[124-7]|\n",
   str% "            [57][1-9]|\n",
   str% "            8[1-6]|\n",
   str% "            9[1-7]\n",
   str% "          )\\d{5,6}\n",
   str% "        </nationalNumberPattern>\n",
   str% "      </fixedLine>\n",
   str% "      <!-- The range 99\\d{7} is marked as mobile in the ITU doc, but only 996 and 999 seem to be in\n",
   str% "           use, the former based on user reports and online numbers, and the latter based on\n",
   str% "           wikipedia and information received from MAX telecom. -->\n",
   str% "      <mobile>\n",
   str% "        <possibleLengths national=\"8,9\"/>\n",
   str% "        <exampleNumber>43012345</exampleNumber>\n",
   str% "        <nationalNumberPattern>\n",
   str% "          (?:\n",
   str% "            43[07-9]|\n",
   str% "            99[69]\\d\n",
   str% "          )\\d{5}|\n",
   str% "          (?:\n",
   str% "            8[7-9]|\n",
   str% "            98\n",
   str% "          )\\d{7}\n",
   str% "        </nationalNumberPattern>\n",
   str% "      </mobile>\n",
   str% "      <tollFree>\n",
   str% "        <possibleLengths national=\"8,12\"/>\n",
   str% "        <exampleNumber>80012345</exampleNumber>\n",
   str% "        <nationalNumberPattern>\n",
   str% "          (?:\n",
   str% "            00800\\d\\d|\n",
   str% "            800\n",
   str% "          )\\d{5}\n",
   str% "        </nationalNumberPattern>\n",
   str% "      </tollFree>\n",
   str% "      <premiumRate>\n",
   str% "        <possibleLengths national=\"8\"/>\n",
   str% "        <exampleNumber>90123456</exampleNumber>\n",
   str% "        <nationalNumberPattern>90\\d{6}</nationalNumberPattern>\n",
   str% "      </premiumRate>\n",
   str% "      <!-- Prefix 700 is marked as Personal number in the ITU doc, but as per many websites they\n",
   str% "           are shared cost and are charged at a standard price. -->\n",
   str% "      <sharedCost>\n",
   str% "        <possibleLengths national=\"8\"/>\n",
   str% "        <exampleNumber>70012345</exampleNumber>\n",
   str% "        <nationalNumberPattern>700\\d{5}</nationalNumberPattern>\n",
   str% "      </sharedCost>\n",
   str% "    </territory>"]

/-- the text up to the end of territory id=BH countryCode=973 -/
noncomputable def BH : List Str :=
  [str% "\n",
   str% "\n",
   str% "    <!-- Bahrain (BH) -->\n",
   str% "    <!-- http://www.itu.int/oth/T0202000011/en -->\n",
   str% "    <!-- http://www.tra.org.bh/en/marketNumbering.aspx -->\n",
   str% "    <!-- http://en.wikipedia.org/wiki/Telephone_numbers_in_Bahrain -->\n",
   str% "    <territory id=\"BH\" countryCode=\"973\" internationalPrefix=\"00\" mobileNumberPortableRegion=\"true\">\n",
   str% "      <availableFormats>\n",
   str% "        <numberFormat pattern=\"(\\d{4})(\\d{4})\">\n",
   str% "          <leadingDigits>\n",
   str% "            [13679]|\n",
   str% "            8[02-4679]\n",
   str% "          </leadingDigits>\n",
   str% "          <format>$1 $2</format>\n",
   str% "        </numberFormat>\n",
   str% "      </availableFormats>\n",
   str% "      <generalDesc>\n",
   str% "        <nationalNumberPattern>[136-9]\\d{7}</nationalNumberPattern>\n",
   str% "      </generalDesc>\n",
   str% "      <!-- Some ranges were previously described as \"universal\", but in subsequent versions of the\n",
   str% "           ITU doc they have been specified to be mobile or fixed-line. We follow the ITU\n",
   str% "           designations, even though some publications still refer to them as universal. -->\n",
   str% "      <!-- According to http://en.wikipedia.org/wiki/Telephone_numbers_in_Bahrain, the ranges\n",
   str% "           \"6966-6969, 6996, 6999\" are assigned to Rapid. However this contradicts the ITU doc\n",
   str% "           which lists \"6966, 6969, 6996, 6999\". We follow ITU here. -->\n",
   str% "      <fixedLine>\n",
   str% "        <possibleLengths national=\"8\"/>\n",
   str% "        <exampleNumber>17001234</exampleNumber>\n",
   str% "        <nationalNumberPattern>\n",
   str% "          (?:\n",
   str% "            1(?:\n",
   str% "              3[1356]|\n",
   str% "              6[0156]|\n",
   str% "              7\\d\n",
   str% "            )\\d|\n",
   str% "            6(?:\n",
   str% "              1[16]\\d|\n",
   str% "              500|\n",
   str% "              6(?:\n",
   str% "                0\\d|\n",
   str% "                3[12]|\n",
   str% "                44|\n",
   str% "                55|\n",
   str% "                7[7-9]|\n",
   str% "                88\n",
   str% "              )|\n",
   str% "              9[69][69]\n",
   str% "            )|\n",
   str% "            7(?:\n",
   str% "              [07]\\d\\d|\n",
   str% "              1(?:\n",
   str% "                11|\n",
   str% "                78\n",
   str% "              )\n",
   str% "            )\n",
   str% "          )\\d{4}\n",
   str% "        </nationalNumberPattern>\n",
   str% "      </fixedLine>\n",
   str% "      <!-- 31 is assigned to Royal Court, as per documents on Bahrain's own telecom site, even\n",
   str% "           though it is omitted from the ITU document. Based on online evidences added prefix\n",
   str% "           354 to mobile. -->\n",
   str% "      <mobile>\n",
   str% "        <possibleLengths national=\"8\"/>\n",
   str% "        <exampleNumber>36001234</exampleNumber>\n",
   str% "        <nationalNumberPattern>\n",
   str% "          (?:\n",
   str% "            3(?:\n",
   str% "              [0-79]\\d|\n",
   str% "              8[0-57-9]\n",
   str% "            )\\d|\n",
   str% "            6(?:\n",
   str% "              3(?:\n",
   str% "                00|\n",
   str% "                33|\n",
   str% "                6[16]\n",
   str% "              )|\n",
   str% "              441|\n",
   str% "              6(?:\n",
   str% "                3[03-9]|\n",
   str% "                [69]\\d|\n",
   str% "                7[0-689]\n",
   str% "              )\n",
   str% "            )\n",
   str% "          )\\d{4}\n",
   str% "        </nationalNumberPattern>\n",
   str% "      </mobile>\n",
   str% "      <tollFree>\n",
   str% "        <possibleLengths national=\"8\"/>\n",
   str% "        <exampleNumber>80123456</exampleNumber>\n",
   str% "        <nationalNumberPattern>8[02369]\\d{6}</nationalNumberPattern>\n",
   str% "      </tollFree>\n",
   str% "      <!-- 87 numbers are \"wholly paid by the caller\", so they are slotted under premium-rate for\n",
   str% "           now. -->\n",
   str% "      <premiumRate>\n",
   str% "        <possibleLengths national=\"8\"/>\n",
   str% "        <exampleNumber>90123456</exampleNumber>\n",
   str% "        <nationalNumberPattern>\n",
   str% "          (?:\n",
   str% "            87|\n",
   str% "            9[0-8]\n",
   str% "          )\\d{6}\n",
   str% "        </nationalNumberPattern>\n",
   str% "      </premiumRate>\n",
   str% "      <sharedCost>\n",
   str% "        <possibleLengths national=\"8\"/>\n",
   str% "        <exampleNumber>84123456</exampleNumber>\n",
   str% "        <nationalNumberPattern>84\\d{6}</nationalNumberPattern>\n",
   str% "      </sharedCost>\n",
   str% "    </territory>"]

/-- the text up to the end of territory id=BI countryCode=257 -/
noncomputable def BI : List Str :=
  [str% "\n",
   str% "\n",
   str% "    <!-- Burundi (BI) -->\n",
   str% "    <!-- http://www.itu.int/oth/T0202000022/en -->\n",
   str% "    <territory id=\"BI\" countryCode=\"257\" internationalPrefix=\"00\">\n",
   str% "      <availableFormats>\n",
   str% "        <numberFormat pattern=\"(\\d{2})(\\d{2})(\\d{2})(\\d{2})\">\n",
   str% "          <leadingDigits>[2367]</leadingDigits>\n",
   str% "          <format>$1 $2 $3 $4</format>\n",
   str% "        </numberFormat>\n",
   str% "      </availableFormats>\n",
   str% "      <generalDesc>\n",
   str% "        <nationalNumberPattern>\n",
   str% "          (?:\n",
   str% "            [267]\\d|\n",
   str% "            31\n",
   str% "          )\\d{6}\n",
   str% "        </nationalNumberPattern>\n",
   str% "      </generalDesc>\n",
   str% "      <!-- ITU update 17.IV.2015 assigns 22X completely to Onatel fixed line. Earlier  ITU\n",
   str% "           updates (11.IX.2013) were more detailed in that range and only half of it was\n",
   str% "           assigned. Erring on the side of ITU and lenience for now, but we may have to make the\n",
   str% "           range stricter again. -->\n",
   str% "      <fixedLine>\n",
   str% "        <possibleLengths national=\"8\"/>\n",
   str% "        <exampleNumber>22201234</exampleNumber>\n",
   str% "        <nationalNumberPattern>\n",
   str% "          (?:\n",
   str% "            22|\n",
   str% "            31\n",
   str% "          )\\d{6}\n",
   str% "        </nationalNumberPattern>\n",
   str% "      </fixedLine>\n",
   str% "      <!-- Previous ITU doc (version: 11.IX.2013) says 29 range is assigned to\n",
   str% "           \"UCOM CDMA network\". As there is valid number online continuing support to this range\n",
   str% "           eventhough it is not listed in new ITU doc (version: 12.IV.2018). -->\n",
   str% "      <mobile>\n",
   str% "        <possibleLengths national=\"8\"/>\n",
   str% "        <exampleNumber>79561234</exampleNumber>\n",
   str% "        <nationalNumberPattern>\n",
   str% "          (?:\n",
   str% "            29|\n",
   str% "            6[1-9]|\n",
   str% "            7[125-9]\n",
   str% "          )\\d{6}\n",
   str% "        </nationalNumberPattern>\n",
   str% "      </mobile>\n",
   str% "    </territory>"]

/-- the text up to the end of territory id=BJ countryCode=229 -/
noncomputable def BJ : List Str :=
  [str% "\n",
   str% "\n",
   str% "    <!-- Benin (BJ) -->\n",
   str% "    <!-- http://www.itu.int/oth/T0202000017/en -->\n",
   str% "    <!-- https://arcep.bj/les-ressources-en-numerotation/ -->\n",
   str% "    <territory id=\"BJ\" countryCode=\"229\" internationalPrefix=\"00\" mobileNumberPortableRegion=\"true\">\n",
   str% "      <availableFormats>\n",
   str% "        <numberFormat pattern=\"(\\d{2})(\\d{2})(\\d{2})(\\d{2})\">\n",
   str% "          <leadingDigits>8</leadingDigits>\n",
   str% "          <format>$1 $2 $3 $4</format>\n",
   str% "        </numberFormat>\n",
   str% "        <numberFormat pattern=\"(\\d{2})(\\d{2})(\\d{2})(\\d{2})(\\d{2})\">\n",
   str% "          <leadingDigits>0</leadingDigits>\n",
   str% "          <format>$1 $2 $3 $4 $5</format>\n",
   str% "        </numberFormat>\n",
   str% "      </availableFormats>\n",
   str% "      <generalDesc>\n",
   str% "        <nationalNumberPattern>\n",
   str% "          (?:\n",
   str% "            01\\d|\n",
   str% "            8\n",
   str% "          )\\d{7}\n",
   str% "        </nationalNumberPattern>\n",
   str% "      </generalDesc>\n",
   str% "      <!-- These come from the national numbering plan, but have been widened to include other\n",
   str% "           prefixes found in the yellow pages - specifically 21 0. -->\n",
   str% "      <fixedLine>\n",
   str% "        <possibleLengths national=\"10\"/>\n",
   str% "        <exampleNumber>0120211234</exampleNumber>\n",
   str% "        <nationalNumberPattern>012\\d{7}</nationalNumberPattern>\n",
   str% "      </fixedLine>\n",
   str% "      <!-- We have restricted the pattern here to the first two digits, as beyond this the data\n",
   str% "           seems to be no longer accurate. The latest ITU doc (2005) lists 9[0357] and lists\n",
   str% "           other 9x and the complete 6x range as reserved. The prefixes 96 have also been added,\n",
   str% "           along with 6[1267] (seemingly prefixes for Mobile MTN). -->\n",
   str% "      <mobile>\n",
   str% "        <possibleLengths national=\"10\"/>\n",
   str% "        <exampleNumber>0195123456</exampleNumber>\n",
   str% "        <nationalNumberPattern>\n",
   str% "          01(?:\n",
   str% "            2[5-9]|\n",
   str% "            [4-69]\\d\n",
   str% "          )\\d{6}\n",
   str% "        </nationalNumberPattern>\n",
   str% "      </mobile>\n",
   str% "      <voip>\n",
   str% "        <possibleLengths national=\"8\"/>\n",
   str% "        <exampleNumber>85751234</exampleNumber>\n",
   str% "        <nationalNumberPattern>857[58]\\d{4}</nationalNumberPattern>\n",
   str% "      </voip>\n",
   str% "      <!-- Numbers beginning with 81 are reserved for _either_ free phone or shared-cost (same cost\n",
   str% "           as a local-call.) We model these as UAN since we have no more detailed information. -->\n",
   str% "      <uan>\n",
   str% "        <possibleLengths national=\"8\"/>\n",
   str% "        <exampleNumber>81123456</exampleNumber>\n",
   str% "        <nationalNumberPattern>81\\d{6}</nationalNumberPattern>\n",
   str% "      </uan>\n",
   str% "    </territory>"]

/-- the text up to the end of territory id=BL countryCode=590 -/
noncomputable def BL : List Str :=
  [str% "\n",
   str% "\n",
   str% "    <!-- St. Barth\u00E9lemy (BL) -->\n",
   str% "    <!-- Calling code and formatting shared with 'GP' -->\n",
   str% "    <!-- There seems to be some overlap with phone numbers from Saint Martin and Guadeloupe. The\n",
   str% "         national numbering plan does not specify any St Barth\u00E9lemy-specific numbering prefixes, but\n",
   str% "         it appears from searches in online white and yellow pages that a subset of the prefixes\n",
   str% "         available in these regions are used. In these cases, if getRegionCodeForNumber is used, one\n",
   str% "         of these region codes will be returned, although numbers will be valid for both regions. -->\n",
   str% "    <!-- http://www.itu.int/oth/T0202000058/en -->\n",
   str% "    <!-- https://extranet.arcep.fr/portail/Op%C3%A9rateursCE/Num%C3%A9rotation.aspx -->\n",
   str% "    <territory id=\"BL\" countryCode=\"590\" internationalPrefix=\"00\" nationalPrefix=\"0\"\n",
   str% "               mobileNumberPortableRegion=\"true\">\n",
   str% "      <generalDesc>\n",
   str% "        <nationalNumberPattern>\n",
   str% "          7090\\d{5}|\n",
   str% "          (?:\n",
   str% "            [56]9|\n",
   str% "            [89]\\d\n",
   str% "          )\\d{7}\n",
   str% "        </nationalNumberPattern>\n",
   str% "      </generalDesc>\n",
   str% "      <fixedLine>\n",
   str% "        <possibleLengths national=\"9\"/>\n",
   str% "        <exampleNumber>590271234</exampleNumber>\n",
   str% "        <nationalNumberPattern>\n",
   str% "          (?:\n",
   str% "            59(?:\n",
   str% "              0(?:\n",
   str% "                2[7-9]|\n",
   str% "                3[3-7]|\n",
   str% "                5[12]|\n",
   str% "                87\n",
   str% "              )|\n",
   str% "              87\\d\n",
   str% "            )|\n",
   str% "            80[6-9]\\d\\d\n",
   str% "          )\\d{4}\n",
   str% "        </nationalNumberPattern>\n",
   str% "      </fixedLine>\n",
   str% "      <!-- Any ranges assigned from\n",
   str% "           http://www.arcep.fr/index.php?id=interactivenumeros have been listed as belonging to\n",
   str% "           Guadeloupe, St Martin and St Barth\u00E9lemy, since we can't reliably distinguish between\n",
   str% "           them. As per Wikipedia Guadeloupe T\u00E9l\u00E9phone Mobile operator is no longer functioning.\n",
   str% "           However we support these ranges as they are still mentioned in ARCEP numbering plan\n",
   str% "           doc. -->\n",
   str% "      <mobile>\n",
   str% "        <possibleLengths national=\"9\"/>\n",
   str% "        <exampleNumber>690001234</exampleNumber>\n",
   str% "        <nationalNumberPattern>\n",
   str% "          (?:\n",
   str% "            69(?:\n",
   str% "              0\\d\\d|\n",
   str% "              1(?:\n",
   str% "                2[2-9]|\n",
   str% "                3[0-5]\n",
   str% "              )\n",
   str% "            )|\n",
   str% "            7090[0-4]\n",
   str% "          )\\d{4}\n",
   str% "        </nationalNumberPattern>\n",
   str% "      </mobile>\n",
   str% "      <!-- As per ARCEP, mainland France and overseas territories use 0800 to 0805 as Toll-free\n",
   str% "           numbers. -->\n",
   str% "      <tollFree>\n",
   str% "        <possibleLengths national=\"9\"/>\n",
   str% "        <exampleNumber>800012345</exampleNumber>\n",
   str% "        <nationalNumberPattern>80[0-5]\\d{6}</nationalNumberPattern>\n",
   str% "      </tollFree>\n",
   str% "      <premiumRate>\n",
   str% "        <possibleLengths national=\"9\"/>\n",
   str% "        <exampleNumber>810123456</exampleNumber>\n",
   str% "        <nationalNumberPattern>8[129]\\d{7}</nationalNumberPattern>\n",
   str% "      </premiumRate>\n",
   str% "      <voip>\n",
   str% "        <possibleLengths national=\"9\"/>\n",
   str% "        <exampleNumber>976012345</exampleNumber>\n",
   str% "        <nationalNumberPattern>\n",
   str% "          9(?:\n",
   str% "            (?:\n",
   str% "              39[5-7]|\n",
   str% "              76[018]\n",
   str% "            )\\d|\n",
   str% "            475[0-6]\n",
   str% "          )\\d{4}\n",
   str% "        </nationalNumberPattern>\n",
   str% "      </voip>\n",
   str% "    </territory>"]

/-- the text of this module -/
noncomputable def chunk01 : List (List Str) :=
  [AS, AT, AU, AW, AX, AZ, BA, BB, BD, BE, BF, BG, BH, BI, BJ, BL]

end Phone.Data.S
