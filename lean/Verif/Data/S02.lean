import Verif.Basic.Str
/-! Text of `/repo/assets/PhoneNumberMetadata.xml`, in lines. Generated by `tools/gen_xml.py`; do not edit. -/

set_option maxRecDepth 100000
namespace Phone.Data.S

/-- the text up to the end of territory id=BM countryCode=1 -/
noncomputable def BM : List Str :=
  [str% "\n",
   str% "\n",
   str% "    <!-- Bermuda (BM) -->\n",
   str% "    <!-- Calling code and formatting shared with 'US' -->\n",
   str% "    <!-- http://www.itu.int/oth/T0202000018/en -->\n",
   str% "    <territory id=\"BM\" countryCode=\"1\" leadingDigits=\"441\" internationalPrefix=\"011\"\n",
   str% "               nationalPrefix=\"1\" nationalPrefixForParsing=\"([2-9]\\d{6})$|1\"\n",
   str% "               nationalPrefixTransformRule=\"441$1\" mobileNumberPortableRegion=\"true\">\n",
   str% "      <generalDesc>\n",
   str% "        <nationalNumberPattern>\n",
   str% "          (?:\n",
   str% "            441|\n",
   str% "            [58]\\d\\d|\n",
   str% "            900\n",
   str% "          )\\d{7}\n",
   str% "        </nationalNumberPattern>\n",
   str% "      </generalDesc>\n",
   str% "      <fixedLine>\n",
   str% "        <possibleLengths national=\"10\" localOnly=\"7\"/>\n",
   str% "        <exampleNumber>4414123456</exampleNumber>\n",
   str% "        <nationalNumberPattern>\n",
   str% "          441(?:\n",
   str% "            [46]\\d\\d|\n",
   str% "            5(?:\n",
   str% "              4\\d|\n",
   str% "              60|\n",
   str% "              89\n",
   str% "            )\n",
   str% "          )\\d{4}\n",
   str% "        </nationalNumberPattern>\n",
   str% "      </fixedLine>\n",
   str% "      <mobile>\n",
   str% "        <possibleLengths national=\"10\" localOnly=\"7\"/>\n",
   str% "        <exampleNumber>4413701234</exampleNumber>\n",
   str% "        <nationalNumberPattern>\n",
   str% "          441(?:\n",
   str% "            [2378]\\d|\n",
   str% "            5[0-39]|\n",
   str% "            9[02]\n",
   str% "          )\\d{5}\n",
   str% "        </nationalNumberPattern>\n",
   str% "      </mobile>\n",
   str% "      <tollFree>\n",
   str% "        <possibleLengths national=\"10\"/>\n",
   str% "        <exampleNumber>8002123456</exampleNumber>\n",
   str% "        <nationalNumberPattern>\n",
   str% "          8(?:\n",
   str% "            00|\n",
   str% "            33|\n",
   str% "            44|\n",
   str% "            55|\n",
   str% "            66|\n",
   str% "            77|\n",
   str% "            88\n",
   str% "          )[2-9]\\d{6}\n",
   str% "        </nationalNumberPattern>\n",
   str% "      </tollFree>\n",
   str% "      <premiumRate>\n",
   str% "        <possibleLengths national=\"10\"/>\n",
   str% "        <exampleNumber>9002123456</exampleNumber>\n",
   str% "        <nationalNumberPattern>900[2-9]\\d{6}</nationalNumberPattern>\n",
   str% "      </premiumRate>\n",
   str% "      <!-- https://www.nationalnanpa.com/number_resource_info/5XX_codes.html -->\n",
   str% "      <personalNumber>\n",
   str% "        <possibleLengths national=\"10\"/>\n",
   str% "        <exampleNumber>5002345678</exampleNumber>\n",
   str% "        <nationalNumberPattern>\n",
   str% "          52(?:\n",
   str% "            3(?:\n",
   str% "              [2-46-9][02-9]\\d|\n",
   str% "              5(?:\n",
   str% "                [02-46-9]\\d|\n",
   str% "                5[0-46-9]\n",
   str% "              )\n",
   str% "            )|\n",
   str% "            4(?:\n",
   str% "              [2-478][02-9]\\d|\n",
   str% "              5(?:\n",
   str% "                [034]\\d|\n",
   str% "                2[024-9]|\n",
   str% "                5[0-46-9]\n",
   str% "              )|\n",
   str% "              6(?:\n",
   str% "                0[1-9]|\n",
   str% "                [2-9]\\d\n",
   str% "              )|\n",
   str% "              9(?:\n",
   str% "                [05-9]\\d|\n",
   str% "                2[0-5]|\n",
   str% "                49\n",
   str% "              )\n",
   str% "            )\n",
   str% "          )\\d{4}|\n",
   str% "          52[34][2-9]1[02-9]\\d{4}|\n",
   str% "          5(?:\n",
   str% "            00|\n",
   str% "            2[125-9]|\n",
   str% "            3[23]|\n",
   str% "            44|\n",
   str% "            66|\n",
   str% "            77|\n",
   str% "            88\n",
   str% "          )[2-9]\\d{6}\n",
   str% "        </nationalNumberPattern>\n",
   str% "      </personalNumber>\n",
   str% "    </territory>"]

/-- the text up to the end of territory id=BN countryCode=673 -/
noncomputable def BN : List Str :=
  [str% "\n",
   str% "\n",
   str% "    <!-- Brunei (BN) -->\n",
   str% "    <!-- http://www.itu.int/oth/T020200001F/en -->\n",
   str% "    <!-- Format is from http://aiti.gov.bn/contact.html -->\n",
   str% "    <territory id=\"BN\" countryCode=\"673\" internationalPrefix=\"00\">\n",
   str% "      <availableFormats>\n",
   str% "        <numberFormat pattern=\"(\\d{3})(\\d{4})\">\n",
   str% "          <leadingDigits>[2-578]</leadingDigits>\n",
   str% "          <format>$1 $2</format>\n",
   str% "        </numberFormat>\n",
   str% "      </availableFormats>\n",
   str% "      <generalDesc>\n",
   str% "        <nationalNumberPattern>[2-578]\\d{6}</nationalNumberPattern>\n",
   str% "      </generalDesc>\n",
   str% "      <fixedLine>\n",
   str% "        <possibleLengths national=\"7\"/>\n",
   str% "        <exampleNumber>2345678</exampleNumber>\n",
   str% "        <nationalNumberPattern>\n",
   str% "          22[0-7]\\d{4}|\n",
   str% "          (?:\n",
   str% "            2[013-9]|\n",
   str% "            [34]\\d|\n",
   str% "            5[0-25-9]\n",
   str% "          )\\d{5}\n",
   str% "        </nationalNumberPattern>\n",
   str% "      </fixedLine>\n",
   str% "      <mobile>\n",
   str% "        <possibleLengths national=\"7\"/>\n",
   str% "        <exampleNumber>7123456</exampleNumber>\n",
   str% "        <nationalNumberPattern>\n",
   str% "          (?:\n",
   str% "            22[89]|\n",
   str% "            [78]\\d\\d\n",
   str% "          )\\d{4}\n",
   str% "        </nationalNumberPattern>\n",
   str% "      </mobile>\n",
   str% "      <voip>\n",
   str% "        <possibleLengths national=\"7\"/>\n",
   str% "        <exampleNumber>5345678</exampleNumber>\n",
   str% "        <nationalNumberPattern>5[34]\\d{5}</nationalNumberPattern>\n",
   str% "      </voip>\n",
   str% "    </territory>"]

/-- the text up to the end of territory id=BO countryCode=591 -/
noncomputable def BO : List Str :=
  [str% "\n",
   str% "\n",
   str% "    <!-- Bolivia (BO) -->\n",
   str% "    <!-- http://www.itu.int/oth/T020200001A/en -->\n",
   str% "    <!-- http://www.bolivia.com/Servicios/Plandenumeracion.pdf -->\n",
   str% "    <territory id=\"BO\" countryCode=\"591\" internationalPrefix=\"00(?:1\\d)?\" nationalPrefix=\"0\"\n",
   str% "               nationalPrefixForParsing=\"0(1\\d)?\">\n",
   str% "      <availableFormats>\n",
   str% "        <numberFormat pattern=\"(\\d)(\\d{7})\" carrierCodeFormattingRule=\"$NP$CC $FG\">\n",
   str% "          <leadingDigits>\n",
   str% "            [23]|\n",
   str% "            4[46]|\n",
   str% "            50\n",
   str% "          </leadingDigits>\n",
   str% "          <format>$1 $2</format>\n",
   str% "        </numberFormat>\n",
   str% "        <numberFormat pattern=\"(\\d{8})\" carrierCodeFormattingRule=\"$NP$CC $FG\">\n",
   str% "          <leadingDigits>[5-7]</leadingDigits>\n",
   str% "          <format>$1</format>\n",
   str% "        </numberFormat>\n",
   str% "        <numberFormat pattern=\"(\\d{3})(\\d{2})(\\d{4})\" carrierCodeFormattingRule=\"$NP$CC $FG\">\n",
   str% "          <leadingDigits>8</leadingDigits>\n",
   str% "          <format>$1 $2 $3</format>\n",
   str% "        </numberFormat>\n",
   str% "      </availableFormats>\n",
   str% "      <generalDesc>\n",
   str% "        <nationalNumberPattern>\n",
   str% "          (?:\n",
   str% "            [2-7]\\d\\d|\n",
   str% "            8001\n",
   str% "          )\\d{5}\n",
   str% "        </nationalNumberPattern>\n",
   str% "      </generalDesc>\n",
   str% "      <noInternationalDialling>\n",
   str% "        <possibleLengths national=\"9\"/>\n",
   str% "        <nationalNumberPattern>8001[07]\\d{4}</nationalNumberPattern>\n",
   str% "      </noInternationalDialling>\n",
   str% "      <fixedLine>\n",
   str% "        <possibleLengths national=\"8\" localOnly=\"7\"/>\n",
   str% "        <exampleNumber>22123456</exampleNumber>\n",
   str% "        <nationalNumberPattern>\n",
   str% "          (?:\n",
   str% "            2(?:\n",
   str% "              2\\d\\d|\n",
   str% "              5(?:\n",
   str% "                11|\n",
   str% "                [258]\\d|\n",
   str% "                9[67]\n",
   str% "              )|\n",
   str% "              6(?:\n",
   str% "                12|\n",
   str% "                2\\d|\n",
   str% "                9[34]\n",
   str% "              )|\n",
   str% "              8(?:\n",
   str% "                2[34]|\n",
   str% "                39|\n",
   str% "                62\n",
   str% "              )\n",
   str% "            )|\n",
   str% "            3(?:\n",
   str% "              3\\d\\d|\n",
   str% "              4(?:\n",
   str% "                6\\d|\n",
   str% "                8[24]\n",
   str% "              )|\n",
   str% "              8(?:\n",
   str% "                25|\n",
   str% "                42|\n",
   str% "                5[257]|\n",
   str% "                86|\n",
   str% "                9[25]\n",
   str% "              )|\n",
   str% "              9(?:\n",
   str% "                [27]\\d|\n",
   str% "                3[2-4]|\n",
   str% "                4[248]|\n",
   str% "                5[24]|\n",
   str% "                6[2-6]\n",
   str% "              )\n",
   str% "            )|\n",
   str% "            4(?:\n",
   str% "              4\\d\\d|\n",
   str% "              6(?:\n",
   str% "                11|\n",
   str% "                [24689]\\d|\n",
   str% "                72\n",
   str% "              )\n",
   str% "            )\n",
   str% "          )\\d{4}\n",
   str% "        </nationalNumberPattern>\n",
   str% "      </fixedLine>\n",
   str% "      <mobile>\n",
   str% "        <possibleLengths national=\"8\"/>\n",
   str% "        <exampleNumber>71234567</exampleNumber>\n",
   str% "        <nationalNumberPattern>\n",
   str% "          (?:\n",
   str% "            57|\n",
   str% "            [67]\\d\n",
   str% "          )\\d{6}\n",
   str% "        </nationalNumberPattern>\n",
   str% "      </mobile>\n",
   str% "      <!-- Added prefix 8001[07] based on user report. -->\n",
   str% "      <tollFree>\n",
   str% "        <possibleLengths national=\"9\"/>\n",
   str% "        <exampleNumber>800171234</exampleNumber>\n",
   str% "        <nationalNumberPattern>8001[07]\\d{4}</nationalNumberPattern>\n",
   str% "      </tollFree>\n",
   str% "      <voip>\n",
   str% "        <possibleLengths national=\"8\" localOnly=\"7\"/>\n",
   str% "        <exampleNumber>50123456</exampleNumber>\n",
   str% "        <nationalNumberPattern>50\\d{6}</nationalNumberPattern>\n",
   str% "      </voip>\n",
   str% "    </territory>"]

/-- the text up to the end of territory id=BQ countryCode=599 -/
noncomputable def BQ : List Str :=
  [str% "\n",
   str% "\n",
   str% "    <!-- Caribbean Netherlands (BQ) -->\n",
   str% "    <!-- Calling code and formatting shared with 'CW' -->\n",
   str% "    <!-- http://www.itu.int/oth/T02020000F8/en -->\n",
   str% "    <territory id=\"BQ\" countryCode=\"599\" leadingDigits=\"[347]\" internationalPrefix=\"00\">\n",
   str% "      <generalDesc>\n",
   str% "        <nationalNumberPattern>\n",
   str% "          (?:\n",
   str% "            [34]1|\n",
   str% "            7\\d\n",
   str% "          )\\d{5}\n",
   str% "        </nationalNumberPattern>\n",
   str% "      </generalDesc>\n",
   str% "      <!-- Prefixes 72[05] are mentioned as \"Long distance service\" numbers in ITU. Not supporting\n",
   str% "           them for now because we aren't sure what they are used for and no example numbers can\n",
   str% "           be found online. -->\n",
   str% "      <fixedLine>\n",
   str% "        <possibleLengths national=\"7\"/>\n",
   str% "        <exampleNumber>7151234</exampleNumber>\n",
   str% "        <nationalNumberPattern>\n",
   str% "          (?:\n",
   str% "            318[023]|\n",
   str% "            41(?:\n",
   str% "              6[023]|\n",
   str% "              70\n",
   str% "            )|\n",
   str% "            7(?:\n",
   str% "              1[578]|\n",
   str% "              2[05]|\n",
   str% "              50\n",
   str% "            )\\d\n",
   str% "          )\\d{3}\n",
   str% "        </nationalNumberPattern>\n",
   str% "      </fixedLine>\n",
   str% "      <mobile>\n",
   str% "        <possibleLengths national=\"7\"/>\n",
   str% "        <exampleNumber>3181234</exampleNumber>\n",
   str% "        <nationalNumberPattern>\n",
   str% "          (?:\n",
   str% "            31(?:\n",
   str% "              8[14-8]|\n",
   str% "              9[14578]\n",
   str% "            )|\n",
   str% "            416[14-9]|\n",
   str% "            7(?:\n",
   str% "              0[01]|\n",
   str% "              7[07]|\n",
   str% "              8\\d|\n",
   str% "              9[056]\n",
   str% "            )\\d\n",
   str% "          )\\d{3}\n",
   str% "        </nationalNumberPattern>\n",
   str% "      </mobile>\n",
   str% "    </territory>"]

/-- the text up to the end of territory id=BR countryCode=55 -/
noncomputable def BR : List Str :=
  [str% "\n",
   str% "\n",
   str% "    <!-- Brazil (BR) -->\n",
   str% "    <!-- http://en.wikipedia.org/wiki/%2B55 -->\n",
   str% "    <!-- http://www.itu.int/oth/T020200001D/en -->\n",
   str% "    <!-- The national prefix for parsing here also contains a capturing group for the main number,\n",
   str% "         since the carrier codes here may also be area codes, so we want to check the length of\n",
   str% "         the number after capturing. We also need a nationalTransformRule to repopulate with the\n",
   str% "         number without the carrier code. -->\n",
   str% "    <!-- 90 is an additional dialling token used in place of national prefix (0), under scheme\n",
   str% "         \"Collect Call\" in Brazil. Local dialling under this prefix is not supported.\n",
   str% "         https://www.anatel.gov.br/Portal/verificaDocumentos/documento.asp?numeroPublicacao=346146&pub=original&filtro=1&documentoPath=346146.pdf -->\n",
   str% "    <territory id=\"BR\" countryCode=\"55\" internationalPrefix=\"00(?:1[245]|2[1-35]|31|4[13]|[56]5|99)\"\n",
   str% "               nationalPrefix=\"0\"\n",
   str% "               nationalPrefixForParsing=\"\n",
   str% "                 (?:\n",
   str% "                   0|\n",
   str% "                   90\n",
   str% "                 )(?:\n",
   str% "                   (\n",
   str% "                     1[245]|\n",
   str% "                     2[1-35]|\n",
   str% "                     31|\n",
   str% "                     4[13]|\n",
   str% "                     [56]5|\n",
   str% "                     99\n",
   str% "                   )(\n",
   str% "                     \\d{10,11}\n",
   str% "                   )\n",
   str% "                 )?\"\n",
   str% "               nationalPrefixTransformRule=\"$2\" mobileNumberPortableRegion=\"true\">\n",
   str% "      <availableFormats>\n",
   str% "        <!-- Format short numbers as a block. -->\n",
   str% "        <numberFormat pattern=\"(\\d{3,6})\">\n",
   str% "          <leadingDigits>\n",
   str% "            1(?:\n",
   str% "              1[25-8]|\n",
   str% "              2[357-9]|\n",
   str% "              3[02-68]|\n",
   str% "              4[12568]|\n",
   str% "              5|\n",
   str% "              6[0-8]|\n",
   str% "              8[015]|\n",
   str% "              9[0-47-9]\n",
   str% "            )|\n",
   str% "            321|\n",
   str% "            610\n",
   str% "          </leadingDigits>\n",
   str% "          <format>$1</format>\n",
   str% "          <intlFormat>NA</intlFormat>\n",
   str% "        </numberFormat>\n",
   str% "        <!-- 8-digit shared cost numbers (mostly national only). -->\n",
   str% "        <numberFormat pattern=\"(\\d{4})(\\d{4})\">\n",
   str% "          <leadingDigits>\n",
   str% "            300|\n",
   str% "            4(?:\n",
   str% "              0[02]|\n",
   str% "              37|\n",
   str% "              86\n",
   str% "            )\n",
   str% "          </leadingDigits>\n",
   str% "          <leadingDigits>\n",
   str% "            300|\n",
   str% "            4(?:\n",
   str% "              0(?:\n",
   str% "                0|\n",
   str% "                20\n",
   str% "              )|\n",
   str% "              370|\n",
   str% "              864\n",
   str% "            )\n",
   str% "          </leadingDigits>\n",
   str% "          <format>$1-$2</format>\n",
   str% "        </numberFormat>\n",
   str% "        <numberFormat pattern=\"(\\d{4})(\\d{4})\">\n",
   str% "          <leadingDigits>[2-57]</leadingDigits>\n",
   str% "          <leadingDigits>\n",
   str% "            [2357]|\n",
   str% "            4(?:\n",
   str% "              [0-24-9]|\n",
   str% "              3(?:\n",
   str% "                [0-689]|\n",
   str% "                7[1-9]\n",
   str% "              )\n",
   str% "            )\n",
   str% "          </leadingDigits>\n",
   str% "          <format>$1-$2</format>\n",
   str% "          <intlFormat>NA</intlFormat>\n",
   str% "        </numberFormat>\n",
   str% "        <!-- Variable cost numbers (9 - 10 digits). -->\n",
   str% "        <numberFormat pattern=\"(\\d{3})(\\d{2,3})(\\d{4})\" nationalPrefixFormattingRule=\"$NP$FG\">\n",
   str% "          <leadingDigits>\n",
   str% "            (?:\n",
   str% "              [358]|\n",
   str% "              90\n",
   str% "            )0\n",
   str% "          </leadingDigits>\n",
   str% "          <format>$1 $2 $3</format>\n",
   str% "        </numberFormat>\n",
   str% "        <numberFormat pattern=\"(\\d{5})(\\d{4})\">\n",
   str% "          <leadingDigits>9</leadingDigits>\n",
   str% "          <format>$1-$2</format>\n",
   str% "          <intlFormat>NA</intlFormat>\n",
   str% "        </numberFormat>\n",
   str% "        <!-- Fixed-line and pre-transition mobile numbers and mobile radio services dialled with an\n",
   str% "             area code. -->\n",
   str% "        <numberFormat pattern=\"(\\d{2})(\\d{4})(\\d{4})\" nationalPrefixFormattingRule=\"($FG)\"\n",
   str% "                      carrierCodeFormattingRule=\"$NP $CC ($FG)\">\n",
   str% "          <leadingDigits>\n",
   str% "            (?:\n",
   str% "              [14689][1-9]|\n",
   str% "              2[12478]|\n",
   str% "              3[1-578]|\n",
   str% "              5[13-5]|\n",
   str% "              7[13-579]\n",
   str% "            )[2-57]\n",
   str% "          </leadingDigits>\n",
   str% "          <format>$1 $2-$3</format>\n",
   str% "        </numberFormat>\n",
   str% "        <!-- Mobile numbers (post transition, 11 digits). -->\n",
   str% "        <numberFormat pattern=\"(\\d{2})(\\d{5})(\\d{4})\" nationalPrefixFormattingRule=\"($FG)\"\n",
   str% "                      carrierCodeFormattingRule=\"$NP $CC ($FG)\">\n",
   str% "          <leadingDigits>\n",
   str% "            [16][1-9]|\n",
   str% "            [2-57-9]\n",
   str% "          </leadingDigits>\n",
   str% "          <format>$1 $2-$3</format>\n",
   str% "        </numberFormat>\n",
   str% "      </availableFormats>\n",
   str% "      <generalDesc>\n",
   str% "        <nationalNumberPattern>\n",
   str% "          [1-467]\\d{9,10}|\n",
   str% "          55[0-46-9]\\d{8}|\n",
   str% "          [34]\\d{7}|\n",
   str% "          55\\d{7,8}|\n",
   str% "          (?:\n",
   str% "            5[0-46-9]|\n",
   str% "            [89]\\d\n",
   str% "          )\\d{7,9}\n",
   str% "        </nationalNumberPattern>\n",
   str% "      </generalDesc>\n",
   str% "      <noInternationalDialling>\n",
   str% "        <possibleLengths national=\"[8-10]\"/>\n",
   str% "        <nationalNumberPattern>\n",
   str% "          (?:\n",
   str% "            30[03]\\d{3}|\n",
   str% "            4(?:\n",
   str% "              0(?:\n",
   str% "                0\\d|\n",
   str% "                20\n",
   str% "              )|\n",
   str% "              864\n",
   str% "            )\n",
   str% "          )\\d{4}|\n",
   str% "          800\\d{6,7}|\n",
   str% "          300\\d{5}\n",
   str% "        </nationalNumberPattern>\n",
   str% "      </noInternationalDialling>\n",
   str% "      <!-- 52 is not added as an area code even though ITU mentions it, since it is not yet\n",
   str% "           assigned as per ANATEL and Wikipedia. -->\n",
   str% "      <fixedLine>\n",
   str% "        <possibleLengths national=\"10\" localOnly=\"8\"/>\n",
   str% "        <exampleNumber>1123456789</exampleNumber>\n",
   str% "        <nationalNumberPattern>\n",
   str% "          (?:\n",
   str% "            [14689][1-9]|\n",
   str% "            2[12478]|\n",
   str% "            3[1-578]|\n",
   str% "            5[13-5]|\n",
   str% "            7[13-579]\n",
   str% "          )[2-5]\\d{7}\n",
   str% "        </nationalNumberPattern>\n",
   str% "      </fixedLine>\n",
   str% "      <!-- Mobile radio services were not migrated and remain 10 digits long, where the 3rd digit is\n",
   str% "           7.  -->\n",
   str% "      <!-- 52 is not included as a valid area code even though ITU mentions it, since it is not\n",
   str% "           assigned as per ANATEL and Wikipedia. -->\n",
   str% "      <mobile>\n",
   str% "        <possibleLengths national=\"10,11\" localOnly=\"8,9\"/>\n",
   str% "        <exampleNumber>11961234567</exampleNumber>\n",
   str% "        <nationalNumberPattern>\n",
   str% "          (?:\n",
   str% "            [14689][1-9]|\n",
   str% "            2[12478]|\n",
   str% "            3[1-578]|\n",
   str% "            5[13-5]|\n",
   str% "            7[13-579]\n",
   str% "          )(?:\n",
   str% "            7|\n",
   str% "            9\\d\n",
   str% "          )\\d{7}\n",
   str% "        </nationalNumberPattern>\n",
   str% "      </mobile>\n",
   str% "      <tollFree>\n",
   str% "        <possibleLengths national=\"9,10\"/>\n",
   str% "        <exampleNumber>800123456</exampleNumber>\n",
   str% "        <nationalNumberPattern>800\\d{6,7}</nationalNumberPattern>\n",
   str% "      </tollFree>\n",
   str% "      <premiumRate>\n",
   str% "        <possibleLengths national=\"9,10\"/>\n",
   str% "        <exampleNumber>500123456</exampleNumber>\n",
   str% "        <nationalNumberPattern>[59]00\\d{6,7}</nationalNumberPattern>\n",
   str% "      </premiumRate>\n",
   str% "      <!-- Supported 4370 & 4864 as shared cost based on user report. -->\n",
   str% "      <sharedCost>\n",
   str% "        <possibleLengths national=\"8,10\"/>\n",
   str% "        <exampleNumber>40041234</exampleNumber>\n",
   str% "        <nationalNumberPattern>\n",
   str% "          (?:\n",
   str% "            30[03]\\d{3}|\n",
   str% "            4(?:\n",
   str% "              0(?:\n",
   str% "                0\\d|\n",
   str% "                20\n",
   str% "              )|\n",
   str% "              370|\n",
   str% "              864\n",
   str% "            )\n",
   str% "          )\\d{4}|\n",
   str% "          300\\d{5}\n",
   str% "        </nationalNumberPattern>\n",
   str% "      </sharedCost>\n",
   str% "    </territory>"]

/-- the text up to the end of territory id=BS countryCode=1 -/
noncomputable def BS : List Str :=
  [str% "\n",
   str% "\n",
   str% "    <!-- Bahamas (BS) -->\n",
   str% "    <!-- Calling code and formatting shared with 'US' -->\n",
   str% "    <!-- http://www.itu.int/oth/T0202000010/en -->\n",
   str% "    <territory id=\"BS\" countryCode=\"1\" leadingDigits=\"242\" internationalPrefix=\"011\"\n",
   str% "               nationalPrefix=\"1\" nationalPrefixForParsing=\"([3-8]\\d{6})$|1\"\n",
   str% "               nationalPrefixTransformRule=\"242$1\" mobileNumberPortableRegion=\"true\">\n",
   str% "      <generalDesc>\n",
   str% "        <nationalNumberPattern>\n",
   str% "          (?:\n",
   str% "            242|\n",
   str% "            [58]\\d\\d|\n",
   str% "            900\n",
   str% "          )\\d{7}\n",
   str% "        </nationalNumberPattern>\n",
   str% "      </generalDesc>\n",
   str% "      <fixedLine>\n",
   str% "        <possibleLengths national=\"10\" localOnly=\"7\"/>\n",
   str% "        <exampleNumber>2423456789</exampleNumber>\n",
   str% "        <nationalNumberPattern>\n",
   str% "          242(?:\n",
   str% "            3(?:\n",
   str% "              02|\n",
   str% "              [236][1-9]|\n",
   str% "              4[0-24-9]|\n",
   str% "              5[0-68]|\n",
   str% "              7[347]|\n",
   str% "              8[0-4]|\n",
   str% "              9[2-467]\n",
   str% "            )|\n",
   str% "            461|\n",
   str% "            502|\n",
   str% "            6(?:\n",
   str% "              0[1-5]|\n",
   str% "              12|\n",
   str% "              2[013]|\n",
   str% "              [45]0|\n",
   str% "              7[67]|\n",
   str% "              8[78]|\n",
   str% "              9[89]\n",
   str% "            )|\n",
   str% "            7(?:\n",
   str% "              02|\n",
   str% "              88\n",
   str% "            )\n",
   str% "          )\\d{4}\n",
   str% "        </nationalNumberPattern>\n",
   str% "      </fixedLine>\n",
   str% "      <mobile>\n",
   str% "        <possibleLengths national=\"10\" localOnly=\"7\"/>\n",
   str% "        <exampleNumber>2423591234</exampleNumber>\n",
   str% "        <nationalNumberPattern>\n",
   str% "          242(?:\n",
   str% "            3(?:\n",
   str% "              5[79]|\n",
   str% "              7[56]|\n",
   str% "              95\n",
   str% "            )|\n",
   str% "            4(?:\n",
   str% "              [23][1-9]|\n",
   str% "              4[1-35-9]|\n",
   str% "              5[1-8]|\n",
   str% "              6[2-8]|\n",
   str% "              7\\d|\n",
   str% "              81\n",
   str% "            )|\n",
   str% "            5(?:\n",
   str% "              2[45]|\n",
   str% "              3[35]|\n",
   str% "              44|\n",
   str% "              5[1-46-9]|\n",
   str% "              65|\n",
   str% "              77\n",
   str% "            )|\n",
   str% "            6[34]6|\n",
   str% "            7(?:\n",
   str% "              27|\n",
   str% "              38\n",
   str% "            )|\n",
   str% "            8(?:\n",
   str% "              0[1-9]|\n",
   str% "              1[02-9]|\n",
   str% "              2\\d|\n",
   str% "              3[0-4]|\n",
   str% "              [89]9\n",
   str% "            )\n",
   str% "          )\\d{4}\n",
   str% "        </nationalNumberPattern>\n",
   str% "      </mobile>\n",
   str% "      <!-- 242 300 is a Domestic Toll Free service. -->\n",
   str% "      <tollFree>\n",
   str% "        <possibleLengths national=\"10\" localOnly=\"7\"/>\n",
   str% "        <exampleNumber>8002123456</exampleNumber>\n",
   str% "        <nationalNumberPattern>\n",
   str% "          242300\\d{4}|\n",
   str% "          8(?:\n",
   str% "            00|\n",
   str% "            33|\n",
   str% "            44|\n",
   str% "            55|\n",
   str% "            66|\n",
   str% "            77|\n",
   str% "            88\n",
   str% "          )[2-9]\\d{6}\n",
   str% "        </nationalNumberPattern>\n",
   str% "      </tollFree>\n",
   str% "      <premiumRate>\n",
   str% "        <possibleLengths national=\"10\"/>\n",
   str% "        <exampleNumber>9002123456</exampleNumber>\n",
   str% "        <nationalNumberPattern>900[2-9]\\d{6}</nationalNumberPattern>\n",
   str% "      </premiumRate>\n",
   str% "      <!-- https://www.nationalnanpa.com/number_resource_info/5XX_codes.html -->\n",
   str% "      <personalNumber>\n",
   str% "        <possibleLengths national=\"10\"/>\n",
   str% "        <exampleNumber>5002345678</exampleNumber>\n",
   str% "        <nationalNumberPattern>\n",
   str% "          52(?:\n",
   str% "            3(?:\n",
   str% "              [2-46-9][02-9]\\d|\n",
   str% "              5(?:\n",
   str% "                [02-46-9]\\d|\n",
   str% "                5[0-46-9]\n",
   str% "              )\n",
   str% "            )|\n",
   str% "            4(?:\n",
   str% "              [2-478][02-9]\\d|\n",
   str% "              5(?:\n",
   str% "                [034]\\d|\n",
   str% "                2[024-9]|\n",
   str% "                5[0-46-9]\n",
   str% "              )|\n",
   str% "              6(?:\n",
   str% "                0[1-9]|\n",
   str% "                [2-9]\\d\n",
   str% "              )|\n",
   str% "              9(?:\n",
   str% "                [05-9]\\d|\n",
   str% "                2[0-5]|\n",
   str% "                49\n",
   str% "              )\n",
   str% "            )\n",
   str% "          )\\d{4}|\n",
   str% "          52[34][2-9]1[02-9]\\d{4}|\n",
   str% "          5(?:\n",
   str% "            00|\n",
   str% "            2[125-9]|\n",
   str% "            3[23]|\n",
   str% "            44|\n",
   str% "            66|\n",
   str% "            77|\n",
   str% "            88\n",
   str% "          )[2-9]\\d{6}\n",
   str% "        </nationalNumberPattern>\n",
   str% "      </personalNumber>\n",
   str% "      <!-- 225[0-46-9] ranges are mentioned as DID (Direct Inward Dialing) numbers in ITU doc.\n",
   str% "           http://whatis.techtarget.com/definition/Direct-Inward-Dialing-DID. Found valid numbers\n",
   str% "           online. -->\n",
   str% "      <uan>\n",
   str% "        <possibleLengths national=\"10\"/>\n",
   str% "        <exampleNumber>2422250123</exampleNumber>\n",
   str% "        <nationalNumberPattern>242225\\d{4}</nationalNumberPattern>\n",
   str% "      </uan>\n",
   str% "    </territory>"]

/-- the text up to the end of territory id=BT countryCode=975 -/
noncomputable def BT : List Str :=
  [str% "\n",
   str% "\n",
   str% "    <!-- Bhutan (BT) -->\n",
   str% "    <!-- Universal personal telecommunication prefixes 700 and 878 are not\n",
   str% "         added as there is no information on length of numbers. -->\n",
   str% "    <!-- Pager service prefix 91 is not added as there is no information on\n",
   str% "         length of numbers. -->\n",
   str% "    <!-- http://www.itu.int/oth/T0202000019/en -->\n",
   str% "    <territory id=\"BT\" countryCode=\"975\" internationalPrefix=\"00\">\n",
   str% "      <availableFormats>\n",
   str% "        <numberFormat pattern=\"(\\d{3})(\\d{3})\">\n",
   str% "          <leadingDigits>[2-7]</leadingDigits>\n",
   str% "          <format>$1 $2</format>\n",
   str% "          <intlFormat>NA</intlFormat>\n",
   str% "        </numberFormat>\n",
   str% "        <numberFormat pattern=\"(\\d)(\\d{3})(\\d{3})\">\n",
   str% "          <leadingDigits>\n",
   str% "            [2-6]|\n",
   str% "            7[246]|\n",
   str% "            8[2-4]\n",
   str% "          </leadingDigits>\n",
   str% "          <format>$1 $2 $3</format>\n",
   str% "        </numberFormat>\n",
   str% "        <!-- Format is from\n",
   str% "             http://www.tourism.gov.bt/tour-operators/bhutan-abbot-tours-and-travels.html -->\n",
   str% "        <numberFormat pattern=\"(\\d{2})(\\d{2})(\\d{2})(\\d{2})\">\n",
   str% "          <leadingDigits>\n",
   str% "            1[67]|\n",
   str% "            [78]\n",
   str% "          </leadingDigits>\n",
   str% "          <format>$1 $2 $3 $4</format>\n",
   str% "        </numberFormat>\n",
   str% "      </availableFormats>\n",
   str% "      <generalDesc>\n",
   str% "        <nationalNumberPattern>\n",
   str% "          [178]\\d{7}|\n",
   str% "          [2-8]\\d{6}\n",
   str% "        </nationalNumberPattern>\n",
   str% "      </generalDesc>\n",
   str% "      <fixedLine>\n",
   str% "        <possibleLengths national=\"7\" localOnly=\"6\"/>\n",
   str% "        <exampleNumber>2345678</exampleNumber>\n",
   str% "        <nationalNumberPattern>\n",
   str% "          (?:\n",
   str% "            2[3-6]|\n",
   str% "            [34][5-7]|\n",
   str% "            5[236]|\n",
   str% "            6[2-46]|\n",
   str% "            7[246]|\n",
   str% "            8[2-4]\n",
   str% "          )\\d{5}\n",
   str% "        </nationalNumberPattern>\n",
   str% "      </fixedLine>\n",
   str% "      <mobile>\n",
   str% "        <possibleLengths national=\"8\"/>\n",
   str% "        <exampleNumber>17123456</exampleNumber>\n",
   str% "        <nationalNumberPattern>\n",
   str% "          (?:\n",
   str% "            1[67]|\n",
   str% "            [78]7\n",
   str% "          )\\d{6}\n",
   str% "        </nationalNumberPattern>\n",
   str% "      </mobile>\n",
   str% "    </territory>"]

/-- the text up to the end of territory id=BW countryCode=267 -/
noncomputable def BW : List Str :=
  [str% "\n",
   str% "\n",
   str% "    <!-- Botswana (BW) -->\n",
   str% "    <!-- http://www.itu.int/oth/T020200001C/en -->\n",
   str% "    <territory id=\"BW\" countryCode=\"267\" internationalPrefix=\"00\">\n",
   str% "      <availableFormats>\n",
   str% "        <numberFormat pattern=\"(\\d{2})(\\d{5})\">\n",
   str% "          <leadingDigits>90</leadingDigits>\n",
   str% "          <format>$1 $2</format>\n",
   str% "        </numberFormat>\n",
   str% "        <numberFormat pattern=\"(\\d{3})(\\d{4})\">\n",
   str% "          <leadingDigits>\n",
   str% "            [24-6]|\n",
   str% "            3[15-9]\n",
   str% "          </leadingDigits>\n",
   str% "          <format>$1 $2</format>\n",
   str% "        </numberFormat>\n",
   str% "        <numberFormat pattern=\"(\\d{2})(\\d{3})(\\d{3})\">\n",
   str% "          <leadingDigits>[37]</leadingDigits>\n",
   str% "          <format>$1 $2 $3</format>\n",
   str% "        </numberFormat>\n",
   str% "        <numberFormat pattern=\"(\\d{4})(\\d{3})(\\d{3})\">\n",
   str% "          <leadingDigits>0</leadingDigits>\n",
   str% "          <format>$1 $2 $3</format>\n",
   str% "        </numberFormat>\n",
   str% "        <numberFormat pattern=\"(\\d{3})(\\d{4})(\\d{3})\">\n",
   str% "          <leadingDigits>8</leadingDigits>\n",
   str% "          <format>$1 $2 $3</format>\n",
   str% "        </numberFormat>\n",
   str% "      </availableFormats>\n",
   str% "      <generalDesc>\n",
   str% "        <nationalNumberPattern>\n",
   str% "          (?:\n",
   str% "            0800|\n",
   str% "            (?:\n",
   str% "              [37]|\n",
   str% "              800\n",
   str% "            )\\d\n",
   str% "          )\\d{6}|\n",
   str% "          (?:\n",
   str% "            [2-6]\\d|\n",
   str% "            90\n",
   str% "          )\\d{5}\n",
   str% "        </nationalNumberPattern>\n",
   str% "      </generalDesc>\n",
   str% "      <!-- Number range 373 is been supported based on user report and online evidence. -->\n",
   str% "      <fixedLine>\n",
   str% "        <possibleLengths national=\"7\"/>\n",
   str% "        <exampleNumber>2401234</exampleNumber>\n",
   str% "        <nationalNumberPattern>\n",
   str% "          (?:\n",
   str% "            2(?:\n",
   str% "              4[0-48]|\n",
   str% "              6[0-24]|\n",
   str% "              9[0578]\n",
   str% "            )|\n",
   str% "            3(?:\n",
   str% "              1[0-35-9]|\n",
   str% "              55|\n",
   str% "              [69]\\d|\n",
   str% "              7[013]|\n",
   str% "              81\n",
   str% "            )|\n",
   str% "            4(?:\n",
   str% "              6[03]|\n",
   str% "              7[1267]|\n",
   str% "              9[0-5]\n",
   str% "            )|\n",
   str% "            5(?:\n",
   str% "              3[03489]|\n",
   str% "              4[0489]|\n",
   str% "              7[1-47]|\n",
   str% "              88|\n",
   str% "              9[0-49]\n",
   str% "            )|\n",
   str% "            6(?:\n",
   str% "              2[1-35]|\n",
   str% "              5[149]|\n",
   str% "              8[013467]\n",
   str% "            )\n",
   str% "          )\\d{4}\n",
   str% "        </nationalNumberPattern>\n",
   str% "      </fixedLine>\n",
   str% "      <!-- Added prefixes 748, 749, 778 after getting confirmation from the carriers who\n",
   str% "           own them. -->\n",
   str% "      <mobile>\n",
   str% "        <possibleLengths national=\"8\"/>\n",
   str% "        <exampleNumber>71123456</exampleNumber>\n",
   str% "        <nationalNumberPattern>\n",
   str% "          (?:\n",
   str% "            321|\n",
   str% "            7(?:\n",
   str% "              [1-8]\\d|\n",
   str% "              9[03]\n",
   str% "            )\n",
   str% "          )\\d{5}\n",
   str% "        </nationalNumberPattern>\n",
   str% "      </mobile>\n",
   str% "      <!-- BOCRA (official authority) and many Government websites mention 0800 XXX XXX range. -->\n",
   str% "      <tollFree>\n",
   str% "        <possibleLengths national=\"10\"/>\n",
   str% "        <exampleNumber>0800012345</exampleNumber>\n",
   str% "        <nationalNumberPattern>\n",
   str% "          (?:\n",
   str% "            0800|\n",
   str% "            800\\d\n",
   str% "          )\\d{6}\n",
   str% "        </nationalNumberPattern>\n",
   str% "      </tollFree>\n",
   str% "      <premiumRate>\n",
   str% "        <possibleLengths national=\"7\"/>\n",
   str% "        <exampleNumber>9012345</exampleNumber>\n",
   str% "        <nationalNumberPattern>90\\d{5}</nationalNumberPattern>\n",
   str% "      </premiumRate>\n",
   str% "      <voip>\n",
   str% "        <possibleLengths national=\"8\"/>\n",
   str% "        <exampleNumber>79101234</exampleNumber>\n",
   str% "        <nationalNumberPattern>\n",
   str% "          79(?:\n",
   str% "            1(?:\n",
   str% "              [0-2]\\d|\n",
   str% "              3[0-8]\n",
   str% "            )|\n",
   str% "            2[0-7]\\d\n",
   str% "          )\\d{3}\n",
   str% "        </nationalNumberPattern>\n",
   str% "      </voip>\n",
   str% "    </territory>"]

/-- the text up to the end of territory id=BY countryCode=375 -/
noncomputable def BY : List Str :=
  [str% "\n",
   str% "\n",
   str% "    <!-- Belarus (BY) -->\n",
   str% "    <!-- Information on national prefix provided by a Belarussian person. -->\n",
   str% "    <!-- http://www.eng.beltelecom.by/en/subscribers/phone-codes -->\n",
   str% "    <territory id=\"BY\" countryCode=\"375\" preferredInternationalPrefix=\"8~10\"\n",
   str% "               internationalPrefix=\"810\" nationalPrefix=\"8\" nationalPrefixForParsing=\"0|80?\"\n",
   str% "               mobileNumberPortableRegion=\"true\">\n",
   str% "      <availableFormats>\n",
   str% "        <!-- 6 digit toll-free numbers. -->\n",
   str% "        <numberFormat pattern=\"(\\d{3})(\\d{3})\" nationalPrefixFormattingRule=\"$NP $FG\">\n",
   str% "          <leadingDigits>800</leadingDigits>\n",
   str% "          <format>$1 $2</format>\n",
   str% "        </numberFormat>\n",
   str% "        <!-- 7-9 digit toll-free numbers. -->\n",
   str% "        <numberFormat pattern=\"(\\d{3})(\\d{2})(\\d{2,4})\" nationalPrefixFormattingRule=\"$NP $FG\">\n",
   str% "          <leadingDigits>800</leadingDigits>\n",
   str% "          <format>$1 $2 $3</format>\n",
   str% "        </numberFormat>\n",
   str% "        <!-- 4 digit area codes (fixed line only). -->\n",
   str% "        <numberFormat pattern=\"(\\d{4})(\\d{2})(\\d{3})\" nationalPrefixFormattingRule=\"$NP 0$FG\">\n",
   str% "          <leadingDigits>\n",
   str% "            1(?:\n",
   str% "              5[169]|\n",
   str% "              6[3-5]|\n",
   str% "              7[179]\n",
   str% "            )|\n",
   str% "            2(?:\n",
   str% "              1[35]|\n",
   str% "              2[34]|\n",
   str% "              3[3-5]\n",
   str% "            )\n",
   str% "          </leadingDigits>\n",
   str% "          <leadingDigits>\n",
   str% "            1(?:\n",
   str% "              5[169]|\n",
   str% "              6(?:\n",
   str% "                3[1-3]|\n",
   str% "                4|\n",
   str% "                5[125]\n",
   str% "              )|\n",
   str% "              7(?:\n",
   str% "                1[3-9]|\n",
   str% "                7[0-24-6]|\n",
   str% "                9[2-7]\n",
   str% "              )\n",
   str% "            )|\n",
   str% "            2(?:\n",
   str% "              1[35]|\n",
   str% "              2[34]|\n",
   str% "              3[3-5]\n",
   str% "            )\n",
   str% "          </leadingDigits>\n",
   str% "          <format>$1 $2-$3</format>\n",
   str% "        </numberFormat>\n",
   str% "        <!-- 3 digit area codes (fixed line only). -->\n",
   str% "        <numberFormat pattern=\"(\\d{3})(\\d{2})(\\d{2})(\\d{2})\" nationalPrefixFormattingRule=\"$NP 0$FG\">\n",
   str% "          <leadingDigits>\n",
   str% "            1(?:\n",
   str% "              [56]|\n",
   str% "              7[467]\n",
   str% "            )|\n",
   str% "            2[1-3]\n",
   str% "          </leadingDigits>\n",
   str% "          <format>$1 $2-$3-$4</format>\n",
   str% "        </numberFormat>\n",
   str% "        <!-- 2 digit \"area codes\" (mostly mobile, but some fixed line ranges). -->\n",
   str% "        <numberFormat pattern=\"(\\d{2})(\\d{3})(\\d{2})(\\d{2})\" nationalPrefixFormattingRule=\"$NP 0$FG\">\n",
   str% "          <leadingDigits>[1-4]</leadingDigits>\n",
   str% "          <format>$1 $2-$3-$4</format>\n",
   str% "        </numberFormat>\n",
   str% "        <!-- 10-11 digit toll-free / premium rate numbers. -->\n",
   str% "        <numberFormat pattern=\"(\\d{3})(\\d{3,4})(\\d{4})\" nationalPrefixFormattingRule=\"$NP $FG\">\n",
   str% "          <leadingDigits>[89]</leadingDigits>\n",
   str% "          <format>$1 $2 $3</format>\n",
   str% "        </numberFormat>\n",
   str% "      </availableFormats>\n",
   str% "      <generalDesc>\n",
   str% "        <nationalNumberPattern>\n",
   str% "          (?:\n",
   str% "            [12]\\d|\n",
   str% "            33|\n",
   str% "            44|\n",
   str% "            902\n",
   str% "          )\\d{7}|\n",
   str% "          8(?:\n",
   str% "            0[0-79]\\d{5,7}|\n",
   str% "            [1-7]\\d{9}\n",
   str% "          )|\n",
   str% "          8(?:\n",
   str% "            1[0-489]|\n",
   str% "            [5-79]\\d\n",
   str% "          )\\d{7}|\n",
   str% "          8[1-79]\\d{6,7}|\n",
   str% "          8[0-79]\\d{5}|\n",
   str% "          8\\d{5}\n",
   str% "        </nationalNumberPattern>\n",
   str% "      </generalDesc>\n",
   str% "      <!-- Toll-free and premium rate numbers are not available from abroad. -->\n",
   str% "      <noInternationalDialling>\n",
   str% "        <possibleLengths national=\"[6-11]\"/>\n",
   str% "        <nationalNumberPattern>\n",
   str% "          800\\d{3,7}|\n",
   str% "          (?:\n",
   str% "            8(?:\n",
   str% "              0[13]|\n",
   str% "              10|\n",
   str% "              20\\d\n",
   str% "            )|\n",
   str% "            902\n",
   str% "          )\\d{7}\n",
   str% "        </nationalNumberPattern>\n",
   str% "      </noInternationalDialling>\n",
   str% "      <!-- Using test number for Grodno from the plan. -->\n",
   str% "      <fixedLine>\n",
   str% "        <possibleLengths national=\"9\" localOnly=\"[5-7]\"/>\n",
   str% "        <exampleNumber>152450911</exampleNumber>\n",
   str% "        <nationalNumberPattern>\n",
   str% "          (?:\n",
   str% "            1(?:\n",
   str% "              5(?:\n",
   str% "                1[1-5]|\n",
   str% "                [24]\\d|\n",
   str% "                6[2-4]|\n",
   str% "                9[1-7]\n",
   str% "              )|\n",
   str% "              6(?:\n",
   str% "                [235]\\d|\n",
   str% "                4[1-7]\n",
   str% "              )|\n",
   str% "              7\\d\\d\n",
   str% "            )|\n",
   str% "            2(?:\n",
   str% "              1(?:\n",
   str% "                [246]\\d|\n",
   str% "                3[0-35-9]|\n",
   str% "                5[1-9]\n",
   str% "              )|\n",
   str% "              2(?:\n",
   str% "                [235]\\d|\n",
   str% "                4[0-8]\n",
   str% "              )|\n",
   str% "              3(?:\n",
   str% "                [26]\\d|\n",
   str% "                3[02-79]|\n",
   str% "                4[024-7]|\n",
   str% "                5[03-7]\n",
   str% "              )\n",
   str% "            )\n",
   str% "          )\\d{5}\n",
   str% "        </nationalNumberPattern>\n",
   str% "      </fixedLine>\n",
   str% "      <!-- Using test number for BelCel from the plan. -->\n",
   str% "      <mobile>\n",
   str% "        <possibleLengths national=\"9\"/>\n",
   str% "        <exampleNumber>294911911</exampleNumber>\n",
   str% "        <nationalNumberPattern>\n",
   str% "          (?:\n",
   str% "            2(?:\n",
   str% "              5[5-79]|\n",
   str% "              9[1-9]\n",
   str% "            )|\n",
   str% "            (?:\n",
   str% "              33|\n",
   str% "              44\n",
   str% "            )\\d\n",
   str% "          )\\d{6}\n",
   str% "        </nationalNumberPattern>\n",
   str% "      </mobile>\n",
   str% "      <!-- Putting Interactive Polling Service (free) here too. -->\n",
   str% "      <tollFree>\n",
   str% "        <possibleLengths national=\"[6-11]\"/>\n",
   str% "        <exampleNumber>8011234567</exampleNumber>\n",
   str% "        <nationalNumberPattern>\n",
   str% "          800\\d{3,7}|\n",
   str% "          8(?:\n",
   str% "            0[13]|\n",
   str% "            20\\d\n",
   str% "          )\\d{7}\n",
   str% "        </nationalNumberPattern>\n",
   str% "      </tollFree>\n",
   str% "      <!-- Putting Interactive Polling Service (paid) here too. -->\n",
   str% "      <premiumRate>\n",
   str% "        <possibleLengths national=\"10\"/>\n",
   str% "        <exampleNumber>9021234567</exampleNumber>\n",
   str% "        <nationalNumberPattern>\n",
   str% "          (?:\n",
   str% "            810|\n",
   str% "            902\n",
   str% "          )\\d{7}\n",
   str% "        </nationalNumberPattern>\n",
   str% "      </premiumRate>\n",
   str% "      <!-- 249 prefix for Beltelcom's Maxiphone added based on online info. -->\n",
   str% "      <voip>\n",
   str% "        <possibleLengths national=\"9\"/>\n",
   str% "        <exampleNumber>249123456</exampleNumber>\n",
   str% "        <nationalNumberPattern>249\\d{6}</nationalNumberPattern>\n",
   str% "      </voip>\n",
   str% "    </territory>"]

/-- the text up to the end of territory id=BZ countryCode=501 -/
noncomputable def BZ : List Str :=
  [str% "\n",
   str% "\n",
   str% "    <!-- Belize (BZ) -->\n",
   str% "    <!-- The trunk prefix, formally 0, was dropped in the last reorganisation of the numbering plan. -->\n",
   str% "    <!-- http://www.itu.int/oth/T0202000016/en -->\n",
   str% "    <territory id=\"BZ\" countryCode=\"501\" internationalPrefix=\"00\">\n",
   str% "      <availableFormats>\n",
   str% "        <!-- Adding hyphen following the Belize Telemedia formatting rules. -->\n",
   str% "        <numberFormat pattern=\"(\\d{3})(\\d{4})\">\n",
   str% "          <leadingDigits>[2-8]</leadingDigits>\n",
   str% "          <format>$1-$2</format>\n",
   str% "        </numberFormat>\n",
   str% "        <numberFormat pattern=\"(\\d)(\\d{3})(\\d{4})(\\d{3})\">\n",
   str% "          <leadingDigits>0</leadingDigits>\n",
   str% "          <format>$1-$2-$3-$4</format>\n",
   str% "        </numberFormat>\n",
   str% "      </availableFormats>\n",
   str% "      <generalDesc>\n",
   str% "        <nationalNumberPattern>\n",
   str% "          (?:\n",
   str% "            0800\\d|\n",
   str% "            [2-8]\n",
   str% "          )\\d{6}\n",
   str% "        </nationalNumberPattern>\n",
   str% "      </generalDesc>\n",
   str% "      <!-- Wikipedia and ITU seem out of date, but say that for a number in the format ZNY-XXXX\n",
   str% "           Z represents the district code (or 6 for mobile), N the type of number and Y the first\n",
   str% "           digit of the customer's number. Only N = 0 and 2 are supposedly in use, but we have\n",
   str% "           found some numbers with N = 3 online (prefixes 732 and 236). When emailed,\n",
   str% "           Belize Telemedia Ltd confirmed numbers with prefix 732 belong to the Landline Postpaid\n",
   str% "           PSTN category. -->\n",
   str% "      <fixedLine>\n",
   str% "        <possibleLengths national=\"7\"/>\n",
   str% "        <exampleNumber>2221234</exampleNumber>\n",
   str% "        <nationalNumberPattern>\n",
   str% "          (?:\n",
   str% "            2(?:\n",
   str% "              [02]\\d|\n",
   str% "              36|\n",
   str% "              [68]0\n",
   str% "            )|\n",
   str% "            [3-58](?:\n",
   str% "              [02]\\d|\n",
   str% "              [68]0\n",
   str% "            )|\n",
   str% "            7(?:\n",
   str% "              [02]\\d|\n",
   str% "              32|\n",
   str% "              [68]0\n",
   str% "            )\n",
   str% "          )\\d{4}\n",
   str% "        </nationalNumberPattern>\n",
   str% "      </fixedLine>\n",
   str% "      <!-- 62[6-9], 63X, 65X and 6[67][2-9] were added as we have been able to successfully\n",
   str% "           send SMSs to these numbers or many numbers have been found online. -->\n",
   str% "      <mobile>\n",
   str% "        <possibleLengths national=\"7\"/>\n",
   str% "        <exampleNumber>6221234</exampleNumber>\n",
   str% "        <nationalNumberPattern>6[0-35-7]\\d{5}</nationalNumberPattern>\n",
   str% "      </mobile>\n",
   str% "      <!-- We don't know how these would be dialled internationally - it is possible that they can't\n",
   str% "           be dialled internationally at all - so we represent the leading 0 as part of the number.\n",
   str% "           Information from http://www.belizetelemedia.net. -->\n",
   str% "      <tollFree>\n",
   str% "        <possibleLengths national=\"11\"/>\n",
   str% "        <exampleNumber>08001234123</exampleNumber>\n",
   str% "        <nationalNumberPattern>0800\\d{7}</nationalNumberPattern>\n",
   str% "      </tollFree>\n",
   str% "    </territory>"]

/-- the text up to the end of territory id=CA countryCode=1 -/
noncomputable def CA : List Str :=
  [str% "\n",
   str% "\n",
   str% "    <!-- Canada (CA) -->\n",
   str% "    <!-- Calling code and formatting shared with 'US' -->\n",
   str% "    <!-- http://www.cnac.ca/canadian_dial_plan/canadian_dial_plan.htm -->\n",
   str% "    <territory id=\"CA\" countryCode=\"1\" internationalPrefix=\"011\" nationalPrefix=\"1\"\n",
   str% "               mobileNumberPortableRegion=\"true\">\n",
   str% "      <generalDesc>\n",
   str% "        <nationalNumberPattern>\n",
   str% "          [2-9]\\d{9}|\n",
   str% "          3\\d{6}\n",
   str% "        </nationalNumberPattern>\n",
   str% "      </generalDesc>\n",
   str% "      <fixedLine>\n",
   str% "        <possibleLengths national=\"10\" localOnly=\"7\"/>\n",
   str% "        <exampleNumber>5062345678</exampleNumber>\n",
   str% "        <nationalNumberPattern>\n",
   str% "          (?:\n",
   str% "            2(?:\n",
   str% "              04|\n",
   str% "              [23]6|\n",
   str% "              [48]9|\n",
   str% "              5[07]|\n",
   str% "              63\n",
   str% "            )|\n",
   str% "            3(?:\n",
   str% "              06|\n",
   str% "              43|\n",
   str% "              54|\n",
   str% "              6[578]|\n",
   str% "              82\n",
   str% "            )|\n",
   str% "            4(?:\n",
   str% "              03|\n",
   str% "              1[68]|\n",
   str% "              [26]8|\n",
   str% "              3[178]|\n",
   str% "              50|\n",
   str% "              74\n",
   str% "            )|\n",
   str% "            5(?:\n",
   str% "              06|\n",
   str% "              1[49]|\n",
   str% "              48|\n",
   str% "              79|\n",
   str% "              8[147]\n",
   str% "            )|\n",
   str% "            6(?:\n",
   str% "              04|\n",
   str% "              [18]3|\n",
   str% "              39|\n",
   str% "              47|\n",
   str% "              72\n",
   str% "            )|\n",
   str% "            7(?:\n",
   str% "              0[59]|\n",
   str% "              42|\n",
   str% "              53|\n",
   str% "              78|\n",
   str% "              8[02]\n",
   str% "            )|\n",
   str% "            8(?:\n",
   str% "              [06]7|\n",
   str% "              19|\n",
   str% "              25|\n",
   str% "              7[39]\n",
   str% "            )|\n",
   str% "            9(?:\n",
   str% "              0[25]|\n",
   str% "              42\n",
   str% "            )\n",
   str% "          )[2-9]\\d{6}\n",
   str% "        </nationalNumberPattern>\n",
   str% "      </fixedLine>\n",
   str% "      <mobile>\n",
   str% "        <possibleLengths national=\"10\" localOnly=\"7\"/>\n",
   str% "        <exampleNumber>5062345678</exampleNumber>\n",
   str% "        <nationalNumberPattern>\n",
   str% "          (?:\n",
   str% "            2(?:\n",
   str% "              04|\n",
   str% "              [23]6|\n",
   str% "              [48]9|\n",
   str% "              5[07]|\n",
   str% "              63\n",
   str% "            )|\n",
   str% "            3(?:\n",
   str% "              06|\n",
   str% "              43|\n",
   str% "              54|\n",
   str% "              6[578]|\n",
   str% "              82\n",
   str% "            )|\n",
   str% "            4(?:\n",
   str% "              03|\n",
   str% "              1[68]|\n",
   str% "              [26]8|\n",
   str% "              3[178]|\n",
   str% "              50|\n",
   str% "              74\n",
   str% "            )|\n",
   str% "            5(?:\n",
   str% "              06|\n",
   str% "              1[49]|\n",
   str% "              48|\n",
   str% "              79|\n",
   str% "              8[147]\n",
   str% "            )|\n",
   str% "            6(?:\n",
   str% "              04|\n",
   str% "              [18]3|\n",
   str% "              39|\n",
   str% "              47|\n",
   str% "              72\n",
   str% "            )|\n",
   str% "            7(?:\n",
   str% "              0[59]|\n",
   str% "              42|\n",
   str% "              53|\n",
   str% "              78|\n",
   str% "              8[02]\n",
   str% "            )|\n",
   str% "            8(?:\n",
   str% "              [06]7|\n",
   str% "              19|\n",
   str% "              25|\n",
   str% "              7[39]\n",
   str% "            )|\n",
   str% "            9(?:\n",
   str% "              0[25]|\n",
   str% "              42\n",
   str% "            )\n",
   str% "          )[2-9]\\d{6}\n",
   str% "        </nationalNumberPattern>\n",
   str% "      </mobile>\n",
   str% "      <tollFree>\n",
   str% "        <possibleLengths national=\"10\"/>\n",
   str% "        <exampleNumber>8002123456</exampleNumber>\n",
   str% "        <nationalNumberPattern>\n",
   str% "          8(?:\n",
   str% "            00|\n",
   str% "            33|\n",
   str% "            44|\n",
   str% "            55|\n",
   str% "            66|\n",
   str% "            77|\n",
   str% "            88\n",
   str% "          )[2-9]\\d{6}\n",
   str% "        </nationalNumberPattern>\n",
   str% "      </tollFree>\n",
   str% "      <premiumRate>\n",
   str% "        <possibleLengths national=\"10\"/>\n",
   str% "        <exampleNumber>9002123456</exampleNumber>\n",
   str% "        <nationalNumberPattern>900[2-9]\\d{6}</nationalNumberPattern>\n",
   str% "      </premiumRate>\n",
   str% "      <!-- https://www.nationalnanpa.com/number_resource_info/5XX_codes.html -->\n",
   str% "      <personalNumber>\n",
   str% "        <possibleLengths national=\"10\"/>\n",
   str% "        <exampleNumber>5219023456</exampleNumber>\n",
   str% "        <nationalNumberPattern>\n",
   str% "          52(?:\n",
   str% "            3(?:\n",
   str% "              [2-46-9][02-9]\\d|\n",
   str% "              5(?:\n",
   str% "                [02-46-9]\\d|\n",
   str% "                5[0-46-9]\n",
   str% "              )\n",
   str% "            )|\n",
   str% "            4(?:\n",
   str% "              [2-478][02-9]\\d|\n",
   str% "              5(?:\n",
   str% "                [034]\\d|\n",
   str% "                2[024-9]|\n",
   str% "                5[0-46-9]\n",
   str% "              )|\n",
   str% "              6(?:\n",
   str% "                0[1-9]|\n",
   str% "                [2-9]\\d\n",
   str% "              )|\n",
   str% "              9(?:\n",
   str% "                [05-9]\\d|\n",
   str% "                2[0-5]|\n",
   str% "                49\n",
   str% "              )\n",
   str% "            )\n",
   str% "          )\\d{4}|\n",
   str% "          52[34][2-9]1[02-9]\\d{4}|\n",
   str% "          (?:\n",
   str% "            5(?:\n",
   str% "              2[125-9]|\n",
   str% "              3[23]|\n",
   str% "              44|\n",
   str% "              66|\n",
   str% "              77|\n",
   str% "              88\n",
   str% "            )|\n",
   str% "            6(?:\n",
   str% "              22|\n",
   str% "              33\n",
   str% "            )\n",
   str% "          )[2-9]\\d{6}\n",
   str% "        </nationalNumberPattern>\n",
   str% "      </personalNumber>\n",
   str% "      <!-- 600 (Canadian Non-Geographic Tariffed Services) are satellite numbers as per Wikipedia:\n",
   str% "           https://en.wikipedia.org/wiki/Area_code_600 -->\n",
   str% "      <voip>\n",
   str% "        <possibleLengths national=\"10\"/>\n",
   str% "        <exampleNumber>6002012345</exampleNumber>\n",
   str% "        <nationalNumberPattern>600[2-9]\\d{6}</nationalNumberPattern>\n",
   str% "      </voip>\n",
   str% "      <!-- Prefix 310 (7 digit) is added based on user report and online documents. -->\n",
   str% "      <uan>\n",
   str% "        <possibleLengths national=\"7\"/>\n",
   str% "        <exampleNumber>3101234</exampleNumber>\n",
   str% "        <nationalNumberPattern>310\\d{4}</nationalNumberPattern>\n",
   str% "      </uan>\n",
   str% "    </territory>"]

/-- the text up to the end of territory id=CC countryCode=61 -/
noncomputable def CC : List Str :=
  [str% "\n",
   str% "\n",
   str% "    <!-- Cocos (Keeling) Islands (CC) -->\n",
   str% "    <!-- Calling code and formatting shared with 'AU' -->\n",
   str% "    <!-- References state Cocos Islands have fixed line numbers starting +61 8 9162. -->\n",
   str% "    <!-- http://en.wikipedia.org/wiki/List_of_country_calling_codes -->\n",
   str% "    <!-- http://en.wikipedia.org/wiki/Telephone_numbers_in_Australia -->\n",
   str% "    <!-- https://www.thenumberingsystem.com.au/#/number-register/search -->\n",
   str% "    <territory id=\"CC\" countryCode=\"61\" preferredInternationalPrefix=\"0011\"\n",
   str% "               internationalPrefix=\"001[14-689]|14(?:1[14]|34|4[17]|[56]6|7[47]|88)0011\"\n",
   str% "               nationalPrefix=\"0\" nationalPrefixForParsing=\"([59]\\d{7})$|0\"\n",
   str% "               nationalPrefixTransformRule=\"8$1\">\n",
   str% "      <generalDesc>\n",
   str% "        <nationalNumberPattern>\n",
   str% "          1(?:\n",
   str% "            [0-79]\\d{8}(?:\n",
   str% "              \\d{2}\n",
   str% "            )?|\n",
   str% "            8[0-24-9]\\d{7}\n",
   str% "          )|\n",
   str% "          [148]\\d{8}|\n",
   str% "          1\\d{5,7}\n",
   str% "        </nationalNumberPattern>\n",
   str% "      </generalDesc>\n",
   str% "      <fixedLine>\n",
   str% "        <possibleLengths national=\"9\" localOnly=\"8\"/>\n",
   str% "        <exampleNumber>891621234</exampleNumber>\n",
   str% "        <nationalNumberPattern>\n",
   str% "          8(?:\n",
   str% "            51(?:\n",
   str% "              0(?:\n",
   str% "                02|\n",
   str% "                31|\n",
   str% "                60|\n",
   str% "                89\n",
   str% "              )|\n",
   str% "              1(?:\n",
   str% "                18|\n",
   str% "                76\n",
   str% "              )|\n",
   str% "              223\n",
   str% "            )|\n",
   str% "            91(?:\n",
   str% "              0(?:\n",
   str% "                1[0-2]|\n",
   str% "                29\n",
   str% "              )|\n",
   str% "              1(?:\n",
   str% "                [28]2|\n",
   str% "                50|\n",
   str% "                79\n",
   str% "              )|\n",
   str% "              2(?:\n",
   str% "                10|\n",
   str% "                64\n",
   str% "              )|\n",
   str% "              3(?:\n",
   str% "                [06]8|\n",
   str% "                22\n",
   str% "              )|\n",
   str% "              4[29]8|\n",
   str% "              62\\d|\n",
   str% "              70[23]|\n",
   str% "              959\n",
   str% "            )\n",
   str% "          )\\d{3}\n",
   str% "        </nationalNumberPattern>\n",
   str% "      </fixedLine>\n",
   str% "      <!-- Mobile, toll free, premium rate and VOIP copied from Australia. -->\n",
   str% "      <mobile>\n",
   str% "        <possibleLengths national=\"9\"/>\n",
   str% "        <exampleNumber>412345678</exampleNumber>\n",
   str% "        <nationalNumberPattern>\n",
   str% "          4(?:\n",
   str% "            79[01]|\n",
   str% "            83[0-36-9]|\n",
   str% "            95[0-3]\n",
   str% "          )\\d{5}|\n",
   str% "          4(?:\n",
   str% "            [0-36]\\d|\n",
   str% "            4[047-9]|\n",
   str% "            [58][0-24-9]|\n",
   str% "            7[02-8]|\n",
   str% "            9[0-47-9]\n",
   str% "          )\\d{6}\n",
   str% "        </nationalNumberPattern>\n",
   str% "      </mobile>\n",
   str% "      <tollFree>\n",
   str% "        <possibleLengths national=\"7,10\"/>\n",
   str% "        <exampleNumber>1800123456</exampleNumber>\n",
   str% "        <nationalNumberPattern>\n",
   str% "          180(?:\n",
   str% "            0\\d{3}|\n",
   str% "            2\n",
   str% "          )\\d{3}\n",
   str% "        </nationalNumberPattern>\n",
   str% "      </tollFree>\n",
   str% "      <premiumRate>\n",
   str% "        <possibleLengths national=\"10\"/>\n",
   str% "        <exampleNumber>1900123456</exampleNumber>\n",
   str% "        <nationalNumberPattern>190[0-26]\\d{6}</nationalNumberPattern>\n",
   str% "      </premiumRate>\n",
   str% "      <!-- Local-rate (SmartNumbers) are put here because they are a reverse-charge network,\n",
   str% "           although they charge a small local call connect fee (around 25c). These start with 13\n",
   str% "           or 1300. -->\n",
   str% "      <sharedCost>\n",
   str% "        <possibleLengths national=\"6,8,10,12\"/>\n",
   str% "        <exampleNumber>1300123456</exampleNumber>\n",
   str% "        <nationalNumberPattern>\n",
   str% "          13(?:\n",
   str% "            00\\d{6}(?:\n",
   str% "              \\d{2}\n",
   str% "            )?|\n",
   str% "            45[0-4]\\d{3}\n",
   str% "          )|\n",
   str% "          13\\d{4}\n",
   str% "        </nationalNumberPattern>\n",
   str% "      </sharedCost>\n",
   str% "      <voip>\n",
   str% "        <possibleLengths national=\"9\"/>\n",
   str% "        <exampleNumber>147101234</exampleNumber>\n",
   str% "        <nationalNumberPattern>\n",
   str% "          14(?:\n",
   str% "            5(?:\n",
   str% "              1[0458]|\n",
   str% "              [23][458]\n",
   str% "            )|\n",
   str% "            71\\d\n",
   str% "          )\\d{4}\n",
   str% "        </nationalNumberPattern>\n",
   str% "      </voip>\n",
   str% "    </territory>"]

/-- the text up to the end of territory id=CD countryCode=243 -/
noncomputable def CD : List Str :=
  [str% "\n",
   str% "\n",
   str% "    <!-- Congo - Kinshasa (CD) -->\n",
   str% "    <!-- http://www.itu.int/oth/T0202000037/en -->\n",
   str% "    <territory id=\"CD\" countryCode=\"243\" internationalPrefix=\"00\" nationalPrefix=\"0\">\n",
   str% "      <availableFormats>\n",
   str% "        <numberFormat pattern=\"(\\d{2})(\\d{2})(\\d{3})\" nationalPrefixFormattingRule=\"$NP$FG\">\n",
   str% "          <leadingDigits>88</leadingDigits>\n",
   str% "          <format>$1 $2 $3</format>\n",
   str% "        </numberFormat>\n",
   str% "        <numberFormat pattern=\"(\\d{2})(\\d{5})\" nationalPrefixFormattingRule=\"$NP$FG\">\n",
   str% "          <leadingDigits>[1-6]</leadingDigits>\n",
   str% "          <format>$1 $2</format>\n",
   str% "        </numberFormat>\n",
   str% "        <numberFormat pattern=\"(\\d{2})(\\d{2})(\\d{4})\" nationalPrefixFormattingRule=\"$NP$FG\">\n",
   str% "          <leadingDigits>2</leadingDigits>\n",
   str% "          <format>$1 $2 $3</format>\n",
   str% "        </numberFormat>\n",
   str% "        <numberFormat pattern=\"(\\d{2})(\\d{3})(\\d{4})\" nationalPrefixFormattingRule=\"$NP$FG\">\n",
   str% "          <leadingDigits>1</leadingDigits>\n",
   str% "          <format>$1 $2 $3</format>\n",
   str% "        </numberFormat>\n",
   str% "        <numberFormat pattern=\"(\\d{3})(\\d{3})(\\d{3})\" nationalPrefixFormattingRule=\"$NP$FG\">\n",
   str% "          <leadingDigits>[89]</leadingDigits>\n",
   str% "          <format>$1 $2 $3</format>\n",
   str% "        </numberFormat>\n",
   str% "        <numberFormat pattern=\"(\\d{2})(\\d{2})(\\d{3})(\\d{3})\" nationalPrefixFormattingRule=\"$NP$FG\">\n",
   str% "          <leadingDigits>5</leadingDigits>\n",
   str% "          <format>$1 $2 $3 $4</format>\n",
   str% "        </numberFormat>\n",
   str% "      </availableFormats>\n",
   str% "      <generalDesc>\n",
   str% "        <nationalNumberPattern>\n",
   str% "          (?:\n",
   str% "            (?:\n",
   str% "              [189]|\n",
   str% "              5\\d\n",
   str% "            )\\d|\n",
   str% "            2\n",
   str% "          )\\d{7}|\n",
   str% "          [1-68]\\d{6}\n",
   str% "        </nationalNumberPattern>\n",
   str% "      </generalDesc>\n",
   str% "      <fixedLine>\n",
   str% "        <possibleLengths national=\"[7-10]\"/>\n",
   str% "        <exampleNumber>1234567</exampleNumber>\n",
   str% "        <nationalNumberPattern>\n",
   str% "          (?:\n",
   str% "            (?:\n",
   str% "              12|\n",
   str% "              573\n",
   str% "            )\\d\\d|\n",
   str% "            276\n",
   str% "          )\\d{5}|\n",
   str% "          [1-6]\\d{6}\n",
   str% "        </nationalNumberPattern>\n",
   str% "      </fixedLine>\n",
   str% "      <!-- As of May'13 the 88 range looks as if it is defunct. The ITU document lists \"Yozma\n",
   str% "           Timeturns\" as the operator, but their website (http://www.ytt.cd) is offline and the\n",
   str% "           holdings company http://www.timeturnsholdings.com/products does not show a link for\n",
   str% "           DRC. While there are still numbers of the form \"88\\d{5}\" online, none of the ones\n",
   str% "           tried were valid. If the holdings company does not respond to requests about this\n",
   str% "           range and unless we receive further information, we will remove this range. -->\n",
   str% "      <mobile>\n",
   str% "        <possibleLengths national=\"7,9\"/>\n",
   str% "        <exampleNumber>991234567</exampleNumber>\n",
   str% "        <nationalNumberPattern>\n",
   str% "          88\\d{5}|\n",
   str% "          (?:\n",
   str% "            8[0-69]|\n",
   str% "            9[016-9]\n",
   str% "          )\\d{7}\n",
   str% "        </nationalNumberPattern>\n",
   str% "      </mobile>\n",
   str% "    </territory>"]

/-- the text up to the end of territory id=CF countryCode=236 -/
noncomputable def CF : List Str :=
  [str% "\n",
   str% "\n",
   str% "    <!-- Central African Republic (CF) -->\n",
   str% "    <!-- http://www.itu.int/oth/T0202000028/en -->\n",
   str% "    <territory id=\"CF\" countryCode=\"236\" internationalPrefix=\"00\">\n",
   str% "      <availableFormats>\n",
   str% "        <numberFormat pattern=\"(\\d{2})(\\d{2})(\\d{2})(\\d{2})\">\n",
   str% "          <leadingDigits>[26-8]</leadingDigits>\n",
   str% "          <format>$1 $2 $3 $4</format>\n",
   str% "        </numberFormat>\n",
   str% "      </availableFormats>\n",
   str% "      <generalDesc>\n",
   str% "        <nationalNumberPattern>\n",
   str% "          8776\\d{4}|\n",
   str% "          (?:\n",
   str% "            [27]\\d|\n",
   str% "            61\n",
   str% "          )\\d{6}\n",
   str% "        </nationalNumberPattern>\n",
   str% "      </generalDesc>\n",
   str% "      <fixedLine>\n",
   str% "        <possibleLengths national=\"8\"/>\n",
   str% "        <exampleNumber>21612345</exampleNumber>\n",
   str% "        <nationalNumberPattern>\n",
   str% "          (?:\n",
   str% "            2[12]|\n",
   str% "            61\n",
   str% "          )\\d{6}\n",
   str% "        </nationalNumberPattern>\n",
   str% "      </fixedLine>\n",
   str% "      <mobile>\n",
   str% "        <possibleLengths national=\"8\"/>\n",
   str% "        <exampleNumber>70012345</exampleNumber>\n",
   str% "        <nationalNumberPattern>7[02-7]\\d{6}</nationalNumberPattern>\n",
   str% "      </mobile>\n",
   str% "      <premiumRate>\n",
   str% "        <possibleLengths national=\"8\"/>\n",
   str% "        <exampleNumber>87761234</exampleNumber>\n",
   str% "        <nationalNumberPattern>8776\\d{4}</nationalNumberPattern>\n",
   str% "      </premiumRate>\n",
   str% "    </territory>"]

/-- the text up to the end of territory id=CG countryCode=242 -/
noncomputable def CG : List Str :=
  [str% "\n",
   str% "\n",
   str% "    <!-- Congo - Brazzaville (CG) -->\n",
   str% "    <!-- http://www.itu.int/oth/T020200002E/en -->\n",
   str% "    <territory id=\"CG\" countryCode=\"242\" internationalPrefix=\"00\">\n",
   str% "      <availableFormats>\n",
   str% "        <numberFormat pattern=\"(\\d)(\\d{4})(\\d{4})\">\n",
   str% "          <leadingDigits>8</leadingDigits>\n",
   str% "          <format>$1 $2 $3</format>\n",
   str% "        </numberFormat>\n",
   str% "        <numberFormat pattern=\"(\\d{2})(\\d{3})(\\d{4})\">\n",
   str% "          <leadingDigits>[02]</leadingDigits>\n",
   str% "          <format>$1 $2 $3</format>\n",
   str% "        </numberFormat>\n",
   str% "      </availableFormats>\n",
   str% "      <generalDesc>\n",
   str% "        <nationalNumberPattern>\n",
   str% "          222\\d{6}|\n",
   str% "          (?:\n",
   str% "            0\\d|\n",
   str% "            80\n",
   str% "          )\\d{7}\n",
   str% "        </nationalNumberPattern>\n",
   str% "      </generalDesc>\n",
   str% "      <fixedLine>\n",
   str% "        <possibleLengths national=\"9\"/>\n",
   str% "        <exampleNumber>222123456</exampleNumber>\n",
   str% "        <nationalNumberPattern>222[1-589]\\d{5}</nationalNumberPattern>\n",
   str% "      </fixedLine>\n",
   str% "      <mobile>\n",
   str% "        <possibleLengths national=\"9\"/>\n",
   str% "        <exampleNumber>061234567</exampleNumber>\n",
   str% "        <nationalNumberPattern>\n",
   str% "          026(?:\n",
   str% "            1[0-5]|\n",
   str% "            6[6-9]\n",
   str% "          )\\d{4}|\n",
   str% "          0(?:\n",
   str% "            [14-6]\\d\\d|\n",
   str% "            2(?:\n",
   str% "              40|\n",
   str% "              5[5-8]|\n",
   str% "              6[07-9]\n",
   str% "            )\n",
   str% "          )\\d{5}\n",
   str% "        </nationalNumberPattern>\n",
   str% "      </mobile>\n",
   str% "      <!-- Referred to as a \"Green number\" in the telephone plan. -->\n",
   str% "      <!-- Using this to represent Value Added Service in the plan. -->\n",
   str% "      <premiumRate>\n",
   str% "        <possibleLengths national=\"9\"/>\n",
   str% "        <exampleNumber>800123456</exampleNumber>\n",
   str% "        <nationalNumberPattern>80[0-2]\\d{6}</nationalNumberPattern>\n",
   str% "      </premiumRate>\n",
   str% "    </territory>"]

/-- the text up to the end of territory id=CH countryCode=41 -/
noncomputable def CH : List Str :=
  [str% "\n",
   str% "\n",
   str% "    <!-- Switzerland (CH) -->\n",
   str% "    <!-- Under Technical prescriptions: Numbering plan for international carriers. -->\n",
   str% "    <!-- https://www.bakom.admin.ch/en/numbering-and-telephony -->\n",
   str% "    <territory id=\"CH\" countryCode=\"41\" internationalPrefix=\"00\" nationalPrefix=\"0\"\n",
   str% "               mobileNumberPortableRegion=\"true\">\n",
   str% "      <availableFormats>\n",
   str% "        <numberFormat pattern=\"(\\d{3})(\\d{3})(\\d{3})\" nationalPrefixFormattingRule=\"$NP$FG\">\n",
   str% "          <leadingDigits>\n",
   str% "            8[047]|\n",
   str% "            90\n",
   str% "          </leadingDigits>\n",
   str% "          <format>$1 $2 $3</format>\n",
   str% "        </numberFormat>\n",
   str% "        <numberFormat pattern=\"(\\d{2})(\\d{3})(\\d{2})(\\d{2})\" nationalPrefixFormattingRule=\"$NP$FG\">\n",
   str% "          <leadingDigits>\n",
   str% "            [2-79]|\n",
   str% "            81\n",
   str% "          </leadingDigits>\n",
   str% "          <format>$1 $2 $3 $4</format>\n",
   str% "        </numberFormat>\n",
   str% "        <numberFormat pattern=\"(\\d{3})(\\d{2})(\\d{3})(\\d{2})(\\d{2})\"\n",
   str% "                      nationalPrefixFormattingRule=\"$NP$FG\">\n",
   str% "          <leadingDigits>8</leadingDigits>\n",
   str% "          <format>$1 $2 $3 $4 $5</format>\n",
   str% "        </numberFormat>\n",
   str% "      </availableFormats>\n",
   str% "      <generalDesc>\n",
   str% "        <nationalNumberPattern>\n",
   str% "          8\\d{11}|\n",
   str% "          [2-9]\\d{8}\n",
   str% "        </nationalNumberPattern>\n",
   str% "      </generalDesc>\n",
   str% "      <fixedLine>\n",
   str% "        <possibleLengths national=\"9\"/>\n",
   str% "        <exampleNumber>212345678</exampleNumber>\n",
   str% "        <nationalNumberPattern>\n",
   str% "          (?:\n",
   str% "            2[12467]|\n",
   str% "            3[1-4]|\n",
   str% "            4[134]|\n",
   str% "            5[256]|\n",
   str% "            6[12]|\n",
   str% "            [7-9]1\n",
   str% "          )\\d{7}\n",
   str% "        </nationalNumberPattern>\n",
   str% "      </fixedLine>\n",
   str% "      <mobile>\n",
   str% "        <possibleLengths national=\"9\"/>\n",
   str% "        <exampleNumber>781234567</exampleNumber>\n",
   str% "        <nationalNumberPattern>\n",
   str% "          (?:\n",
   str% "            6[89]|\n",
   str% "            7[235-9]\n",
   str% "          )\\d{7}\n",
   str% "        </nationalNumberPattern>\n",
   str% "      </mobile>\n",
   str% "      <!-- https://www.eofcom.admin.ch/eofcom/public/listEofcom_e164Allocated.do -->\n",
   str% "      <pager>\n",
   str% "        <possibleLengths national=\"9\"/>\n",
   str% "        <exampleNumber>740123456</exampleNumber>\n",
   str% "        <nationalNumberPattern>74[0248]\\d{6}</nationalNumberPattern>\n",
   str% "      </pager>\n",
   str% "      <tollFree>\n",
   str% "        <possibleLengths national=\"9\"/>\n",
   str% "        <exampleNumber>800123456</exampleNumber>\n",
   str% "        <nationalNumberPattern>800\\d{6}</nationalNumberPattern>\n",
   str% "      </tollFree>\n",
   str% "      <premiumRate>\n",
   str% "        <possibleLengths national=\"9\"/>\n",
   str% "        <exampleNumber>900123456</exampleNumber>\n",
   str% "        <nationalNumberPattern>90[016]\\d{6}</nationalNumberPattern>\n",
   str% "      </premiumRate>\n",
   str% "      <sharedCost>\n",
   str% "        <possibleLengths national=\"9\"/>\n",
   str% "        <exampleNumber>840123456</exampleNumber>\n",
   str% "        <nationalNumberPattern>84[0248]\\d{6}</nationalNumberPattern>\n",
   str% "      </sharedCost>\n",
   str% "      <personalNumber>\n",
   str% "        <possibleLengths national=\"9\"/>\n",
   str% "        <exampleNumber>878123456</exampleNumber>\n",
   str% "        <nationalNumberPattern>878\\d{6}</nationalNumberPattern>\n",
   str% "      </personalNumber>\n",
   str% "      <!-- Used for corporate networks. -->\n",
   str% "      <uan>\n",
   str% "        <possibleLengths national=\"9\"/>\n",
   str% "        <exampleNumber>581234567</exampleNumber>\n",
   str% "        <nationalNumberPattern>5[18]\\d{7}</nationalNumberPattern>\n",
   str% "      </uan>\n",
   str% "      <voicemail>\n",
   str% "        <possibleLengths national=\"12\"/>\n",
   str% "        <exampleNumber>860123456789</exampleNumber>\n",
   str% "        <nationalNumberPattern>860\\d{9}</nationalNumberPattern>\n",
   str% "      </voicemail>\n",
   str% "    </territory>"]

/-- the text up to the end of territory id=CI countryCode=225 -/
noncomputable def CI : List Str :=
  [str% "\n",
   str% "\n",
   str% "    <!-- C\u00F4te d\u2019Ivoire (CI) -->\n",
   str% "    <!-- http://www.itu.int/oth/T0202000031/en -->\n",
   str% "    <!-- http://fr.wikipedia.org/wiki/Liste_des_indicatifs_t\u00E9l\u00E9phoniques_en_C\u00F4te_d\u2019Ivoire -->\n",
   str% "    <territory id=\"CI\" countryCode=\"225\" internationalPrefix=\"00\">\n",
   str% "      <availableFormats>\n",
   str% "        <numberFormat pattern=\"(\\d{2})(\\d{2})(\\d)(\\d{5})\">\n",
   str% "          <leadingDigits>2</leadingDigits>\n",
   str% "          <format>$1 $2 $3 $4</format>\n",
   str% "        </numberFormat>\n",
   str% "        <numberFormat pattern=\"(\\d{2})(\\d{2})(\\d{2})(\\d{4})\">\n",
   str% "          <leadingDigits>0</leadingDigits>\n",
   str% "          <format>$1 $2 $3 $4</format>\n",
   str% "        </numberFormat>\n",
   str% "      </availableFormats>\n",
   str% "      <generalDesc>\n",
   str% "        <nationalNumberPattern>[02]\\d{9}</nationalNumberPattern>\n",
   str% "      </generalDesc>\n",
   str% "      <fixedLine>\n",
   str% "        <possibleLengths national=\"10\"/>\n",
   str% "        <exampleNumber>2123456789</exampleNumber>\n",
   str% "        <nationalNumberPattern>\n",
   str% "          2(?:\n",
   str% "            [15]\\d{3}|\n",
   str% "            7(?:\n",
   str% "              2(?:\n",
   str% "                0[23]|\n",
   str% "                1[2357]|\n",
   str% "                2[245]|\n",
   str% "                3[45]|\n",
   str% "                4[3-5]\n",
   str% "              )|\n",
   str% "              3(?:\n",
   str% "                06|\n",
   str% "                1[69]|\n",
   str% "                [2-6]7\n",
   str% "              )\n",
   str% "            )\n",
   str% "          )\\d{5}\n",
   str% "        </nationalNumberPattern>\n",
   str% "      </fixedLine>\n",
   str% "      <!-- Added the prefixes 4[0-2] (Moov), 5[7-9] and 61 because SMS messages have been\n",
   str% "           successfully delivered. Supported by numbers found on the internet. Also added 43\n",
   str% "           (Moov) based on numbers found online. Added 8[456] MTN ranges based on Wikipedia page.\n",
   str% "           50 has been removed since Warid seems to have stopped operation in C\u00F4te d'Ivoire.\n",
   str% "           Prefix 73 and 97[0-3] are added based on user reports. -->\n",
   str% "      <mobile>\n",
   str% "        <possibleLengths national=\"10\"/>\n",
   str% "        <exampleNumber>0123456789</exampleNumber>\n",
   str% "        <nationalNumberPattern>0[157]\\d{8}</nationalNumberPattern>\n",
   str% "      </mobile>\n",
   str% "    </territory>"]

/-- the text up to the end of territory id=CK countryCode=682 -/
noncomputable def CK : List Str :=
  [str% "\n",
   str% "\n",
   str% "    <!-- Cook Islands (CK) -->\n",
   str% "    <!-- http://www.itu.int/oth/T020200002F/en -->\n",
   str% "    <territory id=\"CK\" countryCode=\"682\" internationalPrefix=\"00\">\n",
   str% "      <availableFormats>\n",
   str% "        <numberFormat pattern=\"(\\d{2})(\\d{3})\">\n",
   str% "          <leadingDigits>[2-578]</leadingDigits>\n",
   str% "          <format>$1 $2</format>\n",
   str% "        </numberFormat>\n",
   str% "      </availableFormats>\n",
   str% "      <generalDesc>\n",
   str% "        <nationalNumberPattern>[2-578]\\d{4}</nationalNumberPattern>\n",
   str% "      </generalDesc>\n",
   str% "      <fixedLine>\n",
   str% "        <possibleLengths national=\"5\"/>\n",
   str% "        <exampleNumber>21234</exampleNumber>\n",
   str% "        <nationalNumberPattern>\n",
   str% "          (?:\n",
   str% "            2\\d|\n",
   str% "            3[13-7]|\n",
   str% "            4[1-5]\n",
   str% "          )\\d{3}\n",
   str% "        </nationalNumberPattern>\n",
   str% "      </fixedLine>\n",
   str% "      <mobile>\n",
   str% "        <possibleLengths national=\"5\"/>\n",
   str% "        <exampleNumber>71234</exampleNumber>\n",
   str% "        <nationalNumberPattern>[578]\\d{4}</nationalNumberPattern>\n",
   str% "      </mobile>\n",
   str% "    </territory>"]

/-- the text up to the end of territory id=CL countryCode=56 -/
noncomputable def CL : List Str :=
  [str% "\n",
   str% "\n",
   str% "    <!-- Chile (CL) -->\n",
   str% "    <!-- As per ITU doc, from 5 Sep 2016, fixed-mobile portability will apply in Chile. So same\n",
   str% "         nationalNumberPatterns are maintained in both fixed-line and mobile categories. -->\n",
   str% "    <!-- According to subtel.gob.cl as of August 2014, nationalPrefix(0) and carrier codes are not\n",
   str% "         required to make a call between fixed-line and mobile in Chile. -->\n",
   str% "    <!-- http://www.itu.int/oth/T020200002A/en -->\n",
   str% "    <!-- http://en.wikipedia.org/wiki/%2B56 -->\n",
   str% "    <!-- http://www.subtel.gob.cl/base_numeracion/tabla_numeracion_ido_idd.xlsx -->\n",
   str% "    <!-- When dialling mobile numbers from landlines, or vice versa, you need a prefix of 0, which\n",
   str% "         we strip here. National destinations may be dialled with a carrier if they are not local\n",
   str% "         so we extract these carrier codes as well. -->\n",
   str% "    <territory id=\"CL\" countryCode=\"56\"\n",
   str% "               internationalPrefix=\"(?:0|1(?:1[0-69]|2[02-5]|5[13-58]|69|7[0167]|8[018]))0\"\n",
   str% "               mobileNumberPortableRegion=\"true\">\n",
   str% "      <availableFormats>\n",
   str% "        <!-- Formats four digit 1X short numbers as a block. We are not formatting other 4 and 5\n",
   str% "             digit short codes as block because those prefixes overlap with phone numbers and\n",
   str% "             including them suppresses the AYTF of overlapping prefix phone numbers. -->\n",
   str% "        <numberFormat pattern=\"(\\d{4})\">\n",
   str% "          <leadingDigits>\n",
   str% "            1(?:\n",
   str% "              [03-589]|\n",
   str% "              21\n",
   str% "            )|\n",
   str% "            [29]0|\n",
   str% "            78\n",
   str% "          </leadingDigits>\n",
   str% "          <format>$1</format>\n",
   str% "          <intlFormat>NA</intlFormat>\n",
   str% "        </numberFormat>\n",
   str% "        <!-- For only 219X prefix used rurally by CTR. -->\n",
   str% "        <numberFormat pattern=\"(\\d{5})(\\d{4})\" nationalPrefixFormattingRule=\"($FG)\">\n",
   str% "          <leadingDigits>219</leadingDigits>\n",
   str% "          <leadingDigits>2196</leadingDigits>\n",
   str% "          <format>$1 $2</format>\n",
   str% "        </numberFormat>\n",
   str% "        <numberFormat pattern=\"(\\d{3})(\\d{3})(\\d{3})\">\n",
   str% "          <leadingDigits>\n",
   str% "            60|\n",
   str% "            809\n",
   str% "          </leadingDigits>\n",
   str% "          <format>$1 $2 $3</format>\n",
   str% "        </numberFormat>\n",
   str% "        <!-- Format for VOIP numbers. -->\n",
   str% "        <numberFormat pattern=\"(\\d{2})(\\d{3})(\\d{4})\">\n",
   str% "          <leadingDigits>44</leadingDigits>\n",
   str% "          <format>$1 $2 $3</format>\n",
   str% "        </numberFormat>\n",
   str% "        <!-- Format for 2X fixed-line numbers. Note that due to fixed-mobile portability same\n",
   str% "             ranges are maintained in both fixed-line and mobile categories. Formats are based\n",
   str% "             on original phone number type. -->\n",
   str% "        <numberFormat pattern=\"(\\d)(\\d{4})(\\d{4})\" nationalPrefixFormattingRule=\"($FG)\">\n",
   str% "          <leadingDigits>2[1-36]</leadingDigits>\n",
   str% "          <format>$1 $2 $3</format>\n",
   str% "        </numberFormat>\n",
   str% "        <!-- Format for mobile numbers. -->\n",
   str% "        <numberFormat pattern=\"(\\d)(\\d{4})(\\d{4})\">\n",
   str% "          <leadingDigits>\n",
   str% "            9(?:\n",
   str% "              10|\n",
   str% "              [2-9]\n",
   str% "            )\n",
   str% "          </leadingDigits>\n",
   str% "          <format>$1 $2 $3</format>\n",
   str% "        </numberFormat>\n",
   str% "        <!-- Format for all other fixed-line numbers. -->\n",
   str% "        <numberFormat pattern=\"(\\d{2})(\\d{3})(\\d{4})\" nationalPrefixFormattingRule=\"($FG)\">\n",
   str% "          <leadingDigits>\n",
   str% "            3[2-5]|\n",
   str% "            [47]|\n",
   str% "            5[1-3578]|\n",
   str% "            6[13-57]|\n",
   str% "            8(?:\n",
   str% "              0[1-8]|\n",
   str% "              [1-9]\n",
   str% "            )\n",
   str% "          </leadingDigits>\n",
   str% "          <format>$1 $2 $3</format>\n",
   str% "        </numberFormat>\n",
   str% "        <!-- Format for variable cost numbers like toll-free, shared cost. -->\n",
   str% "        <numberFormat pattern=\"(\\d{3})(\\d{3})(\\d{3,4})\">\n",
   str% "          <leadingDigits>\n",
   str% "            60|\n",
   str% "            8\n",
   str% "          </leadingDigits>\n",
   str% "          <format>$1 $2 $3</format>\n",
   str% "        </numberFormat>\n",
   str% "        <!-- For 11 digit toll-free numbers. -->\n",
   str% "        <numberFormat pattern=\"(\\d{4})(\\d{3})(\\d{4})\">\n",
   str% "          <leadingDigits>1</leadingDigits>\n",
   str% "          <format>$1 $2 $3</format>\n",
   str% "        </numberFormat>\n",
   str% "        <!-- For 11 digit shared cost numbers. -->\n",
   str% "        <numberFormat pattern=\"(\\d{3})(\\d{3})(\\d{2})(\\d{3})\">\n",
   str% "          <leadingDigits>60</leadingDigits>\n",
   str% "          <format>$1 $2 $3 $4</format>\n",
   str% "        </numberFormat>\n",
   str% "      </availableFormats>\n",
   str% "      <generalDesc>\n",
   str% "        <nationalNumberPattern>\n",
   str% "          12300\\d{6}|\n",
   str% "          6\\d{9,10}|\n",
   str% "          [2-9]\\d{8}\n",
   str% "        </nationalNumberPattern>\n",
   str% "      </generalDesc>\n",
   str% "      <noInternationalDialling>\n",
   str% "        <possibleLengths national=\"10,11\"/>\n",
   str% "        <nationalNumberPattern>600\\d{7,8}</nationalNumberPattern>\n",
   str% "      </noInternationalDialling>\n",
   str% "      <!-- Area codes do not need to be dialled when dialling within the same area, so the\n",
   str% "           smallest possible number is length 7. -->\n",
   str% "      <!-- Local-only calls are no longer valid and it is mandated to use area codes while calling\n",
   str% "           between different regions. -->\n",
   str% "      <!-- In mid-2013, Chile switched from 8 digits to 9 digits for fixed-line numbers, by\n",
   str% "           inserting a '2' after the area code (which are 2 digits, with the exception of '2').\n",
   str% "           As of Aug. 2014, all of the prefixes have been switched over to the new plan.\n",
   str% "           IMPORTANT: Originally after the change Santiago numbers had a prefix of \"22\", but\n",
   str% "           already numbers with the prefix \"23\" are being added.\n",
   str% "           See: http://www.gob.cl/especiales/informate-de-la-nueva-forma-de-marcar/\n",
   str% "                http://www.subtel.cl/index.php?option=com_content&view=article&id=3081:&catid=3:noticias\n",
   str% "           Added 232[3-8] ranges based on online evidence. -->\n",
   str% "      <fixedLine>\n",
   str% "        <possibleLengths national=\"9\"/>\n",
   str% "        <exampleNumber>600123456</exampleNumber>\n",
   str% "        <nationalNumberPattern>\n",
   str% "          2(?:\n",
   str% "            1982[0-6]|\n",
   str% "            3314[05-9]\n",
   str% "          )\\d{3}|\n",
   str% "          (?:\n",
   str% "            2(?:\n",
   str% "              1(?:\n",
   str% "                160|\n",
   str% "                962\n",
   str% "              )|\n",
   str% "              3(?:\n",
   str% "                (?:\n",
   str% "                  [24]\\d|\n",
   str% "                  50\n",
   str% "                )\\d|\n",
   str% "                3(?:\n",
   str% "                  [034679]\\d|\n",
   str% "                  1[0-35-9]|\n",
   str% "                  2[1-9]|\n",
   str% "                  5[0-24-9]|\n",
   str% "                  8[0-389]\n",
   str% "                )|\n",
   str% "                600\n",
   str% "              )|\n",
   str% "              646[59]\n",
   str% "            )|\n",
   str% "            (?:\n",
   str% "              600|\n",
   str% "              80[1-9]\n",
   str% "            )\\d\\d|\n",
   str% "            9(?:\n",
   str% "              (?:\n",
   str% "                10[0-2]|\n",
   str% "                7[1-9]\\d\n",
   str% "              )\\d|\n",
   str% "              3(?:\n",
   str% "                [0-57-9]\\d\\d|\n",
   str% "                6(?:\n",
   str% "                  0[02-9]|\n",
   str% "                  [1-9]\\d\n",
   str% "                )\n",
   str% "              )|\n",
   str% "              6(?:\n",
   str% "                [0-8]\\d\\d|\n",
   str% "                9(?:\n",
   str% "                  [02-79]\\d|\n",
   str% "                  1[05-9]\n",
   str% "                )\n",
   str% "              )|\n",
   str% "              9(?:\n",
   str% "                [03-9]\\d\\d|\n",
   str% "                1(?:\n",
   str% "                  [0235-9]\\d|\n",
   str% "                  4[0-24-9]\n",
   str% "                )|\n",
   str% "                2(?:\n",
   str% "                  [0-79]\\d|\n",
   str% "                  8[0-46-9]\n",
   str% "                )\n",
   str% "              )\n",
   str% "            )\n",
   str% "          )\\d{4}|\n",
   str% "          (?:\n",
   str% "            22|\n",
   str% "            3[2-5]|\n",
   str% "            [47][1-35]|\n",
   str% "            5[1-3578]|\n",
   str% "            6[13-57]|\n",
   str% "            8[1-9]|\n",
   str% "            9[2458]\n",
   str% "          )\\d{7}\n",
   str% "        </nationalNumberPattern>\n",
   str% "      </fixedLine>\n",
   str% "      <!-- Supported 9[23] mobile ranges as per user report. -->\n",
   str% "      <mobile>\n",
   str% "        <possibleLengths national=\"9\"/>\n",
   str% "        <exampleNumber>221234567</exampleNumber>\n",
   str% "        <nationalNumberPattern>\n",
   str% "          2(?:\n",
   str% "            1982[0-6]|\n",
   str% "            3314[05-9]\n",
   str% "          )\\d{3}|\n",
   str% "          (?:\n",
   str% "            2(?:\n",
   str% "              1(?:\n",
   str% "                160|\n",
   str% "                962\n",
   str% "              )|\n",
   str% "              3(?:\n",
   str% "                (?:\n",
   str% "                  [24]\\d|\n",
   str% "                  50\n",
   str% "                )\\d|\n",
   str% "                3(?:\n",
   str% "                  [034679]\\d|\n",
   str% "                  1[0-35-9]|\n",
   str% "                  2[1-9]|\n",
   str% "                  5[0-24-9]|\n",
   str% "                  8[0-389]\n",
   str% "                )|\n",
   str% "                600\n",
   str% "              )|\n",
   str% "              646[59]\n",
   str% "            )|\n",
   str% "            80[1-8]\\d\\d|\n",
   str% "            9(?:\n",
   str% "              (?:\n",
   str% "                10[0-2]|\n",
   str% "                7[1-9]\\d\n",
   str% "              )\\d|\n",
   str% "              3(?:\n",
   str% "                [0-57-9]\\d\\d|\n",
   str% "                6(?:\n",
   str% "                  0[02-9]|\n",
   str% "                  [1-9]\\d\n",
   str% "                )\n",
   str% "              )|\n",
   str% "              6(?:\n",
   str% "                [0-8]\\d\\d|\n",
   str% "                9(?:\n",
   str% "                  [02-79]\\d|\n",
   str% "                  1[05-9]\n",
   str% "                )\n",
   str% "              )|\n",
   str% "              9(?:\n",
   str% "                [03-9]\\d\\d|\n",
   str% "                1(?:\n",
   str% "                  [0235-9]\\d|\n",
   str% "                  4[0-24-9]\n",
   str% "                )|\n",
   str% "                2(?:\n",
   str% "                  [0-79]\\d|\n",
   str% "                  8[0-46-9]\n",
   str% "                )\n",
   str% "              )\n",
   str% "            )\n",
   str% "          )\\d{4}|\n",
   str% "          (?:\n",
   str% "            22|\n",
   str% "            3[2-5]|\n",
   str% "            [47][1-35]|\n",
   str% "            5[1-3578]|\n",
   str% "            6[13-57]|\n",
   str% "            8[1-9]|\n",
   str% "            9[2458]\n",
   str% "          )\\d{7}\n",
   str% "        </nationalNumberPattern>\n",
   str% "      </mobile>\n",
   str% "      <!-- Toll free patterns have been collected by looking at numbers on the internet, rather than\n",
   str% "           from a definitive source. -->\n",
   str% "      <!-- 1230 numbers are used by Visa/Mastercard helplines in Chile -->\n",
   str% "      <tollFree>\n",
   str% "        <possibleLengths national=\"9,11\"/>\n",
   str% "        <exampleNumber>800123456</exampleNumber>\n",
   str% "        <nationalNumberPattern>\n",
   str% "          (?:\n",
   str% "            123|\n",
   str% "            8\n",
   str% "          )00\\d{6}\n",
   str% "        </nationalNumberPattern>\n",
   str% "      </tollFree>\n",
   str% "      <!-- http://empresa.movistar.cl/nuestros_productos/soluciones_telefonia_ip/servicios/servicio_600.php -->\n",
   str% "      <sharedCost>\n",
   str% "        <possibleLengths national=\"10,11\"/>\n",
   str% "        <exampleNumber>6001234567</exampleNumber>\n",
   str% "        <nationalNumberPattern>600\\d{7,8}</nationalNumberPattern>\n",
   str% "      </sharedCost>\n",
   str% "      <voip>\n",
   str% "        <possibleLengths national=\"9\"/>\n",
   str% "        <exampleNumber>441234567</exampleNumber>\n",
   str% "        <nationalNumberPattern>44\\d{7}</nationalNumberPattern>\n",
   str% "      </voip>\n",
   str% "    </territory>"]

/-- the text up to the end of territory id=CM countryCode=237 -/
noncomputable def CM : List Str :=
  [str% "\n",
   str% "\n",
   str% "    <!-- Cameroon (CM) -->\n",
   str% "    <!-- http://www.itu.int/oth/T0202000024/en -->\n",
   str% "    <!-- http://www.itu.int/dms_pub/itu-t/opb/sp/T-SP-OB.1063-2014-OAS-PDF-E.pdf -->\n",
   str% "    <territory id=\"CM\" countryCode=\"237\" internationalPrefix=\"00\" mobileNumberPortableRegion=\"true\">\n",
   str% "      <availableFormats>\n",
   str% "        <numberFormat pattern=\"(\\d{2})(\\d{2})(\\d{2})(\\d{2})\">\n",
   str% "          <leadingDigits>88</leadingDigits>\n",
   str% "          <format>$1 $2 $3 $4</format>\n",
   str% "        </numberFormat>\n",
   str% "        <!-- Formatting in the ITU update document aligns with formatting online (all 2 digit\n",
   str% "             groups). For the new number format with 9 digits the first digit has it's own group. -->\n",
   str% "        <numberFormat pattern=\"(\\d)(\\d{2})(\\d{2})(\\d{2})(\\d{2})\">\n",
   str% "          <leadingDigits>\n",
   str% "            [26]|\n",
   str% "            88\n",
   str% "          </leadingDigits>\n",
   str% "          <format>$1 $2 $3 $4 $5</format>\n",
   str% "        </numberFormat>\n",
   str% "      </availableFormats>\n",
   str% "      <generalDesc>\n",
   str% "        <nationalNumberPattern>\n",
   str% "          [26]\\d{8}|\n",
   str% "          88\\d{6,7}\n",
   str% "        </nationalNumberPattern>\n",
   str% "      </generalDesc>\n",
   str% "      <!-- CDMA numbers are described in a subcategory to fixed line numbers in the ITU update\n",
   str% "           document, so those prefixes are added to fixed line (24[23]). -->\n",
   str% "      <fixedLine>\n",
   str% "        <possibleLengths national=\"9\"/>\n",
   str% "        <exampleNumber>222123456</exampleNumber>\n",
   str% "        <nationalNumberPattern>\n",
   str% "          2(?:\n",
   str% "            22|\n",
   str% "            33\n",
   str% "          )\\d{6}\n",
   str% "        </nationalNumberPattern>\n",
   str% "      </fixedLine>\n",
   str% "      <!-- 68 was added based on info found online. -->\n",
   str% "      <mobile>\n",
   str% "        <possibleLengths national=\"9\"/>\n",
   str% "        <exampleNumber>671234567</exampleNumber>\n",
   str% "        <nationalNumberPattern>\n",
   str% "          (?:\n",
   str% "            24[23]|\n",
   str% "            6(?:\n",
   str% "              [25-9]\\d|\n",
   str% "              4[01]\n",
   str% "            )\n",
   str% "          )\\d{6}\n",
   str% "        </nationalNumberPattern>\n",
   str% "      </mobile>\n",
   str% "      <!-- Numbers starting with 8 are listed as value-added in the ITU doc, but only numbers\n",
   str% "           starting with 88 have been found online. These are all listed as being \"num\u00E9ro vert\",\n",
   str% "           \"ligne verte\" or \"gratuit\" (free). -->\n",
   str% "      <tollFree>\n",
   str% "        <possibleLengths national=\"8,9\"/>\n",
   str% "        <exampleNumber>88012345</exampleNumber>\n",
   str% "        <nationalNumberPattern>88\\d{6,7}</nationalNumberPattern>\n",
   str% "      </tollFree>\n",
   str% "    </territory>"]

/-- the text of this module -/
noncomputable def chunk02 : List (List Str) :=
  [BM, BN, BO, BQ, BR, BS, BT, BW, BY, BZ, CA, CC, CD, CF, CG, CH, CI, CK, CL, CM]

end Phone.Data.S
