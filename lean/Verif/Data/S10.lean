import Verif.Basic.Str
/-! Text of `/repo/assets/PhoneNumberMetadata.xml`, in lines. Generated by `tools/gen_xml.py`; do not edit. -/

set_option maxRecDepth 100000
namespace Phone.Data.S

/-- the text up to the end of territory id=MG countryCode=261 -/
noncomputable def MG : List Str :=
  [str% "\n",
   str% "\n",
   str% "    <!-- Madagascar (MG) -->\n",
   str% "    <!-- http://www.itu.int/oth/T020200007F/en -->\n",
   str% "    <territory id=\"MG\" countryCode=\"261\" internationalPrefix=\"00\" nationalPrefix=\"0\"\n",
   str% "               nationalPrefixForParsing=\"([24-9]\\d{6})$|0\" nationalPrefixTransformRule=\"20$1\">\n",
   str% "      <availableFormats>\n",
   str% "        <numberFormat pattern=\"(\\d{2})(\\d{2})(\\d{3})(\\d{2})\" nationalPrefixFormattingRule=\"$NP$FG\">\n",
   str% "          <leadingDigits>[23]</leadingDigits>\n",
   str% "          <format>$1 $2 $3 $4</format>\n",
   str% "        </numberFormat>\n",
   str% "      </availableFormats>\n",
   str% "      <generalDesc>\n",
   str% "        <nationalNumberPattern>[23]\\d{8}</nationalNumberPattern>\n",
   str% "      </generalDesc>\n",
   str% "      <!-- Added the prefixes 20 44 and 20 47 as they seem popular on the internet - the plan says\n",
   str% "           20 4 is for the rest of the province of Antanarivo, but then fails to mention any area\n",
   str% "           codes beginning with 4. -->\n",
   str% "      <fixedLine>\n",
   str% "        <possibleLengths national=\"9\" localOnly=\"7\"/>\n",
   str% "        <exampleNumber>202123456</exampleNumber>\n",
   str% "        <nationalNumberPattern>\n",
   str% "          2072[29]\\d{4}|\n",
   str% "          20(?:\n",
   str% "            2\\d|\n",
   str% "            4[47]|\n",
   str% "            5[3467]|\n",
   str% "            6[279]|\n",
   str% "            7[356]|\n",
   str% "            8[268]|\n",
   str% "            9[2457]\n",
   str% "          )\\d{5}\n",
   str% "        </nationalNumberPattern>\n",
   str% "      </fixedLine>\n",
   str% "      <!-- The numbering plan suggests the third digit, Z, should be 24-9, but this is not borne\n",
   str% "           out by reality. -->\n",
   str% "      <mobile>\n",
   str% "        <possibleLengths national=\"9\"/>\n",
   str% "        <exampleNumber>321234567</exampleNumber>\n",
   str% "        <nationalNumberPattern>3[2-9]\\d{7}</nationalNumberPattern>\n",
   str% "      </mobile>\n",
   str% "      <!-- Putting VSAT numbers here. -->\n",
   str% "      <voip>\n",
   str% "        <possibleLengths national=\"9\"/>\n",
   str% "        <exampleNumber>221234567</exampleNumber>\n",
   str% "        <nationalNumberPattern>22\\d{7}</nationalNumberPattern>\n",
   str% "      </voip>\n",
   str% "    </territory>"]

/-- the text up to the end of territory id=MH countryCode=692 -/
noncomputable def MH : List Str :=
  [str% "\n",
   str% "\n",
   str% "    <!-- Marshall Islands (MH) -->\n",
   str% "    <!-- http://www.itu.int/oth/T0202000085/en -->\n",
   str% "    <territory id=\"MH\" countryCode=\"692\" internationalPrefix=\"011\" nationalPrefix=\"1\">\n",
   str% "      <availableFormats>\n",
   str% "        <numberFormat pattern=\"(\\d{3})(\\d{4})\">\n",
   str% "          <leadingDigits>[2-6]</leadingDigits>\n",
   str% "          <format>$1-$2</format>\n",
   str% "        </numberFormat>\n",
   str% "      </availableFormats>\n",
   str% "      <generalDesc>\n",
   str% "        <nationalNumberPattern>\n",
   str% "          329\\d{4}|\n",
   str% "          (?:\n",
   str% "            [256]\\d|\n",
   str% "            45\n",
   str% "          )\\d{5}\n",
   str% "        </nationalNumberPattern>\n",
   str% "      </generalDesc>\n",
   str% "      <fixedLine>\n",
   str% "        <possibleLengths national=\"7\"/>\n",
   str% "        <exampleNumber>2471234</exampleNumber>\n",
   str% "        <nationalNumberPattern>\n",
   str% "          (?:\n",
   str% "            247|\n",
   str% "            528|\n",
   str% "            625\n",
   str% "          )\\d{4}\n",
   str% "        </nationalNumberPattern>\n",
   str% "      </fixedLine>\n",
   str% "      <mobile>\n",
   str% "        <possibleLengths national=\"7\"/>\n",
   str% "        <exampleNumber>2351234</exampleNumber>\n",
   str% "        <nationalNumberPattern>\n",
   str% "          (?:\n",
   str% "            (?:\n",
   str% "              23|\n",
   str% "              54\n",
   str% "            )5|\n",
   str% "            329|\n",
   str% "            45[35-8]\n",
   str% "          )\\d{4}\n",
   str% "        </nationalNumberPattern>\n",
   str% "      </mobile>\n",
   str% "      <!-- VSAT prefixes are here. -->\n",
   str% "      <voip>\n",
   str% "        <possibleLengths national=\"7\"/>\n",
   str% "        <exampleNumber>6351234</exampleNumber>\n",
   str% "        <nationalNumberPattern>635\\d{4}</nationalNumberPattern>\n",
   str% "      </voip>\n",
   str% "    </territory>"]

/-- the text up to the end of territory id=MK countryCode=389 -/
noncomputable def MK : List Str :=
  [str% "\n",
   str% "\n",
   str% "    <!-- North Macedonia (MK) -->\n",
   str% "    <!-- http://www.itu.int/oth/T02020000CE/en -->\n",
   str% "    <!-- https://e-agencija.aek.mk/aek-crm-portal/Pages/Public/PublicFreeSeries/PublicFreeSeries -->\n",
   str% "    <territory id=\"MK\" countryCode=\"389\" internationalPrefix=\"00\" nationalPrefix=\"0\"\n",
   str% "               mobileNumberPortableRegion=\"true\">\n",
   str% "      <availableFormats>\n",
   str% "        <!-- Formats follow wikipedia. For fixed-line numbers with single digit area codes. -->\n",
   str% "        <numberFormat pattern=\"(\\d)(\\d{3})(\\d{4})\" nationalPrefixFormattingRule=\"$NP$FG\">\n",
   str% "          <leadingDigits>\n",
   str% "            2|\n",
   str% "            34[47]|\n",
   str% "            4(?:\n",
   str% "              [37]7|\n",
   str% "              5[47]|\n",
   str% "              64\n",
   str% "            )\n",
   str% "          </leadingDigits>\n",
   str% "          <format>$1 $2 $3</format>\n",
   str% "        </numberFormat>\n",
   str% "        <!-- For fixed-line numbers with two digit area codes and mobile numbers -->\n",
   str% "        <numberFormat pattern=\"(\\d{2})(\\d{3})(\\d{3})\" nationalPrefixFormattingRule=\"$NP$FG\">\n",
   str% "          <leadingDigits>[347]</leadingDigits>\n",
   str% "          <format>$1 $2 $3</format>\n",
   str% "        </numberFormat>\n",
   str% "        <!-- For variable cost ranges. Eg: toll-free, premium-rate -->\n",
   str% "        <numberFormat pattern=\"(\\d{3})(\\d)(\\d{2})(\\d{2})\" nationalPrefixFormattingRule=\"$NP$FG\">\n",
   str% "          <leadingDigits>[58]</leadingDigits>\n",
   str% "          <format>$1 $2 $3 $4</format>\n",
   str% "        </numberFormat>\n",
   str% "      </availableFormats>\n",
   str% "      <generalDesc>\n",
   str% "        <nationalNumberPattern>[2-578]\\d{7}</nationalNumberPattern>\n",
   str% "      </generalDesc>\n",
   str% "      <!-- For easier maintenance, supporting ranges at 3 digit granularity vs 5 digit granular\n",
   str% "           ranges mentioned in AEK's web portal. -->\n",
   str% "      <fixedLine>\n",
   str% "        <possibleLengths national=\"8\" localOnly=\"6,7\"/>\n",
   str% "        <exampleNumber>22012345</exampleNumber>\n",
   str% "        <nationalNumberPattern>\n",
   str% "          (?:\n",
   str% "            (?:\n",
   str% "              2(?:\n",
   str% "                62|\n",
   str% "                77\n",
   str% "              )0|\n",
   str% "              3444\n",
   str% "            )\\d|\n",
   str% "            4[56]440\n",
   str% "          )\\d{3}|\n",
   str% "          (?:\n",
   str% "            34|\n",
   str% "            4[357]\n",
   str% "          )700\\d{3}|\n",
   str% "          (?:\n",
   str% "            2(?:\n",
   str% "              [0-3]\\d|\n",
   str% "              5[0-578]|\n",
   str% "              6[01]|\n",
   str% "              82\n",
   str% "            )|\n",
   str% "            3(?:\n",
   str% "              1[3-68]|\n",
   str% "              [23][2-68]|\n",
   str% "              4[23568]\n",
   str% "            )|\n",
   str% "            4(?:\n",
   str% "              [23][2-68]|\n",
   str% "              4[3-68]|\n",
   str% "              5[2568]|\n",
   str% "              6[25-8]|\n",
   str% "              7[24-68]|\n",
   str% "              8[4-68]\n",
   str% "            )\n",
   str% "          )\\d{5}\n",
   str% "        </nationalNumberPattern>\n",
   str% "      </fixedLine>\n",
   str% "      <!-- 79300-79375 were the only ranges assigned to one.Vip according to IR.21 docs. We support\n",
   str% "           all of 793 to keep the regex simple. As info in AEK's portal is not complete, supporting\n",
   str% "           ranges at 4 digit granularity vs 5 digit granular ranges mentioned. -->\n",
   str% "      <mobile>\n",
   str% "        <possibleLengths national=\"8\"/>\n",
   str% "        <exampleNumber>72345678</exampleNumber>\n",
   str% "        <nationalNumberPattern>\n",
   str% "          7(?:\n",
   str% "            3555|\n",
   str% "            (?:\n",
   str% "              474|\n",
   str% "              9[019]7\n",
   str% "            )7\n",
   str% "          )\\d{3}|\n",
   str% "          7(?:\n",
   str% "            [0-25-8]\\d\\d|\n",
   str% "            3(?:\n",
   str% "              [1-478]\\d|\n",
   str% "              6[01]\n",
   str% "            )|\n",
   str% "            4(?:\n",
   str% "              2\\d|\n",
   str% "              60|\n",
   str% "              7[01578]\n",
   str% "            )|\n",
   str% "            9(?:\n",
   str% "              [2-4]\\d|\n",
   str% "              5[01]|\n",
   str% "              7[015]\n",
   str% "            )\n",
   str% "          )\\d{4}\n",
   str% "        </nationalNumberPattern>\n",
   str% "      </mobile>\n",
   str% "      <tollFree>\n",
   str% "        <possibleLengths national=\"8\"/>\n",
   str% "        <exampleNumber>80012345</exampleNumber>\n",
   str% "        <nationalNumberPattern>800\\d{5}</nationalNumberPattern>\n",
   str% "      </tollFree>\n",
   str% "      <premiumRate>\n",
   str% "        <possibleLengths national=\"8\"/>\n",
   str% "        <exampleNumber>50012345</exampleNumber>\n",
   str% "        <nationalNumberPattern>5\\d{7}</nationalNumberPattern>\n",
   str% "      </premiumRate>\n",
   str% "      <sharedCost>\n",
   str% "        <possibleLengths national=\"8\"/>\n",
   str% "        <exampleNumber>80123456</exampleNumber>\n",
   str% "        <nationalNumberPattern>\n",
   str% "          8(?:\n",
   str% "            0[1-9]|\n",
   str% "            [1-9]\\d\n",
   str% "          )\\d{5}\n",
   str% "        </nationalNumberPattern>\n",
   str% "      </sharedCost>\n",
   str% "    </territory>"]

/-- the text up to the end of territory id=ML countryCode=223 -/
noncomputable def ML : List Str :=
  [str% "\n",
   str% "\n",
   str% "    <!-- Mali (ML) -->\n",
   str% "    <!-- http://www.itu.int/oth/T0202000083/en -->\n",
   str% "    <!-- http://crt-mali.org/pdf/plan_num -->\n",
   str% "    <territory id=\"ML\" countryCode=\"223\" internationalPrefix=\"00\">\n",
   str% "      <availableFormats>\n",
   str% "        <!-- Explicitly block-format some shortcodes where prefixes overlap \"normal\" numbers.\n",
   str% "             This is needed since there's no national prefix to distinguish national numbers. -->\n",
   str% "        <numberFormat pattern=\"(\\d{4})\">\n",
   str% "          <leadingDigits>\n",
   str% "            67[057-9]|\n",
   str% "            74[045]\n",
   str% "          </leadingDigits>\n",
   str% "          <leadingDigits>\n",
   str% "            67(?:\n",
   str% "              0[09]|\n",
   str% "              [59]9|\n",
   str% "              77|\n",
   str% "              8[89]\n",
   str% "            )|\n",
   str% "            74(?:\n",
   str% "              0[02]|\n",
   str% "              44|\n",
   str% "              55\n",
   str% "            )\n",
   str% "          </leadingDigits>\n",
   str% "          <format>$1</format>\n",
   str% "          <intlFormat>NA</intlFormat>\n",
   str% "        </numberFormat>\n",
   str% "        <numberFormat pattern=\"(\\d{2})(\\d{2})(\\d{2})(\\d{2})\">\n",
   str% "          <leadingDigits>[24-9]</leadingDigits>\n",
   str% "          <format>$1 $2 $3 $4</format>\n",
   str% "        </numberFormat>\n",
   str% "      </availableFormats>\n",
   str% "      <generalDesc>\n",
   str% "        <nationalNumberPattern>[24-9]\\d{7}</nationalNumberPattern>\n",
   str% "      </generalDesc>\n",
   str% "      <noInternationalDialling>\n",
   str% "        <possibleLengths national=\"8\"/>\n",
   str% "        <nationalNumberPattern>80\\d{6}</nationalNumberPattern>\n",
   str% "      </noInternationalDialling>\n",
   str% "      <fixedLine>\n",
   str% "        <possibleLengths national=\"8\"/>\n",
   str% "        <exampleNumber>20212345</exampleNumber>\n",
   str% "        <nationalNumberPattern>\n",
   str% "          2(?:\n",
   str% "            07[0-8]|\n",
   str% "            12[67]\n",
   str% "          )\\d{4}|\n",
   str% "          (?:\n",
   str% "            2(?:\n",
   str% "              02|\n",
   str% "              1[4-689]\n",
   str% "            )|\n",
   str% "            4(?:\n",
   str% "              0[0-4]|\n",
   str% "              4[1-59]\n",
   str% "            )\n",
   str% "          )\\d{5}\n",
   str% "        </nationalNumberPattern>\n",
   str% "      </fixedLine>\n",
   str% "      <mobile>\n",
   str% "        <possibleLengths national=\"8\"/>\n",
   str% "        <exampleNumber>65012345</exampleNumber>\n",
   str% "        <nationalNumberPattern>\n",
   str% "          2(?:\n",
   str% "            0(?:\n",
   str% "              01|\n",
   str% "              79\n",
   str% "            )|\n",
   str% "            17\\d\n",
   str% "          )\\d{4}|\n",
   str% "          (?:\n",
   str% "            5[0-3]|\n",
   str% "            [679]\\d|\n",
   str% "            8[2-59]\n",
   str% "          )\\d{6}\n",
   str% "        </nationalNumberPattern>\n",
   str% "      </mobile>\n",
   str% "      <!-- Online examples have not been found, but this seems to follow the prescriptions in the\n",
   str% "           plan. -->\n",
   str% "      <tollFree>\n",
   str% "        <possibleLengths national=\"8\"/>\n",
   str% "        <exampleNumber>80012345</exampleNumber>\n",
   str% "        <nationalNumberPattern>80\\d{6}</nationalNumberPattern>\n",
   str% "      </tollFree>\n",
   str% "    </territory>"]

/-- the text up to the end of territory id=MM countryCode=95 -/
noncomputable def MM : List Str :=
  [str% "\n",
   str% "\n",
   str% "    <!-- Myanmar (Burma) (MM) -->\n",
   str% "    <!-- http://www.itu.int/oth/T0202000092/en -->\n",
   str% "    <territory id=\"MM\" countryCode=\"95\" internationalPrefix=\"00\" nationalPrefix=\"0\">\n",
   str% "      <availableFormats>\n",
   str% "        <!-- 1-digit area codes (short format). -->\n",
   str% "        <numberFormat pattern=\"(\\d)(\\d{2})(\\d{3})\" nationalPrefixFormattingRule=\"$NP$FG\">\n",
   str% "          <leadingDigits>\n",
   str% "            16|\n",
   str% "            2\n",
   str% "          </leadingDigits>\n",
   str% "          <format>$1 $2 $3</format>\n",
   str% "        </numberFormat>\n",
   str% "        <!-- 2-digit area codes (short format). -->\n",
   str% "        <numberFormat pattern=\"(\\d{2})(\\d{2})(\\d{3})\" nationalPrefixFormattingRule=\"$NP$FG\">\n",
   str% "          <leadingDigits>\n",
   str% "            4(?:\n",
   str% "              [2-46]|\n",
   str% "              5[3-5]\n",
   str% "            )|\n",
   str% "            5|\n",
   str% "            6(?:\n",
   str% "              [1-689]|\n",
   str% "              7[235-7]\n",
   str% "            )|\n",
   str% "            7(?:\n",
   str% "              [0-4]|\n",
   str% "              5[2-7]\n",
   str% "            )|\n",
   str% "            8[1-5]|\n",
   str% "            (?:\n",
   str% "              60|\n",
   str% "              86\n",
   str% "            )[23]\n",
   str% "          </leadingDigits>\n",
   str% "          <format>$1 $2 $3</format>\n",
   str% "        </numberFormat>\n",
   str% "        <!-- 1-digit area codes. -->\n",
   str% "        <numberFormat pattern=\"(\\d)(\\d{3})(\\d{3,4})\" nationalPrefixFormattingRule=\"$NP$FG\">\n",
   str% "          <leadingDigits>\n",
   str% "            [12]|\n",
   str% "            452|\n",
   str% "            678|\n",
   str% "            86\n",
   str% "          </leadingDigits>\n",
   str% "          <leadingDigits>\n",
   str% "            [12]|\n",
   str% "            452|\n",
   str% "            6788|\n",
   str% "            86\n",
   str% "          </leadingDigits>\n",
   str% "          <format>$1 $2 $3</format>\n",
   str% "        </numberFormat>\n",
   str% "        <!-- 2-digit area codes. -->\n",
   str% "        <numberFormat pattern=\"(\\d{2})(\\d{3})(\\d{3,4})\" nationalPrefixFormattingRule=\"$NP$FG\">\n",
   str% "          <leadingDigits>\n",
   str% "            [4-7]|\n",
   str% "            8[1-35]\n",
   str% "          </leadingDigits>\n",
   str% "          <format>$1 $2 $3</format>\n",
   str% "        </numberFormat>\n",
   str% "        <numberFormat pattern=\"(\\d)(\\d{3})(\\d{4,6})\" nationalPrefixFormattingRule=\"$NP$FG\">\n",
   str% "          <leadingDigits>\n",
   str% "            9(?:\n",
   str% "              2[0-4]|\n",
   str% "              [35-9]|\n",
   str% "              4[137-9]\n",
   str% "            )\n",
   str% "          </leadingDigits>\n",
   str% "          <format>$1 $2 $3</format>\n",
   str% "        </numberFormat>\n",
   str% "        <!-- 1-digit area codes (long format). -->\n",
   str% "        <numberFormat pattern=\"(\\d)(\\d{4})(\\d{4})\" nationalPrefixFormattingRule=\"$NP$FG\">\n",
   str% "          <leadingDigits>2</leadingDigits>\n",
   str% "          <format>$1 $2 $3</format>\n",
   str% "        </numberFormat>\n",
   str% "        <!-- Toll-free, see: http://mpt.com.mm/en/first-toll-free-call-service-myanmar-mpt/ -->\n",
   str% "        <numberFormat pattern=\"(\\d{3})(\\d{3})(\\d{4})\" nationalPrefixFormattingRule=\"$NP$FG\">\n",
   str% "          <leadingDigits>8</leadingDigits>\n",
   str% "          <format>$1 $2 $3</format>\n",
   str% "        </numberFormat>\n",
   str% "        <!-- Following majority of numbers found online. -->\n",
   str% "        <numberFormat pattern=\"(\\d)(\\d{3})(\\d{3})(\\d{3})\" nationalPrefixFormattingRule=\"$NP$FG\">\n",
   str% "          <leadingDigits>92</leadingDigits>\n",
   str% "          <format>$1 $2 $3 $4</format>\n",
   str% "        </numberFormat>\n",
   str% "        <numberFormat pattern=\"(\\d)(\\d{5})(\\d{4})\" nationalPrefixFormattingRule=\"$NP$FG\">\n",
   str% "          <leadingDigits>9</leadingDigits>\n",
   str% "          <format>$1 $2 $3</format>\n",
   str% "        </numberFormat>\n",
   str% "      </availableFormats>\n",
   str% "      <generalDesc>\n",
   str% "        <nationalNumberPattern>\n",
   str% "          1\\d{5,7}|\n",
   str% "          95\\d{6}|\n",
   str% "          (?:\n",
   str% "            [4-7]|\n",
   str% "            9[0-46-9]\n",
   str% "          )\\d{6,8}|\n",
   str% "          (?:\n",
   str% "            2|\n",
   str% "            8\\d\n",
   str% "          )\\d{5,8}\n",
   str% "        </nationalNumberPattern>\n",
   str% "      </generalDesc>\n",
   str% "      <fixedLine>\n",
   str% "        <possibleLengths national=\"[6-9]\" localOnly=\"5\"/>\n",
   str% "        <exampleNumber>1234567</exampleNumber>\n",
   str% "        <nationalNumberPattern>\n",
   str% "          (?:\n",
   str% "            1(?:\n",
   str% "              (?:\n",
   str% "                12|\n",
   str% "                [28]\\d|\n",
   str% "                3[56]|\n",
   str% "                7[3-6]|\n",
   str% "                9[0-6]\n",
   str% "              )\\d|\n",
   str% "              4(?:\n",
   str% "                2[29]|\n",
   str% "                7[0-2]|\n",
   str% "                83\n",
   str% "              )|\n",
   str% "              6\n",
   str% "            )|\n",
   str% "            2(?:\n",
   str% "              2(?:\n",
   str% "                00|\n",
   str% "                8[34]\n",
   str% "              )|\n",
   str% "              4(?:\n",
   str% "                0\\d|\n",
   str% "                22|\n",
   str% "                7[0-2]|\n",
   str% "                83\n",
   str% "              )|\n",
   str% "              51\\d\\d\n",
   str% "            )|\n",
   str% "            4(?:\n",
   str% "              2(?:\n",
   str% "                2\\d\\d|\n",
   str% "                48[013]\n",
   str% "              )|\n",
   str% "              3(?:\n",
   str% "                20\\d|\n",
   str% "                4(?:\n",
   str% "                  70|\n",
   str% "                  83\n",
   str% "                )|\n",
   str% "                56\n",
   str% "              )|\n",
   str% "              420\\d|\n",
   str% "              5(?:\n",
   str% "                2\\d|\n",
   str% "                470\n",
   str% "              )\n",
   str% "            )|\n",
   str% "            6(?:\n",
   str% "              0(?:\n",
   str% "                [23]|\n",
   str% "                88\\d\n",
   str% "              )|\n",
   str% "              (?:\n",
   str% "                124|\n",
   str% "                [56]2\\d\n",
   str% "              )\\d|\n",
   str% "              2472|\n",
   str% "              3(?:\n",
   str% "                20\\d|\n",
   str% "                470\n",
   str% "              )|\n",
   str% "              4(?:\n",
   str% "                2[04]\\d|\n",
   str% "                472\n",
   str% "              )|\n",
   str% "              7(?:\n",
   str% "                3\\d\\d|\n",
   str% "                4[67]0|\n",
   str% "                8(?:\n",
   str% "                  [01459]\\d|\n",
   str% "                  8\n",
   str% "                )\n",
   str% "              )\n",
   str% "            )\n",
   str% "          )\\d{4}|\n",
   str% "          5(?:\n",
   str% "            2(?:\n",
   str% "              2\\d{5,6}|\n",
   str% "              47[02]\\d{4}\n",
   str% "            )|\n",
   str% "            (?:\n",
   str% "              3472|\n",
   str% "              4(?:\n",
   str% "                2(?:\n",
   str% "                  1|\n",
   str% "                  86\n",
   str% "                )|\n",
   str% "                470\n",
   str% "              )|\n",
   str% "              522\\d|\n",
   str% "              6(?:\n",
   str% "                20\\d|\n",
   str% "                483\n",
   str% "              )|\n",
   str% "              7(?:\n",
   str% "                20\\d|\n",
   str% "                48[01]\n",
   str% "              )|\n",
   str% "              8(?:\n",
   str% "                20\\d|\n",
   str% "                47[02]\n",
   str% "              )|\n",
   str% "              9(?:\n",
   str% "                20\\d|\n",
   str% "                470\n",
   str% "              )\n",
   str% "            )\\d{4}\n",
   str% "          )|\n",
   str% "          7(?:\n",
   str% "            (?:\n",
   str% "              0470|\n",
   str% "              4(?:\n",
   str% "                25\\d|\n",
   str% "                470\n",
   str% "              )|\n",
   str% "              5(?:\n",
   str% "                202|\n",
   str% "                470|\n",
   str% "                96\\d\n",
   str% "              )\n",
   str% "            )\\d{4}|\n",
   str% "            1(?:\n",
   str% "              20\\d{4,5}|\n",
   str% "              4(?:\n",
   str% "                70|\n",
   str% "                83\n",
   str% "              )\\d{4}\n",
   str% "            )\n",
   str% "          )|\n",
   str% "          8(?:\n",
   str% "            1(?:\n",
   str% "              2\\d{5,6}|\n",
   str% "              4(?:\n",
   str% "                10|\n",
   str% "                7[01]\\d\n",
   str% "              )\\d{3}\n",
   str% "            )|\n",
   str% "            2(?:\n",
   str% "              2\\d{5,6}|\n",
   str% "              (?:\n",
   str% "                320|\n",
   str% "                490\\d\n",
   str% "              )\\d{3}\n",
   str% "            )|\n",
   str% "            (?:\n",
   str% "              3(?:\n",
   str% "                2\\d\\d|\n",
   str% "                470\n",
   str% "              )|\n",
   str% "              4[24-7]|\n",
   str% "              5(?:\n",
   str% "                (?:\n",
   str% "                  2\\d|\n",
   str% "                  51\n",
   str% "                )\\d|\n",
   str% "                4(?:\n",
   str% "                  [1-35-9]\\d|\n",
   str% "                  4[0-57-9]\n",
   str% "                )\n",
   str% "              )|\n",
   str% "              6[23]\n",
   str% "            )\\d{4}\n",
   str% "          )|\n",
   str% "          (?:\n",
   str% "            1[2-6]\\d|\n",
   str% "            4(?:\n",
   str% "              2[24-8]|\n",
   str% "              3[2-7]|\n",
   str% "              [46][2-6]|\n",
   str% "              5[3-5]\n",
   str% "            )|\n",
   str% "            5(?:\n",
   str% "              [27][2-8]|\n",
   str% "              3[2-68]|\n",
   str% "              4[24-8]|\n",
   str% "              5[23]|\n",
   str% "              6[2-4]|\n",
   str% "              8[24-7]|\n",
   str% "              9[2-7]\n",
   str% "            )|\n",
   str% "            6(?:\n",
   str% "              [19]20|\n",
   str% "              42[03-6]|\n",
   str% "              (?:\n",
   str% "                52|\n",
   str% "                7[45]\n",
   str% "              )\\d\n",
   str% "            )|\n",
   str% "            7(?:\n",
   str% "              [04][24-8]|\n",
   str% "              [15][2-7]|\n",
   str% "              22|\n",
   str% "              3[2-4]\n",
   str% "            )|\n",
   str% "            8(?:\n",
   str% "              1[2-689]|\n",
   str% "              2[2-8]|\n",
   str% "              (?:\n",
   str% "                [35]2|\n",
   str% "                64\n",
   str% "              )\\d\n",
   str% "            )\n",
   str% "          )\\d{4}|\n",
   str% "          25\\d{5,6}|\n",
   str% "          (?:\n",
   str% "            2[2-9]|\n",
   str% "            6(?:\n",
   str% "              1[2356]|\n",
   str% "              [24][2-6]|\n",
   str% "              3[24-6]|\n",
   str% "              5[2-4]|\n",
   str% "              6[2-8]|\n",
   str% "              7[235-7]|\n",
   str% "              8[245]|\n",
   str% "              9[24]\n",
   str% "            )|\n",
   str% "            8(?:\n",
   str% "              3[24]|\n",
   str% "              5[245]\n",
   str% "            )\n",
   str% "          )\\d{4}\n",
   str% "        </nationalNumberPattern>\n",
   str% "      </fixedLine>\n",
   str% "      <!-- Added 99[089] (8 digits), 961 (9 digits), 996 and 997 (10 digits) from bug\n",
   str% "           reports/numbers found online. -->\n",
   str% "      <mobile>\n",
   str% "        <possibleLengths national=\"[7-10]\"/>\n",
   str% "        <exampleNumber>92123456</exampleNumber>\n",
   str% "        <nationalNumberPattern>\n",
   str% "          (?:\n",
   str% "            17[01]|\n",
   str% "            9(?:\n",
   str% "              2(?:\n",
   str% "                [0-4]|\n",
   str% "                [56]\\d\\d\n",
   str% "              )|\n",
   str% "              (?:\n",
   str% "                3(?:\n",
   str% "                  [0-36]|\n",
   str% "                  4\\d\n",
   str% "                )|\n",
   str% "                (?:\n",
   str% "                  6\\d|\n",
   str% "                  8[89]|\n",
   str% "                  9[4-8]\n",
   str% "                )\\d|\n",
   str% "                7(?:\n",
   str% "                  3|\n",
   str% "                  40|\n",
   str% "                  [5-9]\\d\n",
   str% "                )\n",
   str% "              )\\d|\n",
   str% "              4(?:\n",
   str% "                (?:\n",
   str% "                  [0245]\\d|\n",
   str% "                  [1379]\n",
   str% "                )\\d|\n",
   str% "                88\n",
   str% "              )|\n",
   str% "              5[0-6]\n",
   str% "            )\\d\n",
   str% "          )\\d{4}|\n",
   str% "          9[69]1\\d{6}|\n",
   str% "          9(?:\n",
   str% "            [68]\\d|\n",
   str% "            9[089]\n",
   str% "          )\\d{5}\n",
   str% "        </nationalNumberPattern>\n",
   str% "      </mobile>\n",
   str% "      <tollFree>\n",
   str% "        <possibleLengths national=\"10\"/>\n",
   str% "        <exampleNumber>8008001234</exampleNumber>\n",
   str% "        <nationalNumberPattern>\n",
   str% "          80080(?:\n",
   str% "            0[1-9]|\n",
   str% "            2\\d\n",
   str% "          )\\d{3}\n",
   str% "        </nationalNumberPattern>\n",
   str% "      </tollFree>\n",
   str% "      <voip>\n",
   str% "        <possibleLengths national=\"8\"/>\n",
   str% "        <exampleNumber>13331234</exampleNumber>\n",
   str% "        <nationalNumberPattern>1333\\d{4}</nationalNumberPattern>\n",
   str% "      </voip>\n",
   str% "    </territory>"]

/-- the text up to the end of territory id=MN countryCode=976 -/
noncomputable def MN : List Str :=
  [str% "\n",
   str% "\n",
   str% "    <!-- Mongolia (MN) -->\n",
   str% "    <!-- http://www.itu.int/oth/T020200008E/en -->\n",
   str% "    <!-- https://crc.gov.mn/articles/slug11334/en -->\n",
   str% "    <territory id=\"MN\" countryCode=\"976\" internationalPrefix=\"001\" nationalPrefix=\"0\">\n",
   str% "      <availableFormats>\n",
   str% "        <!-- For fixed-line single digit area code numbers. We have only \"1\" as single digit\n",
   str% "             area code until now. Grouping access code and area code, this is why first two\n",
   str% "             digits are grouped. -->\n",
   str% "        <numberFormat pattern=\"(\\d{2})(\\d{2})(\\d{4})\" nationalPrefixFormattingRule=\"$NP$FG\">\n",
   str% "          <leadingDigits>\n",
   str% "            11|\n",
   str% "            2[16]\n",
   str% "          </leadingDigits>\n",
   str% "          <format>$1 $2 $3</format>\n",
   str% "        </numberFormat>\n",
   str% "        <!-- Format for 5X wireless local loop numbers (that are supported in fixed-line)\n",
   str% "             which do not need national prefix as per online results. -->\n",
   str% "        <numberFormat pattern=\"(\\d{4})(\\d{4})\">\n",
   str% "          <leadingDigits>[5-9]</leadingDigits>\n",
   str% "          <format>$1 $2</format>\n",
   str% "        </numberFormat>\n",
   str% "        <!-- For fixed-line two digit area code numbers. -->\n",
   str% "        <numberFormat pattern=\"(\\d{3})(\\d{5,6})\" nationalPrefixFormattingRule=\"$NP$FG\">\n",
   str% "          <leadingDigits>[12]2[1-3]</leadingDigits>\n",
   str% "          <format>$1 $2</format>\n",
   str% "        </numberFormat>\n",
   str% "        <!-- For fixed-line three digit area code numbers. -->\n",
   str% "        <numberFormat pattern=\"(\\d{4})(\\d{5,6})\" nationalPrefixFormattingRule=\"$NP$FG\">\n",
   str% "          <leadingDigits>\n",
   str% "            [12](?:\n",
   str% "              27|\n",
   str% "              3[2-8]|\n",
   str% "              4[2-68]|\n",
   str% "              5[1-4689]\n",
   str% "            )\n",
   str% "          </leadingDigits>\n",
   str% "          <leadingDigits>\n",
   str% "            [12](?:\n",
   str% "              27|\n",
   str% "              3[2-8]|\n",
   str% "              4[2-68]|\n",
   str% "              5[1-4689]\n",
   str% "            )[0-3]\n",
   str% "          </leadingDigits>\n",
   str% "          <format>$1 $2</format>\n",
   str% "        </numberFormat>\n",
   str% "        <!-- For fixed-line four digit area code numbers. -->\n",
   str% "        <numberFormat pattern=\"(\\d{5})(\\d{4,5})\" nationalPrefixFormattingRule=\"$NP$FG\">\n",
   str% "          <leadingDigits>[12]</leadingDigits>\n",
   str% "          <format>$1 $2</format>\n",
   str% "        </numberFormat>\n",
   str% "      </availableFormats>\n",
   str% "      <generalDesc>\n",
   str% "        <nationalNumberPattern>\n",
   str% "          [12]\\d{7,9}|\n",
   str% "          [5-9]\\d{7}\n",
   str% "        </nationalNumberPattern>\n",
   str% "      </generalDesc>\n",
   str% "      <!-- Note the leading digit is the access code: 1 is used by Mongolia Telecom subscribers\n",
   str% "           and 2 is used by Mongolian Railway subscribers. The area code then follows the access\n",
   str% "           code, and could be 1 to 4 digits long. We also cover wireless local loop numbers here\n",
   str% "           as well, even though we are not certain whether they are in fact fixed or mobile in\n",
   str% "           this country. 5-digit subscriber numbers for 4-digit area codes have been added due to\n",
   str% "           online numbers being found. -->\n",
   str% "      <fixedLine>\n",
   str% "        <possibleLengths national=\"[8-10]\" localOnly=\"[4-6]\"/>\n",
   str% "        <exampleNumber>53123456</exampleNumber>\n",
   str% "        <nationalNumberPattern>\n",
   str% "          [12](?:\n",
   str% "            2[1-3]|\n",
   str% "            (?:\n",
   str% "              3[2-8]|\n",
   str% "              4[2-68]|\n",
   str% "              5[1-4689]\n",
   str% "            )\\d\n",
   str% "          )\\d{5,6}|\n",
   str% "          7(?:\n",
   str% "            0(?:\n",
   str% "              [0-5]\\d|\n",
   str% "              7[078]|\n",
   str% "              80\n",
   str% "            )|\n",
   str% "            128\n",
   str% "          )\\d{4}|\n",
   str% "          [12]27\\d{6}|\n",
   str% "          (?:\n",
   str% "            11|\n",
   str% "            2[16]|\n",
   str% "            5[368]\n",
   str% "          )\\d{6}\n",
   str% "        </nationalNumberPattern>\n",
   str% "      </fixedLine>\n",
   str% "      <mobile>\n",
   str% "        <possibleLengths national=\"8\"/>\n",
   str% "        <exampleNumber>88123456</exampleNumber>\n",
   str% "        <nationalNumberPattern>\n",
   str% "          (?:\n",
   str% "            87[01]|\n",
   str% "            92[0139]\n",
   str% "          )\\d{5}|\n",
   str% "          (?:\n",
   str% "            5[05]|\n",
   str% "            6[069]|\n",
   str% "            7[28]|\n",
   str% "            8[0135689]|\n",
   str% "            9[013-9]\n",
   str% "          )\\d{6}\n",
   str% "        </nationalNumberPattern>\n",
   str% "      </mobile>\n",
   str% "      <!-- No tollFree or premiumRate information can be found. -->\n",
   str% "      <!-- According to the document this could be stricter, but there are counter examples\n",
   str% "           online. -->\n",
   str% "      <voip>\n",
   str% "        <possibleLengths national=\"8\"/>\n",
   str% "        <exampleNumber>75123456</exampleNumber>\n",
   str% "        <nationalNumberPattern>\n",
   str% "          712[0-79]\\d{4}|\n",
   str% "          7(?:\n",
   str% "            1[013-9]|\n",
   str% "            [5-79]\\d\n",
   str% "          )\\d{5}\n",
   str% "        </nationalNumberPattern>\n",
   str% "      </voip>\n",
   str% "    </territory>"]

/-- the text up to the end of territory id=MO countryCode=853 -/
noncomputable def MO : List Str :=
  [str% "\n",
   str% "\n",
   str% "    <!-- Macao (MO) -->\n",
   str% "    <!-- No tollFree or premiumRate information can be found. -->\n",
   str% "    <!-- http://www.itu.int/oth/T020200007E/en -->\n",
   str% "    <!-- http://www.dsrt.gov.mo/web/en/generalinfo/allocatednum -->\n",
   str% "    <territory id=\"MO\" countryCode=\"853\" internationalPrefix=\"00\">\n",
   str% "      <availableFormats>\n",
   str% "        <numberFormat pattern=\"(\\d{4})(\\d{3})\">\n",
   str% "          <leadingDigits>0</leadingDigits>\n",
   str% "          <format>$1 $2</format>\n",
   str% "        </numberFormat>\n",
   str% "        <numberFormat pattern=\"(\\d{4})(\\d{4})\">\n",
   str% "          <leadingDigits>[268]</leadingDigits>\n",
   str% "          <format>$1 $2</format>\n",
   str% "        </numberFormat>\n",
   str% "      </availableFormats>\n",
   str% "      <generalDesc>\n",
   str% "        <nationalNumberPattern>\n",
   str% "          0800\\d{3}|\n",
   str% "          (?:\n",
   str% "            28|\n",
   str% "            [68]\\d\n",
   str% "          )\\d{6}\n",
   str% "        </nationalNumberPattern>\n",
   str% "      </generalDesc>\n",
   str% "      <!-- Added support to specific 811 sub range(3 digit granularity) based on info in\n",
   str% "           telecommunications.ctt.gov.mo. Other ranges are from ITU doc. -->\n",
   str% "      <fixedLine>\n",
   str% "        <possibleLengths national=\"8\"/>\n",
   str% "        <exampleNumber>28212345</exampleNumber>\n",
   str% "        <nationalNumberPattern>\n",
   str% "          (?:\n",
   str% "            28[2-9]|\n",
   str% "            8(?:\n",
   str% "              11|\n",
   str% "              [2-57-9]\\d\n",
   str% "            )\n",
   str% "          )\\d{5}\n",
   str% "        </nationalNumberPattern>\n",
   str% "      </fixedLine>\n",
   str% "      <mobile>\n",
   str% "        <possibleLengths national=\"8\"/>\n",
   str% "        <exampleNumber>66123456</exampleNumber>\n",
   str% "        <nationalNumberPattern>\n",
   str% "          6800[0-79]\\d{3}|\n",
   str% "          6(?:\n",
   str% "            [235]\\d\\d|\n",
   str% "            6(?:\n",
   str% "              0[0-5]|\n",
   str% "              [1-9]\\d\n",
   str% "            )|\n",
   str% "            8(?:\n",
   str% "              0[1-9]|\n",
   str% "              [14-8]\\d|\n",
   str% "              2[5-9]|\n",
   str% "              [39][0-4]\n",
   str% "            )\n",
   str% "          )\\d{4}\n",
   str% "        </nationalNumberPattern>\n",
   str% "      </mobile>\n",
   str% "      <tollFree>\n",
   str% "        <possibleLengths national=\"7\"/>\n",
   str% "        <exampleNumber>0800501</exampleNumber>\n",
   str% "        <nationalNumberPattern>0800\\d{3}</nationalNumberPattern>\n",
   str% "      </tollFree>\n",
   str% "    </territory>"]

/-- the text up to the end of territory id=MP countryCode=1 -/
noncomputable def MP : List Str :=
  [str% "\n",
   str% "\n",
   str% "    <!-- Northern Mariana Islands (MP) -->\n",
   str% "    <!-- Calling code and formatting shared with 'US' -->\n",
   str% "    <!-- http://www.itu.int/oth/T02020000EE/en -->\n",
   str% "    <!-- http://www.cnmiphonebook.com/ -->\n",
   str% "    <territory id=\"MP\" countryCode=\"1\" leadingDigits=\"670\" internationalPrefix=\"011\"\n",
   str% "               nationalPrefix=\"1\" nationalPrefixForParsing=\"([2-9]\\d{6})$|1\"\n",
   str% "               nationalPrefixTransformRule=\"670$1\">\n",
   str% "      <generalDesc>\n",
   str% "        <nationalNumberPattern>\n",
   str% "          [58]\\d{9}|\n",
   str% "          (?:\n",
   str% "            67|\n",
   str% "            90\n",
   str% "          )0\\d{7}\n",
   str% "        </nationalNumberPattern>\n",
   str% "      </generalDesc>\n",
   str% "      <!-- Extra exchange codes 232, 289, 355, 472, 633, 637, 646, 647, 649, 653, 687, 734 and 828\n",
   str% "           were seen in the white and yellow pages, but no numbers with these exchange codes have\n",
   str% "           proved to be diallable so we exclude them for now. 783 prefix is supported based on\n",
   str% "           user report. -->\n",
   str% "      <fixedLine>\n",
   str% "        <possibleLengths national=\"10\" localOnly=\"7\"/>\n",
   str% "        <exampleNumber>6702345678</exampleNumber>\n",
   str% "        <nationalNumberPattern>\n",
   str% "          670(?:\n",
   str% "            2(?:\n",
   str% "              3[3-7]|\n",
   str% "              56|\n",
   str% "              8[4-8]\n",
   str% "            )|\n",
   str% "            32[1-38]|\n",
   str% "            4(?:\n",
   str% "              33|\n",
   str% "              8[348]\n",
   str% "            )|\n",
   str% "            5(?:\n",
   str% "              32|\n",
   str% "              55|\n",
   str% "              88\n",
   str% "            )|\n",
   str% "            6(?:\n",
   str% "              64|\n",
   str% "              70|\n",
   str% "              82\n",
   str% "            )|\n",
   str% "            78[3589]|\n",
   str% "            8[3-9]8|\n",
   str% "            989\n",
   str% "          )\\d{4}\n",
   str% "        </nationalNumberPattern>\n",
   str% "      </fixedLine>\n",
   str% "      <mobile>\n",
   str% "        <possibleLengths national=\"10\" localOnly=\"7\"/>\n",
   str% "        <exampleNumber>6702345678</exampleNumber>\n",
   str% "        <nationalNumberPattern>\n",
   str% "          670(?:\n",
   str% "            2(?:\n",
   str% "              3[3-7]|\n",
   str% "              56|\n",
   str% "              8[4-8]\n",
   str% "            )|\n",
   str% "            32[1-38]|\n",
   str% "            4(?:\n",
   str% "              33|\n",
   str% "              8[348]\n",
   str% "            )|\n",
   str% "            5(?:\n",
   str% "              32|\n",
   str% "              55|\n",
   str% "              88\n",
   str% "            )|\n",
   str% "            6(?:\n",
   str% "              64|\n",
   str% "              70|\n",
   str% "              82\n",
   str% "            )|\n",
   str% "            78[3589]|\n",
   str% "            8[3-9]8|\n",
   str% "            989\n",
   str% "          )\\d{4}\n",
   str% "        </nationalNumberPattern>\n",
   str% "      </mobile>\n",
   str% "      <tollFree>\n",
   str% "        <possibleLengths national=\"10\"/>\n",
   str% "        <exampleNumber>8002123456</exampleNumber>\n",
   str% "        <nationalNumberPattern>\n",
   str% "          8(?:\n",
   str% "            00|\n",
   str% "            33|\n",
   str% "            44|\n",
   str% "            55|\n",
   str% "            66|\n",
   str% "            77|\n",
   str% "            88\n",
   str% "          )[2-9]\\d{6}\n",
   str% "        </nationalNumberPattern>\n",
   str% "      </tollFree>\n",
   str% "      <premiumRate>\n",
   str% "        <possibleLengths national=\"10\"/>\n",
   str% "        <exampleNumber>9002123456</exampleNumber>\n",
   str% "        <nationalNumberPattern>900[2-9]\\d{6}</nationalNumberPattern>\n",
   str% "      </premiumRate>\n",
   str% "      <!-- https://www.nationalnanpa.com/number_resource_info/5XX_codes.html -->\n",
   str% "      <personalNumber>\n",
   str% "        <possibleLengths national=\"10\"/>\n",
   str% "        <exampleNumber>5002345678</exampleNumber>\n",
   str% "        <nationalNumberPattern>\n",
   str% "          52(?:\n",
   str% "            3(?:\n",
   str% "              [2-46-9][02-9]\\d|\n",
   str% "              5(?:\n",
   str% "                [02-46-9]\\d|\n",
   str% "                5[0-46-9]\n",
   str% "              )\n",
   str% "            )|\n",
   str% "            4(?:\n",
   str% "              [2-478][02-9]\\d|\n",
   str% "              5(?:\n",
   str% "                [034]\\d|\n",
   str% "                2[024-9]|\n",
   str% "                5[0-46-9]\n",
   str% "              )|\n",
   str% "              6(?:\n",
   str% "                0[1-9]|\n",
   str% "                [2-9]\\d\n",
   str% "              )|\n",
   str% "              9(?:\n",
   str% "                [05-9]\\d|\n",
   str% "                2[0-5]|\n",
   str% "                49\n",
   str% "              )\n",
   str% "            )\n",
   str% "          )\\d{4}|\n",
   str% "          52[34][2-9]1[02-9]\\d{4}|\n",
   str% "          5(?:\n",
   str% "            00|\n",
   str% "            2[125-9]|\n",
   str% "            3[23]|\n",
   str% "            44|\n",
   str% "            66|\n",
   str% "            77|\n",
   str% "            88\n",
   str% "          )[2-9]\\d{6}\n",
   str% "        </nationalNumberPattern>\n",
   str% "      </personalNumber>\n",
   str% "    </territory>"]

/-- the text up to the end of territory id=MQ countryCode=596 -/
noncomputable def MQ : List Str :=
  [str% "\n",
   str% "\n",
   str% "    <!-- Martinique (MQ) -->\n",
   str% "    <!-- The 876 prefix is mentioned in the plan, but the plan is from 2006 and in France VOIP\n",
   str% "         numbers were changed from 087 to the 09 prefix in 2009. It is likely this occurred here\n",
   str% "         too. -->\n",
   str% "    <!-- http://www.itu.int/oth/T0202000086/en -->\n",
   str% "    <!-- http://www.arcep.fr/index.php?id=2137&bloc=0596&CMD=RESULTS_NUMEROTATION -->\n",
   str% "    <territory id=\"MQ\" countryCode=\"596\" internationalPrefix=\"00\" nationalPrefix=\"0\"\n",
   str% "               mobileNumberPortableRegion=\"true\">\n",
   str% "      <availableFormats>\n",
   str% "        <numberFormat pattern=\"(\\d{3})(\\d{2})(\\d{2})(\\d{2})\" nationalPrefixFormattingRule=\"$NP$FG\">\n",
   str% "          <leadingDigits>\n",
   str% "            [5-79]|\n",
   str% "            8(?:\n",
   str% "              0[6-9]|\n",
   str% "              [36]\n",
   str% "            )\n",
   str% "          </leadingDigits>\n",
   str% "          <format>$1 $2 $3 $4</format>\n",
   str% "        </numberFormat>\n",
   str% "        <numberFormat pattern=\"(\\d{3})(\\d{2})(\\d{2})(\\d{2})\" nationalPrefixFormattingRule=\"$NP$FG\">\n",
   str% "          <leadingDigits>8</leadingDigits>\n",
   str% "          <format>$1 $2 $3 $4</format>\n",
   str% "        </numberFormat>\n",
   str% "      </availableFormats>\n",
   str% "      <generalDesc>\n",
   str% "        <nationalNumberPattern>\n",
   str% "          7091\\d{5}|\n",
   str% "          (?:\n",
   str% "            [56]9|\n",
   str% "            [89]\\d\n",
   str% "          )\\d{7}\n",
   str% "        </nationalNumberPattern>\n",
   str% "      </generalDesc>\n",
   str% "      <fixedLine>\n",
   str% "        <possibleLengths national=\"9\"/>\n",
   str% "        <exampleNumber>596301234</exampleNumber>\n",
   str% "        <nationalNumberPattern>\n",
   str% "          (?:\n",
   str% "            59(?:\n",
   str% "              6(?:\n",
   str% "                [03-7]\\d|\n",
   str% "                1[05]|\n",
   str% "                2[7-9]|\n",
   str% "                8[0-39]|\n",
   str% "                9[04-9]\n",
   str% "              )|\n",
   str% "              89\\d\n",
   str% "            )|\n",
   str% "            80[6-9]\\d\\d|\n",
   str% "            9(?:\n",
   str% "              477[6-9]|\n",
   str% "              767[4589]\n",
   str% "            )\n",
   str% "          )\\d{4}\n",
   str% "        </nationalNumberPattern>\n",
   str% "      </fixedLine>\n",
   str% "      <!-- Ranges are updated based on below official page. Search using prefix 0696X. Ex: 06965\n",
   str% "           http://www.arcep.fr/index.php?id=2137&amp;bloc=0596&amp;CMD=RESULTS_NUMEROTATION -->\n",
   str% "      <mobile>\n",
   str% "        <possibleLengths national=\"9\"/>\n",
   str% "        <exampleNumber>696201234</exampleNumber>\n",
   str% "        <nationalNumberPattern>\n",
   str% "          (?:\n",
   str% "            69[67]\\d\\d|\n",
   str% "            7091[0-3]\n",
   str% "          )\\d{4}\n",
   str% "        </nationalNumberPattern>\n",
   str% "      </mobile>\n",
   str% "      <!-- As per ARCEP, mainland France and overseas territories use 0800 to 0805 as Toll-free\n",
   str% "           numbers. -->\n",
   str% "      <tollFree>\n",
   str% "        <possibleLengths national=\"9\"/>\n",
   str% "        <exampleNumber>800012345</exampleNumber>\n",
   str% "        <nationalNumberPattern>80[0-5]\\d{6}</nationalNumberPattern>\n",
   str% "      </tollFree>\n",
   str% "      <premiumRate>\n",
   str% "        <possibleLengths national=\"9\"/>\n",
   str% "        <exampleNumber>810123456</exampleNumber>\n",
   str% "        <nationalNumberPattern>8[129]\\d{7}</nationalNumberPattern>\n",
   str% "      </premiumRate>\n",
   str% "      <voip>\n",
   str% "        <possibleLengths national=\"9\"/>\n",
   str% "        <exampleNumber>976612345</exampleNumber>\n",
   str% "        <nationalNumberPattern>\n",
   str% "          9(?:\n",
   str% "            397[0-3]|\n",
   str% "            477[0-5]|\n",
   str% "            76(?:\n",
   str% "              6\\d|\n",
   str% "              7[0-367]\n",
   str% "            )\n",
   str% "          )\\d{4}\n",
   str% "        </nationalNumberPattern>\n",
   str% "      </voip>\n",
   str% "    </territory>"]

/-- the text up to the end of territory id=MR countryCode=222 -/
noncomputable def MR : List Str :=
  [str% "\n",
   str% "\n",
   str% "    <!-- Mauritania (MR) -->\n",
   str% "    <!-- http://www.itu.int/oth/T0202000087/en -->\n",
   str% "    <!-- http://are.mr/pdfs/pnn2010.pdf -->\n",
   str% "    <territory id=\"MR\" countryCode=\"222\" internationalPrefix=\"00\">\n",
   str% "      <availableFormats>\n",
   str% "        <numberFormat pattern=\"(\\d{2})(\\d{2})(\\d{2})(\\d{2})\">\n",
   str% "          <leadingDigits>[2-48]</leadingDigits>\n",
   str% "          <format>$1 $2 $3 $4</format>\n",
   str% "        </numberFormat>\n",
   str% "      </availableFormats>\n",
   str% "      <generalDesc>\n",
   str% "        <nationalNumberPattern>\n",
   str% "          (?:\n",
   str% "            [2-4]\\d\\d|\n",
   str% "            800\n",
   str% "          )\\d{5}\n",
   str% "        </nationalNumberPattern>\n",
   str% "      </generalDesc>\n",
   str% "      <fixedLine>\n",
   str% "        <possibleLengths national=\"8\"/>\n",
   str% "        <exampleNumber>35123456</exampleNumber>\n",
   str% "        <nationalNumberPattern>\n",
   str% "          (?:\n",
   str% "            25[08]|\n",
   str% "            35\\d|\n",
   str% "            45[1-7]\n",
   str% "          )\\d{5}\n",
   str% "        </nationalNumberPattern>\n",
   str% "      </fixedLine>\n",
   str% "      <!-- Added \"49\\d\" in response to https://github.com/google/libphonenumber/issues/529\n",
   str% "           which might be overly permissive, but we don't have an official documentation for this\n",
   str% "           and only a small number of numbers were found online. At least 492 and 495 are valid. -->\n",
   str% "      <mobile>\n",
   str% "        <possibleLengths national=\"8\"/>\n",
   str% "        <exampleNumber>22123456</exampleNumber>\n",
   str% "        <nationalNumberPattern>[2-4][0-46-9]\\d{6}</nationalNumberPattern>\n",
   str% "      </mobile>\n",
   str% "      <tollFree>\n",
   str% "        <possibleLengths national=\"8\"/>\n",
   str% "        <exampleNumber>80012345</exampleNumber>\n",
   str% "        <nationalNumberPattern>800\\d{5}</nationalNumberPattern>\n",
   str% "      </tollFree>\n",
   str% "    </territory>"]

/-- the text up to the end of territory id=MS countryCode=1 -/
noncomputable def MS : List Str :=
  [str% "\n",
   str% "\n",
   str% "    <!-- Montserrat (MS) -->\n",
   str% "    <!-- Calling code and formatting shared with 'US' -->\n",
   str% "    <!-- http://www.itu.int/oth/T020200008F/en -->\n",
   str% "    <territory id=\"MS\" countryCode=\"1\" leadingDigits=\"664\" internationalPrefix=\"011\"\n",
   str% "               nationalPrefix=\"1\" nationalPrefixForParsing=\"([34]\\d{6})$|1\"\n",
   str% "               nationalPrefixTransformRule=\"664$1\" mobileNumberPortableRegion=\"true\">\n",
   str% "      <generalDesc>\n",
   str% "        <nationalNumberPattern>\n",
   str% "          (?:\n",
   str% "            [58]\\d\\d|\n",
   str% "            664|\n",
   str% "            900\n",
   str% "          )\\d{7}\n",
   str% "        </nationalNumberPattern>\n",
   str% "      </generalDesc>\n",
   str% "      <fixedLine>\n",
   str% "        <possibleLengths national=\"10\" localOnly=\"7\"/>\n",
   str% "        <exampleNumber>6644912345</exampleNumber>\n",
   str% "        <nationalNumberPattern>\n",
   str% "          6644(?:\n",
   str% "            1[0-3]|\n",
   str% "            91\n",
   str% "          )\\d{4}\n",
   str% "        </nationalNumberPattern>\n",
   str% "      </fixedLine>\n",
   str% "      <mobile>\n",
   str% "        <possibleLengths national=\"10\" localOnly=\"7\"/>\n",
   str% "        <exampleNumber>6644923456</exampleNumber>\n",
   str% "        <nationalNumberPattern>\n",
   str% "          664(?:\n",
   str% "            3(?:\n",
   str% "              49|\n",
   str% "              9[1-6]\n",
   str% "            )|\n",
   str% "            49[2-6]\n",
   str% "          )\\d{4}\n",
   str% "        </nationalNumberPattern>\n",
   str% "      </mobile>\n",
   str% "      <tollFree>\n",
   str% "        <possibleLengths national=\"10\"/>\n",
   str% "        <exampleNumber>8002123456</exampleNumber>\n",
   str% "        <nationalNumberPattern>\n",
   str% "          8(?:\n",
   str% "            00|\n",
   str% "            33|\n",
   str% "            44|\n",
   str% "            55|\n",
   str% "            66|\n",
   str% "            77|\n",
   str% "            88\n",
   str% "          )[2-9]\\d{6}\n",
   str% "        </nationalNumberPattern>\n",
   str% "      </tollFree>\n",
   str% "      <premiumRate>\n",
   str% "        <possibleLengths national=\"10\"/>\n",
   str% "        <exampleNumber>9002123456</exampleNumber>\n",
   str% "        <nationalNumberPattern>900[2-9]\\d{6}</nationalNumberPattern>\n",
   str% "      </premiumRate>\n",
   str% "      <!-- https://www.nationalnanpa.com/number_resource_info/5XX_codes.html -->\n",
   str% "      <personalNumber>\n",
   str% "        <possibleLengths national=\"10\"/>\n",
   str% "        <exampleNumber>5002345678</exampleNumber>\n",
   str% "        <nationalNumberPattern>\n",
   str% "          52(?:\n",
   str% "            3(?:\n",
   str% "              [2-46-9][02-9]\\d|\n",
   str% "              5(?:\n",
   str% "                [02-46-9]\\d|\n",
   str% "                5[0-46-9]\n",
   str% "              )\n",
   str% "            )|\n",
   str% "            4(?:\n",
   str% "              [2-478][02-9]\\d|\n",
   str% "              5(?:\n",
   str% "                [034]\\d|\n",
   str% "                2[024-9]|\n",
   str% "                5[0-46-9]\n",
   str% "              )|\n",
   str% "              6(?:\n",
   str% "                0[1-9]|\n",
   str% "                [2-9]\\d\n",
   str% "              )|\n",
   str% "              9(?:\n",
   str% "                [05-9]\\d|\n",
   str% "                2[0-5]|\n",
   str% "                49\n",
   str% "              )\n",
   str% "            )\n",
   str% "          )\\d{4}|\n",
   str% "          52[34][2-9]1[02-9]\\d{4}|\n",
   str% "          5(?:\n",
   str% "            00|\n",
   str% "            2[125-9]|\n",
   str% "            3[23]|\n",
   str% "            44|\n",
   str% "            66|\n",
   str% "            77|\n",
   str% "            88\n",
   str% "          )[2-9]\\d{6}\n",
   str% "        </nationalNumberPattern>\n",
   str% "      </personalNumber>\n",
   str% "    </territory>"]

/-- the text up to the end of territory id=MT countryCode=356 -/
noncomputable def MT : List Str :=
  [str% "\n",
   str% "\n",
   str% "    <!-- Malta (MT) -->\n",
   str% "    <!-- Numbering link in the LHS menu - has more up-to-date allocations -->\n",
   str% "    <!-- http://www.itu.int/oth/T0202000084/en -->\n",
   str% "    <!-- http://www.mca.org.mt/regulatory/numbering/numbering-plans -->\n",
   str% "    <territory id=\"MT\" countryCode=\"356\" internationalPrefix=\"00\" mobileNumberPortableRegion=\"true\">\n",
   str% "      <availableFormats>\n",
   str% "        <numberFormat pattern=\"(\\d{4})(\\d{4})\">\n",
   str% "          <leadingDigits>[2357-9]</leadingDigits>\n",
   str% "          <format>$1 $2</format>\n",
   str% "        </numberFormat>\n",
   str% "      </availableFormats>\n",
   str% "      <generalDesc>\n",
   str% "        <nationalNumberPattern>\n",
   str% "          3550\\d{4}|\n",
   str% "          (?:\n",
   str% "            [2579]\\d\\d|\n",
   str% "            800\n",
   str% "          )\\d{5}\n",
   str% "        </nationalNumberPattern>\n",
   str% "      </generalDesc>\n",
   str% "      <fixedLine>\n",
   str% "        <possibleLengths national=\"8\"/>\n",
   str% "        <exampleNumber>21001234</exampleNumber>\n",
   str% "        <nationalNumberPattern>\n",
   str% "          20(?:\n",
   str% "            3[1-4]|\n",
   str% "            6[059]\n",
   str% "          )\\d{4}|\n",
   str% "          2(?:\n",
   str% "            0[19]|\n",
   str% "            [1-357]\\d|\n",
   str% "            60\n",
   str% "          )\\d{5}\n",
   str% "        </nationalNumberPattern>\n",
   str% "      </fixedLine>\n",
   str% "      <mobile>\n",
   str% "        <possibleLengths national=\"8\"/>\n",
   str% "        <exampleNumber>96961234</exampleNumber>\n",
   str% "        <nationalNumberPattern>\n",
   str% "          (?:\n",
   str% "            7(?:\n",
   str% "              210|\n",
   str% "              [79]\\d\\d\n",
   str% "            )|\n",
   str% "            9(?:\n",
   str% "              [29]\\d\\d|\n",
   str% "              69[67]|\n",
   str% "              8(?:\n",
   str% "                1[1-3]|\n",
   str% "                89|\n",
   str% "                97\n",
   str% "              )\n",
   str% "            )\n",
   str% "          )\\d{4}\n",
   str% "        </nationalNumberPattern>\n",
   str% "      </mobile>\n",
   str% "      <pager>\n",
   str% "        <possibleLengths national=\"8\"/>\n",
   str% "        <exampleNumber>71171234</exampleNumber>\n",
   str% "        <nationalNumberPattern>7117\\d{4}</nationalNumberPattern>\n",
   str% "      </pager>\n",
   str% "      <tollFree>\n",
   str% "        <possibleLengths national=\"8\"/>\n",
   str% "        <exampleNumber>80071234</exampleNumber>\n",
   str% "        <nationalNumberPattern>\n",
   str% "          800(?:\n",
   str% "            02|\n",
   str% "            [3467]\\d\n",
   str% "          )\\d{3}\n",
   str% "        </nationalNumberPattern>\n",
   str% "      </tollFree>\n",
   str% "      <premiumRate>\n",
   str% "        <possibleLengths national=\"8\"/>\n",
   str% "        <exampleNumber>50037123</exampleNumber>\n",
   str% "        <nationalNumberPattern>\n",
   str% "          5(?:\n",
   str% "            0(?:\n",
   str% "              0(?:\n",
   str% "                37|\n",
   str% "                43\n",
   str% "              )|\n",
   str% "              (?:\n",
   str% "                6\\d|\n",
   str% "                70|\n",
   str% "                9[0168]\n",
   str% "              )\\d\n",
   str% "            )|\n",
   str% "            [12]\\d0[1-5]\n",
   str% "          )\\d{3}\n",
   str% "        </nationalNumberPattern>\n",
   str% "      </premiumRate>\n",
   str% "      <!-- In the plan as Non-PATS ECS. -->\n",
   str% "      <voip>\n",
   str% "        <possibleLengths national=\"8\"/>\n",
   str% "        <exampleNumber>35501234</exampleNumber>\n",
   str% "        <nationalNumberPattern>3550\\d{4}</nationalNumberPattern>\n",
   str% "      </voip>\n",
   str% "      <!-- Using this for governmental numbers. -->\n",
   str% "      <uan>\n",
   str% "        <possibleLengths national=\"8\"/>\n",
   str% "        <exampleNumber>50112345</exampleNumber>\n",
   str% "        <nationalNumberPattern>501\\d{5}</nationalNumberPattern>\n",
   str% "      </uan>\n",
   str% "    </territory>"]

/-- the text up to the end of territory id=MU countryCode=230 -/
noncomputable def MU : List Str :=
  [str% "\n",
   str% "\n",
   str% "    <!-- Mauritius (MU) -->\n",
   str% "    <!-- Preferred international prefix is expected to standardize on just '00' -->\n",
   str% "    <!-- https://www.icta.mu/telecom-numbering/ -->\n",
   str% "    <territory id=\"MU\" countryCode=\"230\" preferredInternationalPrefix=\"020\"\n",
   str% "               internationalPrefix=\"0(?:0|[24-7]0|3[03])\">\n",
   str% "      <availableFormats>\n",
   str% "        <numberFormat pattern=\"(\\d{3})(\\d{4})\">\n",
   str% "          <leadingDigits>\n",
   str% "            [2-46]|\n",
   str% "            8[013]\n",
   str% "          </leadingDigits>\n",
   str% "          <format>$1 $2</format>\n",
   str% "        </numberFormat>\n",
   str% "        <numberFormat pattern=\"(\\d{4})(\\d{4})\">\n",
   str% "          <leadingDigits>[57]</leadingDigits>\n",
   str% "          <format>$1 $2</format>\n",
   str% "        </numberFormat>\n",
   str% "        <numberFormat pattern=\"(\\d{5})(\\d{5})\">\n",
   str% "          <leadingDigits>8</leadingDigits>\n",
   str% "          <format>$1 $2</format>\n",
   str% "        </numberFormat>\n",
   str% "      </availableFormats>\n",
   str% "      <generalDesc>\n",
   str% "        <nationalNumberPattern>\n",
   str% "          (?:\n",
   str% "            [57]|\n",
   str% "            8\\d\\d\n",
   str% "          )\\d{7}|\n",
   str% "          [2-468]\\d{6}\n",
   str% "        </nationalNumberPattern>\n",
   str% "      </generalDesc>\n",
   str% "      <!-- See also: http://www.wtng.info/wtng-230-mu.html for additional detail. Prefix 267 is\n",
   str% "           added based on user report. -->\n",
   str% "      <fixedLine>\n",
   str% "        <possibleLengths national=\"7,8\"/>\n",
   str% "        <exampleNumber>54480123</exampleNumber>\n",
   str% "        <nationalNumberPattern>\n",
   str% "          (?:\n",
   str% "            2(?:\n",
   str% "              [0346-8]\\d|\n",
   str% "              1[0-8]\n",
   str% "            )|\n",
   str% "            4(?:\n",
   str% "              [013568]\\d|\n",
   str% "              2[0-24-8]|\n",
   str% "              71|\n",
   str% "              90\n",
   str% "            )|\n",
   str% "            54(?:\n",
   str% "              [3-5]\\d|\n",
   str% "              71\n",
   str% "            )|\n",
   str% "            6\\d\\d|\n",
   str% "            8(?:\n",
   str% "              14|\n",
   str% "              3[129]\n",
   str% "            )\n",
   str% "          )\\d{4}\n",
   str% "        </nationalNumberPattern>\n",
   str% "      </fixedLine>\n",
   str% "      <mobile>\n",
   str% "        <possibleLengths national=\"8\"/>\n",
   str% "        <exampleNumber>52512345</exampleNumber>\n",
   str% "        <nationalNumberPattern>\n",
   str% "          5(?:\n",
   str% "            4(?:\n",
   str% "              2[1-389]|\n",
   str% "              7[1-9]\n",
   str% "            )|\n",
   str% "            87[15-8]\n",
   str% "          )\\d{4}|\n",
   str% "          (?:\n",
   str% "            5(?:\n",
   str% "              2[5-9]|\n",
   str% "              4[3-689]|\n",
   str% "              [57]\\d|\n",
   str% "              8[0-689]|\n",
   str% "              9[0-8]\n",
   str% "            )|\n",
   str% "            7(?:\n",
   str% "              0[0-7]|\n",
   str% "              3[013]\n",
   str% "            )\n",
   str% "          )\\d{5}\n",
   str% "        </nationalNumberPattern>\n",
   str% "      </mobile>\n",
   str% "      <pager>\n",
   str% "        <possibleLengths national=\"7\"/>\n",
   str% "        <exampleNumber>2190123</exampleNumber>\n",
   str% "        <nationalNumberPattern>219\\d{4}</nationalNumberPattern>\n",
   str% "      </pager>\n",
   str% "      <!-- Prefix 802 is added based on user report. -->\n",
   str% "      <tollFree>\n",
   str% "        <possibleLengths national=\"7,10\"/>\n",
   str% "        <exampleNumber>8001234</exampleNumber>\n",
   str% "        <nationalNumberPattern>\n",
   str% "          802\\d{7}|\n",
   str% "          80[0-2]\\d{4}\n",
   str% "        </nationalNumberPattern>\n",
   str% "      </tollFree>\n",
   str% "      <premiumRate>\n",
   str% "        <possibleLengths national=\"7\"/>\n",
   str% "        <exampleNumber>3012345</exampleNumber>\n",
   str% "        <nationalNumberPattern>30\\d{5}</nationalNumberPattern>\n",
   str% "      </premiumRate>\n",
   str% "      <voip>\n",
   str% "        <possibleLengths national=\"7\"/>\n",
   str% "        <exampleNumber>3201234</exampleNumber>\n",
   str% "        <nationalNumberPattern>\n",
   str% "          3(?:\n",
   str% "            20|\n",
   str% "            9\\d\n",
   str% "          )\\d{4}\n",
   str% "        </nationalNumberPattern>\n",
   str% "      </voip>\n",
   str% "    </territory>"]

/-- the text up to the end of territory id=MV countryCode=960 -/
noncomputable def MV : List Str :=
  [str% "\n",
   str% "\n",
   str% "    <!-- Maldives (MV) -->\n",
   str% "    <!-- http://www.itu.int/oth/T0202000082/en -->\n",
   str% "    <!-- http://www.dhiraagu.com.mv -->\n",
   str% "    <territory id=\"MV\" countryCode=\"960\" preferredInternationalPrefix=\"00\"\n",
   str% "               internationalPrefix=\"0(?:0|19)\">\n",
   str% "      <availableFormats>\n",
   str% "        <numberFormat pattern=\"(\\d{3})(\\d{4})\">\n",
   str% "          <leadingDigits>[34679]</leadingDigits>\n",
   str% "          <format>$1-$2</format>\n",
   str% "        </numberFormat>\n",
   str% "        <!-- It's not clear whether 800 and 900 numbers have a leading zero; 900 numbers have been\n",
   str% "             described in ITU docs without a leading zero, and Maldives doesn't have a trunk\n",
   str% "             prefix. -->\n",
   str% "        <numberFormat pattern=\"(\\d{3})(\\d{3})(\\d{4})\">\n",
   str% "          <leadingDigits>[89]</leadingDigits>\n",
   str% "          <format>$1 $2 $3</format>\n",
   str% "        </numberFormat>\n",
   str% "      </availableFormats>\n",
   str% "      <generalDesc>\n",
   str% "        <nationalNumberPattern>\n",
   str% "          (?:\n",
   str% "            800|\n",
   str% "            9[0-57-9]\\d\n",
   str% "          )\\d{7}|\n",
   str% "          [34679]\\d{6}\n",
   str% "        </nationalNumberPattern>\n",
   str% "      </generalDesc>\n",
   str% "      <!-- Prefix 690 is mentioned in old ITU doc dated 2011 however it is not mentioned in\n",
   str% "           http://www.cam.gov.mv/ which has newer update 2017. Also no online numbers found, so\n",
   str% "           not supporting it. -->\n",
   str% "      <fixedLine>\n",
   str% "        <possibleLengths national=\"7\"/>\n",
   str% "        <exampleNumber>6701234</exampleNumber>\n",
   str% "        <nationalNumberPattern>\n",
   str% "          (?:\n",
   str% "            3(?:\n",
   str% "              0[0-4]|\n",
   str% "              3[0-59]\n",
   str% "            )|\n",
   str% "            6(?:\n",
   str% "              [58][024689]|\n",
   str% "              6[024-68]|\n",
   str% "              7[02468]\n",
   str% "            )\n",
   str% "          )\\d{4}\n",
   str% "        </nationalNumberPattern>\n",
   str% "      </fixedLine>\n",
   str% "      <!-- 46[46] are new prefixes for Dhiraagu and Ooredoo, used currently for SMS-based\n",
   str% "           services. -->\n",
   str% "      <mobile>\n",
   str% "        <possibleLengths national=\"7\"/>\n",
   str% "        <exampleNumber>7712345</exampleNumber>\n",
   str% "        <nationalNumberPattern>\n",
   str% "          (?:\n",
   str% "            46[46]|\n",
   str% "            [79]\\d\\d\n",
   str% "          )\\d{4}\n",
   str% "        </nationalNumberPattern>\n",
   str% "      </mobile>\n",
   str% "      <tollFree>\n",
   str% "        <possibleLengths national=\"10\"/>\n",
   str% "        <exampleNumber>8001234567</exampleNumber>\n",
   str% "        <nationalNumberPattern>800\\d{7}</nationalNumberPattern>\n",
   str% "      </tollFree>\n",
   str% "      <premiumRate>\n",
   str% "        <possibleLengths national=\"10\"/>\n",
   str% "        <exampleNumber>9001234567</exampleNumber>\n",
   str% "        <nationalNumberPattern>900\\d{7}</nationalNumberPattern>\n",
   str% "      </premiumRate>\n",
   str% "      <!-- 400 and 450 numbers are mentioned in the ITU document as \"Non Geographic Fixed Service\"\n",
   str% "           and seem to be used by businesses. -->\n",
   str% "      <uan>\n",
   str% "        <possibleLengths national=\"7\"/>\n",
   str% "        <exampleNumber>4001234</exampleNumber>\n",
   str% "        <nationalNumberPattern>\n",
   str% "          4(?:\n",
   str% "            0[01]|\n",
   str% "            50\n",
   str% "          )\\d{4}\n",
   str% "        </nationalNumberPattern>\n",
   str% "      </uan>\n",
   str% "    </territory>"]

/-- the text up to the end of territory id=MW countryCode=265 -/
noncomputable def MW : List Str :=
  [str% "\n",
   str% "\n",
   str% "    <!-- Malawi (MW) -->\n",
   str% "    <!-- The plan doesn't state that a national prefix exists, but numbers found on the internet are\n",
   str% "         consistent in having one. -->\n",
   str% "    <!-- http://www.itu.int/oth/T0202000080/en -->\n",
   str% "    <territory id=\"MW\" countryCode=\"265\" internationalPrefix=\"00\" nationalPrefix=\"0\">\n",
   str% "      <availableFormats>\n",
   str% "        <numberFormat pattern=\"(\\d)(\\d{3})(\\d{3})\" nationalPrefixFormattingRule=\"$NP$FG\">\n",
   str% "          <leadingDigits>1[2-9]</leadingDigits>\n",
   str% "          <format>$1 $2 $3</format>\n",
   str% "        </numberFormat>\n",
   str% "        <numberFormat pattern=\"(\\d{3})(\\d{2})(\\d{2})(\\d{2})\" nationalPrefixFormattingRule=\"$NP$FG\">\n",
   str% "          <leadingDigits>[1-37-9]</leadingDigits>\n",
   str% "          <format>$1 $2 $3 $4</format>\n",
   str% "        </numberFormat>\n",
   str% "      </availableFormats>\n",
   str% "      <generalDesc>\n",
   str% "        <nationalNumberPattern>\n",
   str% "          (?:\n",
   str% "            [1289]\\d|\n",
   str% "            31|\n",
   str% "            77\n",
   str% "          )\\d{7}|\n",
   str% "          1\\d{6}\n",
   str% "        </nationalNumberPattern>\n",
   str% "      </generalDesc>\n",
   str% "      <!-- 14 is no longer mentioned in the plan as a prefix, but plenty of online numbers have\n",
   str% "           been found so this is being retained for now. It is possible however that these may be\n",
   str% "           old-format mobile numbers. -->\n",
   str% "      <fixedLine>\n",
   str% "        <possibleLengths national=\"7\"/>\n",
   str% "        <exampleNumber>1234567</exampleNumber>\n",
   str% "        <nationalNumberPattern>1[2-9]\\d{5}</nationalNumberPattern>\n",
   str% "      </fixedLine>\n",
   str% "      <mobile>\n",
   str% "        <possibleLengths national=\"9\"/>\n",
   str% "        <exampleNumber>991234567</exampleNumber>\n",
   str% "        <nationalNumberPattern>\n",
   str% "          111\\d{6}|\n",
   str% "          (?:\n",
   str% "            2[12]|\n",
   str% "            31|\n",
   str% "            77|\n",
   str% "            [89][89]\n",
   str% "          )\\d{7}\n",
   str% "        </nationalNumberPattern>\n",
   str% "      </mobile>\n",
   str% "    </territory>"]

/-- the text up to the end of territory id=MX countryCode=52 -/
noncomputable def MX : List Str :=
  [str% "\n",
   str% "\n",
   str% "    <!-- Mexico (MX) -->\n",
   str% "    <!-- http://www.itu.int/oth/T020200008A/en -->\n",
   str% "    <!-- http://en.wikipedia.org/wiki/%2B52 -->\n",
   str% "    <!-- http://en.wikipedia.org/wiki/Premium-rate_telephone_number#Mexico -->\n",
   str% "    <!-- http://en.wikipedia.org/wiki/Toll-free_telephone_number -->\n",
   str% "    <!-- Dialling tokens 01, 02, 044, 045 and 1 are removed as they are no longer valid since\n",
   str% "         August 2019. -->\n",
   str% "    <territory id=\"MX\" countryCode=\"52\" preferredInternationalPrefix=\"00\"\n",
   str% "               internationalPrefix=\"0[09]\" mobileNumberPortableRegion=\"true\">\n",
   str% "      <availableFormats>\n",
   str% "        <!-- 5-digit shortcodes (very rare). -->\n",
   str% "        <numberFormat pattern=\"(\\d{5})\">\n",
   str% "          <leadingDigits>53</leadingDigits>\n",
   str% "          <format>$1</format>\n",
   str% "          <intlFormat>NA</intlFormat>\n",
   str% "        </numberFormat>\n",
   str% "        <!-- Fixed line (2-digit area codes) and Mobile. -->\n",
   str% "        <numberFormat pattern=\"(\\d{2})(\\d{4})(\\d{4})\">\n",
   str% "          <leadingDigits>\n",
   str% "            33|\n",
   str% "            5[56]|\n",
   str% "            81\n",
   str% "          </leadingDigits>\n",
   str% "          <format>$1 $2 $3</format>\n",
   str% "        </numberFormat>\n",
   str% "        <!-- Fixed line (3-digit area codes), Mobile and all other non geographic numbers. -->\n",
   str% "        <numberFormat pattern=\"(\\d{3})(\\d{3})(\\d{4})\">\n",
   str% "          <leadingDigits>[2-9]</leadingDigits>\n",
   str% "          <format>$1 $2 $3</format>\n",
   str% "        </numberFormat>\n",
   str% "      </availableFormats>\n",
   str% "      <generalDesc>\n",
   str% "        <nationalNumberPattern>[2-9]\\d{9}</nationalNumberPattern>\n",
   str% "      </generalDesc>\n",
   str% "      <!-- http://en.wikipedia.org/wiki/Area_codes_in_Mexico_by_code -->\n",
   str% "      <!-- Also covering fixed satellite service numbers (prefixes: 200 and 201). -->\n",
   str% "      <fixedLine>\n",
   str% "        <possibleLengths national=\"10\" localOnly=\"7,8\"/>\n",
   str% "        <exampleNumber>2001234567</exampleNumber>\n",
   str% "        <nationalNumberPattern>\n",
   str% "          (?:\n",
   str% "            2(?:\n",
   str% "              0[01]|\n",
   str% "              2\\d|\n",
   str% "              3[1-35-8]|\n",
   str% "              4[13-9]|\n",
   str% "              7[1-689]|\n",
   str% "              8[1-578]|\n",
   str% "              9[467]\n",
   str% "            )|\n",
   str% "            3(?:\n",
   str% "              1[1-79]|\n",
   str% "              [2458][1-9]|\n",
   str% "              3\\d|\n",
   str% "              7[1-8]|\n",
   str% "              9[1-5]\n",
   str% "            )|\n",
   str% "            4(?:\n",
   str% "              1[1-57-9]|\n",
   str% "              [267][1-9]|\n",
   str% "              3[1-8]|\n",
   str% "              [45]\\d|\n",
   str% "              8[1-35-9]|\n",
   str% "              9[2-689]\n",
   str% "            )|\n",
   str% "            5(?:\n",
   str% "              [56]\\d|\n",
   str% "              88|\n",
   str% "              9[1-79]\n",
   str% "            )|\n",
   str% "            6(?:\n",
   str% "              1[2-68]|\n",
   str% "              [2-4][1-9]|\n",
   str% "              5[1-36-9]|\n",
   str% "              6[0-57-9]|\n",
   str% "              7[1-7]|\n",
   str% "              8[67]|\n",
   str% "              9[4-8]\n",
   str% "            )|\n",
   str% "            7(?:\n",
   str% "              [1346][1-9]|\n",
   str% "              [27]\\d|\n",
   str% "              5[13-9]|\n",
   str% "              8[1-69]|\n",
   str% "              9[17]\n",
   str% "            )|\n",
   str% "            8(?:\n",
   str% "              1\\d|\n",
   str% "              2[13-689]|\n",
   str% "              3[1-6]|\n",
   str% "              4[124-6]|\n",
   str% "              6[1246-9]|\n",
   str% "              7[0-378]|\n",
   str% "              9[12479]\n",
   str% "            )|\n",
   str% "            9(?:\n",
   str% "              1[346-9]|\n",
   str% "              2[1-4]|\n",
   str% "              3[2-46-8]|\n",
   str% "              5[1348]|\n",
   str% "              [69]\\d|\n",
   str% "              7[12]|\n",
   str% "              8[1-8]\n",
   str% "            )\n",
   str% "          )\\d{7}\n",
   str% "        </nationalNumberPattern>\n",
   str% "      </fixedLine>\n",
   str% "      <!-- Fixed satellite service numbers are not included here, although many other prefixes from\n",
   str% "           the fixedLine pattern are. -->\n",
   str% "      <mobile>\n",
   str% "        <possibleLengths national=\"10\" localOnly=\"7,8\"/>\n",
   str% "        <exampleNumber>2221234567</exampleNumber>\n",
   str% "        <nationalNumberPattern>\n",
   str% "          (?:\n",
   str% "            2(?:\n",
   str% "              2\\d|\n",
   str% "              3[1-35-8]|\n",
   str% "              4[13-9]|\n",
   str% "              7[1-689]|\n",
   str% "              8[1-578]|\n",
   str% "              9[467]\n",
   str% "            )|\n",
   str% "            3(?:\n",
   str% "              1[1-79]|\n",
   str% "              [2458][1-9]|\n",
   str% "              3\\d|\n",
   str% "              7[1-8]|\n",
   str% "              9[1-5]\n",
   str% "            )|\n",
   str% "            4(?:\n",
   str% "              1[1-57-9]|\n",
   str% "              [267][1-9]|\n",
   str% "              3[1-8]|\n",
   str% "              [45]\\d|\n",
   str% "              8[1-35-9]|\n",
   str% "              9[2-689]\n",
   str% "            )|\n",
   str% "            5(?:\n",
   str% "              [56]\\d|\n",
   str% "              88|\n",
   str% "              9[1-79]\n",
   str% "            )|\n",
   str% "            6(?:\n",
   str% "              1[2-68]|\n",
   str% "              [2-4][1-9]|\n",
   str% "              5[1-36-9]|\n",
   str% "              6[0-57-9]|\n",
   str% "              7[1-7]|\n",
   str% "              8[67]|\n",
   str% "              9[4-8]\n",
   str% "            )|\n",
   str% "            7(?:\n",
   str% "              [1346][1-9]|\n",
   str% "              [27]\\d|\n",
   str% "              5[13-9]|\n",
   str% "              8[1-69]|\n",
   str% "              9[17]\n",
   str% "            )|\n",
   str% "            8(?:\n",
   str% "              1\\d|\n",
   str% "              2[13-689]|\n",
   str% "              3[1-6]|\n",
   str% "              4[124-6]|\n",
   str% "              6[1246-9]|\n",
   str% "              7[0-378]|\n",
   str% "              9[12479]\n",
   str% "            )|\n",
   str% "            9(?:\n",
   str% "              1[346-9]|\n",
   str% "              2[1-4]|\n",
   str% "              3[2-46-8]|\n",
   str% "              5[1348]|\n",
   str% "              [69]\\d|\n",
   str% "              7[12]|\n",
   str% "              8[1-8]\n",
   str% "            )\n",
   str% "          )\\d{7}\n",
   str% "        </nationalNumberPattern>\n",
   str% "      </mobile>\n",
   str% "      <tollFree>\n",
   str% "        <possibleLengths national=\"10\"/>\n",
   str% "        <exampleNumber>8001234567</exampleNumber>\n",
   str% "        <nationalNumberPattern>\n",
   str% "          8(?:\n",
   str% "            00|\n",
   str% "            88\n",
   str% "          )\\d{7}\n",
   str% "        </nationalNumberPattern>\n",
   str% "      </tollFree>\n",
   str% "      <premiumRate>\n",
   str% "        <possibleLengths national=\"10\"/>\n",
   str% "        <exampleNumber>9001234567</exampleNumber>\n",
   str% "        <nationalNumberPattern>900\\d{7}</nationalNumberPattern>\n",
   str% "      </premiumRate>\n",
   str% "      <sharedCost>\n",
   str% "        <possibleLengths national=\"10\"/>\n",
   str% "        <exampleNumber>3001234567</exampleNumber>\n",
   str% "        <nationalNumberPattern>300\\d{7}</nationalNumberPattern>\n",
   str% "      </sharedCost>\n",
   str% "      <personalNumber>\n",
   str% "        <possibleLengths national=\"10\"/>\n",
   str% "        <exampleNumber>5001234567</exampleNumber>\n",
   str% "        <nationalNumberPattern>500\\d{7}</nationalNumberPattern>\n",
   str% "      </personalNumber>\n",
   str% "    </territory>"]

/-- the text up to the end of territory id=MY countryCode=60 -/
noncomputable def MY : List Str :=
  [str% "\n",
   str% "\n",
   str% "    <!-- Malaysia (MY) -->\n",
   str% "    <!-- http://en.wikipedia.org/wiki/%2B60 -->\n",
   str% "    <!-- https://www.mcmc.gov.my/sectors/celco/numbering-management/numbering-management/numbers-assignment -->\n",
   str% "    <territory id=\"MY\" countryCode=\"60\" internationalPrefix=\"00\" nationalPrefix=\"0\"\n",
   str% "               mobileNumberPortableRegion=\"true\">\n",
   str% "      <availableFormats>\n",
   str% "        <!-- 8-digit fixed line ranges -->\n",
   str% "        <numberFormat pattern=\"(\\d)(\\d{3})(\\d{4})\" nationalPrefixFormattingRule=\"$NP$FG\">\n",
   str% "          <leadingDigits>[4-79]</leadingDigits>\n",
   str% "          <format>$1-$2 $3</format>\n",
   str% "        </numberFormat>\n",
   str% "        <!-- 8/9-digit fixed line or mobile ranges -->\n",
   str% "        <numberFormat pattern=\"(\\d{2})(\\d{3})(\\d{3,4})\" nationalPrefixFormattingRule=\"$NP$FG\">\n",
   str% "          <leadingDigits>\n",
   str% "            1(?:\n",
   str% "              [02469]|\n",
   str% "              [378][1-9]|\n",
   str% "              53\n",
   str% "            )|\n",
   str% "            8\n",
   str% "          </leadingDigits>\n",
   str% "          <leadingDigits>\n",
   str% "            1(?:\n",
   str% "              [02469]|\n",
   str% "              [37][1-9]|\n",
   str% "              53|\n",
   str% "              8(?:\n",
   str% "                [1-46-9]|\n",
   str% "                5[7-9]\n",
   str% "              )\n",
   str% "            )|\n",
   str% "            8\n",
   str% "          </leadingDigits>\n",
   str% "          <format>$1-$2 $3</format>\n",
   str% "        </numberFormat>\n",
   str% "        <!-- 9-digit fixed line ranges -->\n",
   str% "        <numberFormat pattern=\"(\\d)(\\d{4})(\\d{4})\" nationalPrefixFormattingRule=\"$NP$FG\">\n",
   str% "          <leadingDigits>3</leadingDigits>\n",
   str% "          <format>$1-$2 $3</format>\n",
   str% "        </numberFormat>\n",
   str% "        <!-- Variable cost (premium rate, toll free etc.) -->\n",
   str% "        <numberFormat pattern=\"(\\d)(\\d{3})(\\d{2})(\\d{4})\">\n",
   str% "          <leadingDigits>\n",
   str% "            1(?:\n",
   str% "              [367]|\n",
   str% "              80\n",
   str% "            )\n",
   str% "          </leadingDigits>\n",
   str% "          <format>$1-$2-$3-$4</format>\n",
   str% "        </numberFormat>\n",
   str% "        <!-- 10 digit mobile or voip ranges -->\n",
   str% "        <numberFormat pattern=\"(\\d{3})(\\d{3})(\\d{4})\" nationalPrefixFormattingRule=\"$NP$FG\">\n",
   str% "          <leadingDigits>15</leadingDigits>\n",
   str% "          <format>$1-$2 $3</format>\n",
   str% "        </numberFormat>\n",
   str% "        <!-- 10 digit mobile ranges -->\n",
   str% "        <numberFormat pattern=\"(\\d{2})(\\d{4})(\\d{4})\" nationalPrefixFormattingRule=\"$NP$FG\">\n",
   str% "          <leadingDigits>1</leadingDigits>\n",
   str% "          <format>$1-$2 $3</format>\n",
   str% "        </numberFormat>\n",
   str% "      </availableFormats>\n",
   str% "      <generalDesc>\n",
   str% "        <nationalNumberPattern>\n",
   str% "          1\\d{8,9}|\n",
   str% "          (?:\n",
   str% "            3\\d|\n",
   str% "            [4-9]\n",
   str% "          )\\d{7}\n",
   str% "        </nationalNumberPattern>\n",
   str% "      </generalDesc>\n",
   str% "      <!-- Prefixes 32778, 39108, 6795, 82266, 905[79], 9075, 9132 and 9206 are added based on user\n",
   str% "           reports. Maintaining prefix data at 3 digit granularity as the new fixed-line ranges are\n",
   str% "           being added frequently in mcmc.gov.my docs. This avoids false negatives and eases up the\n",
   str% "           maintenance. -->\n",
   str% "      <fixedLine>\n",
   str% "        <possibleLengths national=\"8,9\" localOnly=\"6,7\"/>\n",
   str% "        <exampleNumber>323856789</exampleNumber>\n",
   str% "        <nationalNumberPattern>\n",
   str% "          427[01]\\d{4}|\n",
   str% "          (?:\n",
   str% "            3(?:\n",
   str% "              2[0-36-9]|\n",
   str% "              3[0-368]|\n",
   str% "              4[0-278]|\n",
   str% "              5[0-24-8]|\n",
   str% "              6[0-467]|\n",
   str% "              7[1246-9]|\n",
   str% "              8\\d|\n",
   str% "              9[0-57]\n",
   str% "            )\\d|\n",
   str% "            4(?:\n",
   str% "              2[0-689]|\n",
   str% "              [3-79]\\d|\n",
   str% "              8[1-35689]\n",
   str% "            )|\n",
   str% "            5(?:\n",
   str% "              2[0-589]|\n",
   str% "              [3468]\\d|\n",
   str% "              5[0-489]|\n",
   str% "              7[1-9]|\n",
   str% "              9[23]\n",
   str% "            )|\n",
   str% "            6(?:\n",
   str% "              2[2-9]|\n",
   str% "              3[1357-9]|\n",
   str% "              [46]\\d|\n",
   str% "              5[0-6]|\n",
   str% "              7[0-35-9]|\n",
   str% "              85|\n",
   str% "              9[015-8]\n",
   str% "            )|\n",
   str% "            7(?:\n",
   str% "              [2579]\\d|\n",
   str% "              3[03-68]|\n",
   str% "              4[0-8]|\n",
   str% "              6[5-9]|\n",
   str% "              8[0-35-9]\n",
   str% "            )|\n",
   str% "            8(?:\n",
   str% "              [24][2-8]|\n",
   str% "              3[2-5]|\n",
   str% "              5[2-7]|\n",
   str% "              6[2-589]|\n",
   str% "              7[2-578]|\n",
   str% "              [89][2-9]\n",
   str% "            )|\n",
   str% "            9(?:\n",
   str% "              0[57]|\n",
   str% "              13|\n",
   str% "              [25-7]\\d|\n",
   str% "              [3489][0-8]\n",
   str% "            )\n",
   str% "          )\\d{5}\n",
   str% "        </nationalNumberPattern>\n",
   str% "      </fixedLine>\n",
   str% "      <!-- Although the plan lists the prefix 159 as broadband services (data only), apparently it\n",
   str% "           is possible to send SMSs (and receive them) from numbers in this block, so we are\n",
   str% "           listing them as mobile. 11[4-6] was added based on numbers found online. -->\n",
   str% "      <mobile>\n",
   str% "        <possibleLengths national=\"9,10\"/>\n",
   str% "        <exampleNumber>123456789</exampleNumber>\n",
   str% "        <nationalNumberPattern>\n",
   str% "          1(?:\n",
   str% "            (?:\n",
   str% "              1888[689]|\n",
   str% "              4400|\n",
   str% "              8(?:\n",
   str% "                47|\n",
   str% "                8[27]\n",
   str% "              )[0-4]\n",
   str% "            )\\d{4}|\n",
   str% "            9\\d{7,8}\n",
   str% "          )|\n",
   str% "          1(?:\n",
   str% "            0(?:\n",
   str% "              [23568]\\d|\n",
   str% "              4[0-6]|\n",
   str% "              7[016-9]|\n",
   str% "              9[0-8]\n",
   str% "            )|\n",
   str% "            1(?:\n",
   str% "              [1-5]\\d\\d|\n",
   str% "              6(?:\n",
   str% "                0[5-9]|\n",
   str% "                [1-9]\\d\n",
   str% "              )|\n",
   str% "              7(?:\n",
   str% "                [0-4]\\d|\n",
   str% "                5[0-79]|\n",
   str% "                6[02-4]|\n",
   str% "                8[02-5]\n",
   str% "              )\n",
   str% "            )|\n",
   str% "            (?:\n",
   str% "              [26]\\d|\n",
   str% "              [37][1-9]|\n",
   str% "              4[235-9]\n",
   str% "            )\\d|\n",
   str% "            5(?:\n",
   str% "              31|\n",
   str% "              9\\d\\d\n",
   str% "            )|\n",
   str% "            8(?:\n",
   str% "              1[23]|\n",
   str% "              [236]\\d|\n",
   str% "              4[06]|\n",
   str% "              5(?:\n",
   str% "                46|\n",
   str% "                [7-9]\n",
   str% "              )|\n",
   str% "              7[016-9]|\n",
   str% "              8[01]|\n",
   str% "              9[0-8]\n",
   str% "            )\n",
   str% "          )\\d{5}\n",
   str% "        </nationalNumberPattern>\n",
   str% "      </mobile>\n",
   str% "      <!-- http://www.skmm.gov.my/skmmgovmy/media/General/pdf/Special_Service_Number.pdf -->\n",
   str% "      <tollFree>\n",
   str% "        <possibleLengths national=\"10\"/>\n",
   str% "        <exampleNumber>1300123456</exampleNumber>\n",
   str% "        <nationalNumberPattern>1[378]00\\d{6}</nationalNumberPattern>\n",
   str% "      </tollFree>\n",
   str% "      <premiumRate>\n",
   str% "        <possibleLengths national=\"10\"/>\n",
   str% "        <exampleNumber>1600123456</exampleNumber>\n",
   str% "        <nationalNumberPattern>1600\\d{6}</nationalNumberPattern>\n",
   str% "      </premiumRate>\n",
   str% "      <voip>\n",
   str% "        <possibleLengths national=\"10\"/>\n",
   str% "        <exampleNumber>1546012345</exampleNumber>\n",
   str% "        <nationalNumberPattern>\n",
   str% "          15(?:\n",
   str% "            4(?:\n",
   str% "              6[0-4]\\d|\n",
   str% "              8(?:\n",
   str% "                0[125]|\n",
   str% "                [17]\\d|\n",
   str% "                21|\n",
   str% "                3[01]|\n",
   str% "                4[01589]|\n",
   str% "                5[014]|\n",
   str% "                6[02]\n",
   str% "              )\n",
   str% "            )|\n",
   str% "            6(?:\n",
   str% "              32[0-6]|\n",
   str% "              78\\d\n",
   str% "            )\n",
   str% "          )\\d{4}\n",
   str% "        </nationalNumberPattern>\n",
   str% "      </voip>\n",
   str% "    </territory>"]

/-- the text up to the end of territory id=MZ countryCode=258 -/
noncomputable def MZ : List Str :=
  [str% "\n",
   str% "\n",
   str% "    <!-- Mozambique (MZ) -->\n",
   str% "    <!-- The plan suggests 801 and 802 numbers are shared-cost numbers, and numbers beginning with\n",
   str% "         a 9 are premium rate, but no online examples can be found of any of these so they are\n",
   str% "         omitted for the time-being. -->\n",
   str% "    <!-- http://www.itu.int/oth/T0202000091/en -->\n",
   str% "    <territory id=\"MZ\" countryCode=\"258\" internationalPrefix=\"00\">\n",
   str% "      <availableFormats>\n",
   str% "        <numberFormat pattern=\"(\\d{2})(\\d{3})(\\d{3,4})\">\n",
   str% "          <leadingDigits>\n",
   str% "            2|\n",
   str% "            8[2-79]\n",
   str% "          </leadingDigits>\n",
   str% "          <format>$1 $2 $3</format>\n",
   str% "        </numberFormat>\n",
   str% "        <numberFormat pattern=\"(\\d{3})(\\d{3})(\\d{3})\">\n",
   str% "          <leadingDigits>8</leadingDigits>\n",
   str% "          <format>$1 $2 $3</format>\n",
   str% "        </numberFormat>\n",
   str% "      </availableFormats>\n",
   str% "      <generalDesc>\n",
   str% "        <nationalNumberPattern>\n",
   str% "          (?:\n",
   str% "            2|\n",
   str% "            8\\d\n",
   str% "          )\\d{7}\n",
   str% "        </nationalNumberPattern>\n",
   str% "      </generalDesc>\n",
   str% "      <fixedLine>\n",
   str% "        <possibleLengths national=\"8\"/>\n",
   str% "        <exampleNumber>21123456</exampleNumber>\n",
   str% "        <nationalNumberPattern>\n",
   str% "          2(?:\n",
   str% "            [1346]\\d|\n",
   str% "            5[0-2]|\n",
   str% "            [78][12]|\n",
   str% "            93\n",
   str% "          )\\d{5}\n",
   str% "        </nationalNumberPattern>\n",
   str% "      </fixedLine>\n",
   str% "      <mobile>\n",
   str% "        <possibleLengths national=\"9\"/>\n",
   str% "        <exampleNumber>821234567</exampleNumber>\n",
   str% "        <nationalNumberPattern>8[2-79]\\d{7}</nationalNumberPattern>\n",
   str% "      </mobile>\n",
   str% "      <!-- Unsure of the length requirement on toll-free numbers, so using 9 based on online\n",
   str% "           examples. -->\n",
   str% "      <tollFree>\n",
   str% "        <possibleLengths national=\"9\"/>\n",
   str% "        <exampleNumber>800123456</exampleNumber>\n",
   str% "        <nationalNumberPattern>800\\d{6}</nationalNumberPattern>\n",
   str% "      </tollFree>\n",
   str% "    </territory>"]

/-- the text of this module -/
noncomputable def chunk10 : List (List Str) :=
  [MG, MH, MK, ML, MM, MN, MO, MP, MQ, MR, MS, MT, MU, MV, MW, MX, MY, MZ]

end Phone.Data.S
