import Verif.Basic.Str
/-! Text of `/repo/assets/PhoneNumberMetadata.xml`, in lines. Generated by `tools/gen_xml.py`; do not edit. -/

set_option maxRecDepth 100000
namespace Phone.Data.S

/-- the text up to the end of territory id=JM countryCode=1 -/
noncomputable def JM : List Str :=
  [str% "\n",
   str% "\n",
   str% "    <!-- Jamaica (JM) -->\n",
   str% "    <!-- Calling code and formatting shared with 'US' -->\n",
   str% "    <!-- http://www.itu.int/oth/T020200006C/en -->\n",
   str% "    <territory id=\"JM\" countryCode=\"1\" leadingDigits=\"658|876\" internationalPrefix=\"011\"\n",
   str% "               nationalPrefix=\"1\" mobileNumberPortableRegion=\"true\">\n",
   str% "      <generalDesc>\n",
   str% "        <nationalNumberPattern>\n",
   str% "          (?:\n",
   str% "            [58]\\d\\d|\n",
   str% "            658|\n",
   str% "            900\n",
   str% "          )\\d{7}\n",
   str% "        </nationalNumberPattern>\n",
   str% "      </generalDesc>\n",
   str% "      <!-- Numbers have been found online for ranges 613, 62x, 63x, 656, 66[2-589]. -->\n",
   str% "      <fixedLine>\n",
   str% "        <possibleLengths national=\"10\" localOnly=\"7\"/>\n",
   str% "        <exampleNumber>8765230123</exampleNumber>\n",
   str% "        <nationalNumberPattern>\n",
   str% "          8766060\\d{3}|\n",
   str% "          (?:\n",
   str% "            658(?:\n",
   str% "              2(?:\n",
   str% "                [5-8]\\d|\n",
   str% "                9[0-46-9]\n",
   str% "              )|\n",
   str% "              [3-9]\\d\\d\n",
   str% "            )|\n",
   str% "            876(?:\n",
   str% "              52[35]|\n",
   str% "              6(?:\n",
   str% "                0[1-3579]|\n",
   str% "                1[0235-9]|\n",
   str% "                [23]\\d|\n",
   str% "                40|\n",
   str% "                5[06]|\n",
   str% "                6[2-589]|\n",
   str% "                7[0-25-9]|\n",
   str% "                8[04]|\n",
   str% "                9[4-9]\n",
   str% "              )|\n",
   str% "              7(?:\n",
   str% "                0[2-689]|\n",
   str% "                [1-6]\\d|\n",
   str% "                8[056]|\n",
   str% "                9[45]\n",
   str% "              )|\n",
   str% "              9(?:\n",
   str% "                0[1-8]|\n",
   str% "                1[02378]|\n",
   str% "                [2-8]\\d|\n",
   str% "                9[2-468]\n",
   str% "              )\n",
   str% "            )\n",
   str% "          )\\d{4}\n",
   str% "        </nationalNumberPattern>\n",
   str% "      </fixedLine>\n",
   str% "      <!-- Adding 27, 28, 299, 31, 508 and 566 as extra prefixes, as they have been found to be\n",
   str% "           valid by sending SMSs and looking at online number lookup sites. Numbers have been\n",
   str% "           found online for the following ranges 258, 26x, 29x, 53x, 54x, 55x, 56x. Most have\n",
   str% "           mobile numbers online so we have put them under mobile but is possible they are a\n",
   str% "           mixture of fixed line and mobile. -->\n",
   str% "      <mobile>\n",
   str% "        <possibleLengths national=\"10\" localOnly=\"7\"/>\n",
   str% "        <exampleNumber>8762101234</exampleNumber>\n",
   str% "        <nationalNumberPattern>\n",
   str% "          (?:\n",
   str% "            6582(?:\n",
   str% "              [0-4]\\d|\n",
   str% "              95\n",
   str% "            )|\n",
   str% "            876(?:\n",
   str% "              2(?:\n",
   str% "                0[1-9]|\n",
   str% "                [13-9]\\d|\n",
   str% "                2[013-9]\n",
   str% "              )|\n",
   str% "              [348]\\d\\d|\n",
   str% "              5(?:\n",
   str% "                0[1-9]|\n",
   str% "                [1-9]\\d\n",
   str% "              )|\n",
   str% "              6(?:\n",
   str% "                4[89]|\n",
   str% "                6[67]\n",
   str% "              )|\n",
   str% "              7(?:\n",
   str% "                0[07]|\n",
   str% "                7\\d|\n",
   str% "                8[1-47-9]|\n",
   str% "                9[0-36-9]\n",
   str% "              )|\n",
   str% "              9(?:\n",
   str% "                [01]9|\n",
   str% "                9[0579]\n",
   str% "              )\n",
   str% "            )\n",
   str% "          )\\d{4}\n",
   str% "        </nationalNumberPattern>\n",
   str% "      </mobile>\n",
   str% "      <tollFree>\n",
   str% "        <possibleLengths national=\"10\"/>\n",
   str% "        <exampleNumber>8002123456</exampleNumber>\n",
   str% "        <nationalNumberPattern>\n",
   str% "          8(?:\n",
   str% "            00|\n",
   str% "            33|\n",
   str% "            44|\n",
   str% "            55|\n",
   str% "            66|\n",
   str% "            77|\n",
   str% "            88\n",
   str% "          )[2-9]\\d{6}\n",
   str% "        </nationalNumberPattern>\n",
   str% "      </tollFree>\n",
   str% "      <premiumRate>\n",
   str% "        <possibleLengths national=\"10\"/>\n",
   str% "        <exampleNumber>9002123456</exampleNumber>\n",
   str% "        <nationalNumberPattern>900[2-9]\\d{6}</nationalNumberPattern>\n",
   str% "      </premiumRate>\n",
   str% "      <!-- https://www.nationalnanpa.com/number_resource_info/5XX_codes.html -->\n",
   str% "      <personalNumber>\n",
   str% "        <possibleLengths national=\"10\"/>\n",
   str% "        <exampleNumber>5002345678</exampleNumber>\n",
   str% "        <nationalNumberPattern>\n",
   str% "          52(?:\n",
   str% "            3(?:\n",
   str% "              [2-46-9][02-9]\\d|\n",
   str% "              5(?:\n",
   str% "                [02-46-9]\\d|\n",
   str% "                5[0-46-9]\n",
   str% "              )\n",
   str% "            )|\n",
   str% "            4(?:\n",
   str% "              [2-478][02-9]\\d|\n",
   str% "              5(?:\n",
   str% "                [034]\\d|\n",
   str% "                2[024-9]|\n",
   str% "                5[0-46-9]\n",
   str% "              )|\n",
   str% "              6(?:\n",
   str% "                0[1-9]|\n",
   str% "                [2-9]\\d\n",
   str% "              )|\n",
   str% "              9(?:\n",
   str% "                [05-9]\\d|\n",
   str% "                2[0-5]|\n",
   str% "                49\n",
   str% "              )\n",
   str% "            )\n",
   str% "          )\\d{4}|\n",
   str% "          52[34][2-9]1[02-9]\\d{4}|\n",
   str% "          5(?:\n",
   str% "            00|\n",
   str% "            2[125-9]|\n",
   str% "            3[23]|\n",
   str% "            44|\n",
   str% "            66|\n",
   str% "            77|\n",
   str% "            88\n",
   str% "          )[2-9]\\d{6}\n",
   str% "        </nationalNumberPattern>\n",
   str% "      </personalNumber>\n",
   str% "    </territory>"]

/-- the text up to the end of territory id=JO countryCode=962 -/
noncomputable def JO : List Str :=
  [str% "\n",
   str% "\n",
   str% "    <!-- Jordan (JO) -->\n",
   str% "    <!-- http://www.trc.gov.jo/images/stories/pdf/NNP_ver200[1].pdf?lang=english -->\n",
   str% "    <!-- http://www.itu.int/oth/T020200006E/en -->\n",
   str% "    <!-- http://en.wikipedia.org/wiki/%2B962 -->\n",
   str% "    <territory id=\"JO\" countryCode=\"962\" internationalPrefix=\"00\" nationalPrefix=\"0\"\n",
   str% "               mobileNumberPortableRegion=\"true\">\n",
   str% "      <availableFormats>\n",
   str% "        <numberFormat pattern=\"(\\d)(\\d{3})(\\d{4})\" nationalPrefixFormattingRule=\"($NP$FG)\">\n",
   str% "          <leadingDigits>\n",
   str% "            [2356]|\n",
   str% "            87\n",
   str% "          </leadingDigits>\n",
   str% "          <format>$1 $2 $3</format>\n",
   str% "        </numberFormat>\n",
   str% "        <numberFormat pattern=\"(\\d{3})(\\d{5,6})\" nationalPrefixFormattingRule=\"$NP$FG\">\n",
   str% "          <leadingDigits>[89]</leadingDigits>\n",
   str% "          <format>$1 $2</format>\n",
   str% "        </numberFormat>\n",
   str% "        <numberFormat pattern=\"(\\d{2})(\\d{7})\" nationalPrefixFormattingRule=\"$NP$FG\">\n",
   str% "          <leadingDigits>70</leadingDigits>\n",
   str% "          <format>$1 $2</format>\n",
   str% "        </numberFormat>\n",
   str% "        <numberFormat pattern=\"(\\d)(\\d{4})(\\d{4})\" nationalPrefixFormattingRule=\"$NP$FG\">\n",
   str% "          <leadingDigits>[47]</leadingDigits>\n",
   str% "          <format>$1 $2 $3</format>\n",
   str% "        </numberFormat>\n",
   str% "      </availableFormats>\n",
   str% "      <generalDesc>\n",
   str% "        <nationalNumberPattern>\n",
   str% "          (?:\n",
   str% "            (?:\n",
   str% "              [2689]|\n",
   str% "              7\\d\n",
   str% "            )\\d|\n",
   str% "            32|\n",
   str% "            427|\n",
   str% "            53\n",
   str% "          )\\d{6}\n",
   str% "        </nationalNumberPattern>\n",
   str% "      </generalDesc>\n",
   str% "      <fixedLine>\n",
   str% "        <possibleLengths national=\"8\"/>\n",
   str% "        <exampleNumber>62001234</exampleNumber>\n",
   str% "        <nationalNumberPattern>\n",
   str% "          87(?:\n",
   str% "            000|\n",
   str% "            90[01]\n",
   str% "          )\\d{3}|\n",
   str% "          (?:\n",
   str% "            2(?:\n",
   str% "              6(?:\n",
   str% "                2[0-35-9]|\n",
   str% "                3[0-578]|\n",
   str% "                4[24-7]|\n",
   str% "                5[0-24-8]|\n",
   str% "                [6-8][023]|\n",
   str% "                9[0-3]\n",
   str% "              )|\n",
   str% "              7(?:\n",
   str% "                0[1-79]|\n",
   str% "                10|\n",
   str% "                2[014-7]|\n",
   str% "                3[0-689]|\n",
   str% "                4[019]|\n",
   str% "                5[0-3578]\n",
   str% "              )\n",
   str% "            )|\n",
   str% "            32(?:\n",
   str% "              0[1-69]|\n",
   str% "              1[1-35-7]|\n",
   str% "              2[024-7]|\n",
   str% "              3\\d|\n",
   str% "              4[0-3]|\n",
   str% "              [5-7][023]\n",
   str% "            )|\n",
   str% "            53(?:\n",
   str% "              0[0-3]|\n",
   str% "              [13][023]|\n",
   str% "              2[0-59]|\n",
   str% "              49|\n",
   str% "              5[0-35-9]|\n",
   str% "              6[15]|\n",
   str% "              7[45]|\n",
   str% "              8[1-6]|\n",
   str% "              9[0-36-9]\n",
   str% "            )|\n",
   str% "            6(?:\n",
   str% "              2(?:\n",
   str% "                [05]0|\n",
   str% "                22\n",
   str% "              )|\n",
   str% "              3(?:\n",
   str% "                00|\n",
   str% "                33\n",
   str% "              )|\n",
   str% "              4(?:\n",
   str% "                0[0-25]|\n",
   str% "                1[2-7]|\n",
   str% "                2[0569]|\n",
   str% "                [38][07-9]|\n",
   str% "                4[025689]|\n",
   str% "                6[0-589]|\n",
   str% "                7\\d|\n",
   str% "                9[0-2]\n",
   str% "              )|\n",
   str% "              5(?:\n",
   str% "                [01][056]|\n",
   str% "                2[034]|\n",
   str% "                3[0-57-9]|\n",
   str% "                4[178]|\n",
   str% "                5[0-69]|\n",
   str% "                6[0-35-9]|\n",
   str% "                7[1-379]|\n",
   str% "                8[0-68]|\n",
   str% "                9[0239]\n",
   str% "              )\n",
   str% "            )|\n",
   str% "            87(?:\n",
   str% "              20|\n",
   str% "              7[078]|\n",
   str% "              99\n",
   str% "            )\n",
   str% "          )\\d{4}\n",
   str% "        </nationalNumberPattern>\n",
   str% "      </fixedLine>\n",
   str% "      <mobile>\n",
   str% "        <possibleLengths national=\"9\"/>\n",
   str% "        <exampleNumber>790123456</exampleNumber>\n",
   str% "        <nationalNumberPattern>\n",
   str% "          (?:\n",
   str% "            427|\n",
   str% "            7(?:\n",
   str% "              [78][0-25-9]|\n",
   str% "              9\\d\n",
   str% "            )\n",
   str% "          )\\d{6}\n",
   str% "        </nationalNumberPattern>\n",
   str% "      </mobile>\n",
   str% "      <pager>\n",
   str% "        <possibleLengths national=\"9\"/>\n",
   str% "        <exampleNumber>746612345</exampleNumber>\n",
   str% "        <nationalNumberPattern>\n",
   str% "          74(?:\n",
   str% "            66|\n",
   str% "            77\n",
   str% "          )\\d{5}\n",
   str% "        </nationalNumberPattern>\n",
   str% "      </pager>\n",
   str% "      <tollFree>\n",
   str% "        <possibleLengths national=\"8\"/>\n",
   str% "        <exampleNumber>80012345</exampleNumber>\n",
   str% "        <nationalNumberPattern>80\\d{6}</nationalNumberPattern>\n",
   str% "      </tollFree>\n",
   str% "      <premiumRate>\n",
   str% "        <possibleLengths national=\"8\"/>\n",
   str% "        <exampleNumber>90012345</exampleNumber>\n",
   str% "        <nationalNumberPattern>9\\d{7}</nationalNumberPattern>\n",
   str% "      </premiumRate>\n",
   str% "      <sharedCost>\n",
   str% "        <possibleLengths national=\"8\"/>\n",
   str% "        <exampleNumber>85012345</exampleNumber>\n",
   str% "        <nationalNumberPattern>85\\d{6}</nationalNumberPattern>\n",
   str% "      </sharedCost>\n",
   str% "      <personalNumber>\n",
   str% "        <possibleLengths national=\"9\"/>\n",
   str% "        <exampleNumber>700123456</exampleNumber>\n",
   str% "        <nationalNumberPattern>70\\d{7}</nationalNumberPattern>\n",
   str% "      </personalNumber>\n",
   str% "      <!-- These numbers are Location Independent Services / Fixed cost according to\n",
   str% "           http://www.trc.gov.jo -->\n",
   str% "      <uan>\n",
   str% "        <possibleLengths national=\"8\"/>\n",
   str% "        <exampleNumber>88101234</exampleNumber>\n",
   str% "        <nationalNumberPattern>\n",
   str% "          8(?:\n",
   str% "            10|\n",
   str% "            8\\d\n",
   str% "          )\\d{5}\n",
   str% "        </nationalNumberPattern>\n",
   str% "      </uan>\n",
   str% "    </territory>"]

/-- the text up to the end of territory id=JP countryCode=81 -/
noncomputable def JP : List Str :=
  [str% "\n",
   str% "\n",
   str% "    <!-- Japan (JP) -->\n",
   str% "    <!-- http://www.soumu.go.jp/main_sosiki/joho_tsusin/top/tel_number/number_shitei.html -->\n",
   str% "    <!-- https://www.itu.int/oth/T020200006D/en -->\n",
   str% "    <!-- http://www.numberingplans.com/?page=dialling&sub=areacodes&ac=JP -->\n",
   str% "    <!-- nationalPrefixTransformRule is used here for purpose of capturing 0005999999 kind of\n",
   str% "         short codes without dropping initial '0' as national prefix. As we are using this field,\n",
   str% "         the library is unable to capture domestic carrier codes used, example input:\n",
   str% "         003768-0XX-YYYY-ZZZZ. Due to historic reasons, the parts that we captured in\n",
   str% "         nationalPrefixTransform rule can either be used to transform or to capture in fields like\n",
   str% "         preferred_domestic_carrier_code; schema is designed this way. -->\n",
   str% "    <territory id=\"JP\" countryCode=\"81\" internationalPrefix=\"010\" nationalPrefix=\"0\"\n",
   str% "               nationalPrefixForParsing=\"(000[2569]\\d{4,6})$|(?:(?:003768)0?)|0\"\n",
   str% "               nationalPrefixTransformRule=\"$1\" mobileNumberPortableRegion=\"true\">\n",
   str% "      <availableFormats>\n",
   str% "        <!-- National-only toll-free numbers (0037, 0066, 0077 and 0088). -->\n",
   str% "        <numberFormat pattern=\"(\\d{4})(\\d{4})\">\n",
   str% "          <leadingDigits>007</leadingDigits>\n",
   str% "          <leadingDigits>0077</leadingDigits>\n",
   str% "          <leadingDigits>00777</leadingDigits>\n",
   str% "          <leadingDigits>00777[01]</leadingDigits>\n",
   str% "          <format>$1-$2</format>\n",
   str% "          <intlFormat>NA</intlFormat>\n",
   str% "        </numberFormat>\n",
   str% "        <numberFormat pattern=\"(\\d{8,10})\">\n",
   str% "          <leadingDigits>000</leadingDigits>\n",
   str% "          <format>$1</format>\n",
   str% "          <intlFormat>NA</intlFormat>\n",
   str% "        </numberFormat>\n",
   str% "        <!-- Toll-free, premium-rate and UAN numbers -->\n",
   str% "        <numberFormat pattern=\"(\\d{3})(\\d{3})(\\d{3})\" nationalPrefixFormattingRule=\"$NP$FG\">\n",
   str% "          <leadingDigits>\n",
   str% "            (?:\n",
   str% "              12|\n",
   str% "              57|\n",
   str% "              99\n",
   str% "            )0\n",
   str% "          </leadingDigits>\n",
   str% "          <format>$1-$2-$3</format>\n",
   str% "        </numberFormat>\n",
   str% "        <numberFormat pattern=\"(\\d{4})(\\d)(\\d{4})\" nationalPrefixFormattingRule=\"$NP$FG\">\n",
   str% "          <leadingDigits>\n",
   str% "            1(?:\n",
   str% "              26|\n",
   str% "              3[79]|\n",
   str% "              4[56]|\n",
   str% "              5[4-68]|\n",
   str% "              6[3-5]\n",
   str% "            )|\n",
   str% "            499|\n",
   str% "            5(?:\n",
   str% "              76|\n",
   str% "              97\n",
   str% "            )|\n",
   str% "            746|\n",
   str% "            8(?:\n",
   str% "              3[89]|\n",
   str% "              47|\n",
   str% "              51\n",
   str% "            )|\n",
   str% "            9(?:\n",
   str% "              80|\n",
   str% "              9[16]\n",
   str% "            )\n",
   str% "          </leadingDigits>\n",
   str% "          <leadingDigits>\n",
   str% "            1(?:\n",
   str% "              267|\n",
   str% "              3(?:\n",
   str% "                7[247]|\n",
   str% "                9[278]\n",
   str% "              )|\n",
   str% "              466|\n",
   str% "              5(?:\n",
   str% "                47|\n",
   str% "                58|\n",
   str% "                64\n",
   str% "              )|\n",
   str% "              6(?:\n",
   str% "                3[245]|\n",
   str% "                48|\n",
   str% "                5[4-68]\n",
   str% "              )\n",
   str% "            )|\n",
   str% "            499[2468]|\n",
   str% "            5(?:\n",
   str% "              76|\n",
   str% "              97\n",
   str% "            )9|\n",
   str% "            7468|\n",
   str% "            8(?:\n",
   str% "              3(?:\n",
   str% "                8[7-9]|\n",
   str% "                96\n",
   str% "              )|\n",
   str% "              477|\n",
   str% "              51[2-9]\n",
   str% "            )|\n",
   str% "            9(?:\n",
   str% "              802|\n",
   str% "              9(?:\n",
   str% "                1[23]|\n",
   str% "                69\n",
   str% "              )\n",
   str% "            )|\n",
   str% "            1(?:\n",
   str% "              45|\n",
   str% "              58\n",
   str% "            )[67]\n",
   str% "          </leadingDigits>\n",
   str% "          <leadingDigits>\n",
   str% "            1(?:\n",
   str% "              267|\n",
   str% "              3(?:\n",
   str% "                7[247]|\n",
   str% "                9[278]\n",
   str% "              )|\n",
   str% "              466|\n",
   str% "              5(?:\n",
   str% "                47|\n",
   str% "                58|\n",
   str% "                64\n",
   str% "              )|\n",
   str% "              6(?:\n",
   str% "                3[245]|\n",
   str% "                48|\n",
   str% "                5[4-68]\n",
   str% "              )\n",
   str% "            )|\n",
   str% "            499[2468]|\n",
   str% "            5(?:\n",
   str% "              769|\n",
   str% "              979[2-69]\n",
   str% "            )|\n",
   str% "            7468|\n",
   str% "            8(?:\n",
   str% "              3(?:\n",
   str% "                8[7-9]|\n",
   str% "                96[2457-9]\n",
   str% "              )|\n",
   str% "              477|\n",
   str% "              51[2-9]\n",
   str% "            )|\n",
   str% "            9(?:\n",
   str% "              802|\n",
   str% "              9(?:\n",
   str% "                1[23]|\n",
   str% "                69\n",
   str% "              )\n",
   str% "            )|\n",
   str% "            1(?:\n",
   str% "              45|\n",
   str% "              58\n",
   str% "            )[67]\n",
   str% "          </leadingDigits>\n",
   str% "          <format>$1-$2-$3</format>\n",
   str% "        </numberFormat>\n",
   str% "        <numberFormat pattern=\"(\\d{2})(\\d{3})(\\d{4})\" nationalPrefixFormattingRule=\"$NP$FG\">\n",
   str% "          <leadingDigits>60</leadingDigits>\n",
   str% "          <format>$1-$2-$3</format>\n",
   str% "        </numberFormat>\n",
   str% "        <numberFormat pattern=\"(\\d)(\\d{4})(\\d{4})\" nationalPrefixFormattingRule=\"$NP$FG\">\n",
   str% "          <leadingDigits>\n",
   str% "            3|\n",
   str% "            4(?:\n",
   str% "              2[09]|\n",
   str% "              7[01]\n",
   str% "            )|\n",
   str% "            6[1-9]\n",
   str% "          </leadingDigits>\n",
   str% "          <leadingDigits>\n",
   str% "            3|\n",
   str% "            4(?:\n",
   str% "              2(?:\n",
   str% "                0|\n",
   str% "                9[02-69]\n",
   str% "              )|\n",
   str% "              7(?:\n",
   str% "                0[019]|\n",
   str% "                1\n",
   str% "              )\n",
   str% "            )|\n",
   str% "            6[1-9]\n",
   str% "          </leadingDigits>\n",
   str% "          <format>$1-$2-$3</format>\n",
   str% "        </numberFormat>\n",
   str% "        <numberFormat pattern=\"(\\d{2})(\\d{3})(\\d{4})\" nationalPrefixFormattingRule=\"$NP$FG\">\n",
   str% "          <leadingDigits>\n",
   str% "            1(?:\n",
   str% "              1|\n",
   str% "              5[45]|\n",
   str% "              77|\n",
   str% "              88|\n",
   str% "              9[69]\n",
   str% "            )|\n",
   str% "            2(?:\n",
   str% "              2[1-37]|\n",
   str% "              3[0-269]|\n",
   str% "              4[59]|\n",
   str% "              5|\n",
   str% "              6[24]|\n",
   str% "              7[1-358]|\n",
   str% "              8[1369]|\n",
   str% "              9[0-38]\n",
   str% "            )|\n",
   str% "            4(?:\n",
   str% "              [28][1-9]|\n",
   str% "              3[0-57]|\n",
   str% "              [45]|\n",
   str% "              6[248]|\n",
   str% "              7[2-579]|\n",
   str% "              9[29]\n",
   str% "            )|\n",
   str% "            5(?:\n",
   str% "              2|\n",
   str% "              3[0459]|\n",
   str% "              4[0-369]|\n",
   str% "              5[29]|\n",
   str% "              8[02389]|\n",
   str% "              9[0-389]\n",
   str% "            )|\n",
   str% "            7(?:\n",
   str% "              2[02-46-9]|\n",
   str% "              34|\n",
   str% "              [58]|\n",
   str% "              6[0249]|\n",
   str% "              7[57]|\n",
   str% "              9[2-6]\n",
   str% "            )|\n",
   str% "            8(?:\n",
   str% "              2[124589]|\n",
   str% "              3[26-9]|\n",
   str% "              49|\n",
   str% "              51|\n",
   str% "              6|\n",
   str% "              7[0-468]|\n",
   str% "              8[68]|\n",
   str% "              9[019]\n",
   str% "            )|\n",
   str% "            9(?:\n",
   str% "              [23][1-9]|\n",
   str% "              4[15]|\n",
   str% "              5[138]|\n",
   str% "              6[1-3]|\n",
   str% "              7[156]|\n",
   str% "              8[189]|\n",
   str% "              9[1-489]\n",
   str% "            )\n",
   str% "          </leadingDigits>\n",
   str% "          <leadingDigits>\n",
   str% "            1(?:\n",
   str% "              1|\n",
   str% "              5(?:\n",
   str% "                4[018]|\n",
   str% "                5[017]\n",
   str% "              )|\n",
   str% "              77|\n",
   str% "              88|\n",
   str% "              9[69]\n",
   str% "            )|\n",
   str% "            2(?:\n",
   str% "              2(?:\n",
   str% "                [127]|\n",
   str% "                3[014-9]\n",
   str% "              )|\n",
   str% "              3[0-269]|\n",
   str% "              4[59]|\n",
   str% "              5(?:\n",
   str% "                [1-3]|\n",
   str% "                5[0-69]|\n",
   str% "                9[19]\n",
   str% "              )|\n",
   str% "              62|\n",
   str% "              7(?:\n",
   str% "                [1-35]|\n",
   str% "                8[0189]\n",
   str% "              )|\n",
   str% "              8(?:\n",
   str% "                [16]|\n",
   str% "                3[0134]|\n",
   str% "                9[0-5]\n",
   str% "              )|\n",
   str% "              9(?:\n",
   str% "                [028]|\n",
   str% "                17\n",
   str% "              )\n",
   str% "            )|\n",
   str% "            4(?:\n",
   str% "              2(?:\n",
   str% "                [13-79]|\n",
   str% "                8[014-6]\n",
   str% "              )|\n",
   str% "              3[0-57]|\n",
   str% "              [45]|\n",
   str% "              6[248]|\n",
   str% "              7[2-47]|\n",
   str% "              8[1-9]|\n",
   str% "              9[29]\n",
   str% "            )|\n",
   str% "            5(?:\n",
   str% "              2|\n",
   str% "              3(?:\n",
   str% "                [045]|\n",
   str% "                9[0-8]\n",
   str% "              )|\n",
   str% "              4[0-369]|\n",
   str% "              5[29]|\n",
   str% "              8[02389]|\n",
   str% "              9[0-3]\n",
   str% "            )|\n",
   str% "            7(?:\n",
   str% "              2[02-46-9]|\n",
   str% "              34|\n",
   str% "              [58]|\n",
   str% "              6[0249]|\n",
   str% "              7[57]|\n",
   str% "              9(?:\n",
   str% "                [23]|\n",
   str% "                4[0-59]|\n",
   str% "                5[01569]|\n",
   str% "                6[0167]\n",
   str% "              )\n",
   str% "            )|\n",
   str% "            8(?:\n",
   str% "              2(?:\n",
   str% "                [1258]|\n",
   str% "                4[0-39]|\n",
   str% "                9[0-2469]\n",
   str% "              )|\n",
   str% "              3(?:\n",
   str% "                [29]|\n",
   str% "                60\n",
   str% "              )|\n",
   str% "              49|\n",
   str% "              51|\n",
   str% "              6(?:\n",
   str% "                [0-24]|\n",
   str% "                36|\n",
   str% "                5[0-3589]|\n",
   str% "                7[23]|\n",
   str% "                9[01459]\n",
   str% "              )|\n",
   str% "              7[0-468]|\n",
   str% "              8[68]\n",
   str% "            )|\n",
   str% "            9(?:\n",
   str% "              [23][1-9]|\n",
   str% "              4[15]|\n",
   str% "              5[138]|\n",
   str% "              6[1-3]|\n",
   str% "              7[156]|\n",
   str% "              8[189]|\n",
   str% "              9(?:\n",
   str% "                [1289]|\n",
   str% "                3[34]|\n",
   str% "                4[0178]\n",
   str% "              )\n",
   str% "            )|\n",
   str% "            (?:\n",
   str% "              264|\n",
   str% "              837\n",
   str% "            )[016-9]|\n",
   str% "            2(?:\n",
   str% "              57|\n",
   str% "              93\n",
   str% "            )[015-9]|\n",
   str% "            (?:\n",
   str% "              25[0468]|\n",
   str% "              422|\n",
   str% "              838\n",
   str% "            )[01]|\n",
   str% "            (?:\n",
   str% "              47[59]|\n",
   str% "              59[89]|\n",
   str% "              8(?:\n",
   str% "                6[68]|\n",
   str% "                9\n",
   str% "              )\n",
   str% "            )[019]\n",
   str% "          </leadingDigits>\n",
   str% "          <leadingDigits>\n",
   str% "            1(?:\n",
   str% "              1|\n",
   str% "              5(?:\n",
   str% "                4[018]|\n",
   str% "                5[017]\n",
   str% "              )|\n",
   str% "              77|\n",
   str% "              88|\n",
   str% "              9[69]\n",
   str% "            )|\n",
   str% "            2(?:\n",
   str% "              2[127]|\n",
   str% "              3[0-269]|\n",
   str% "              4[59]|\n",
   str% "              5(?:\n",
   str% "                [1-3]|\n",
   str% "                5[0-69]|\n",
   str% "                9(?:\n",
   str% "                  17|\n",
   str% "                  99\n",
   str% "                )\n",
   str% "              )|\n",
   str% "              6(?:\n",
   str% "                2|\n",
   str% "                4[016-9]\n",
   str% "              )|\n",
   str% "              7(?:\n",
   str% "                [1-35]|\n",
   str% "                8[0189]\n",
   str% "              )|\n",
   str% "              8(?:\n",
   str% "                [16]|\n",
   str% "                3[0134]|\n",
   str% "                9[0-5]\n",
   str% "              )|\n",
   str% "              9(?:\n",
   str% "                [028]|\n",
   str% "                17\n",
   str% "              )\n",
   str% "            )|\n",
   str% "            4(?:\n",
   str% "              2(?:\n",
   str% "                [13-79]|\n",
   str% "                8[014-6]\n",
   str% "              )|\n",
   str% "              3[0-57]|\n",
   str% "              [45]|\n",
   str% "              6[248]|\n",
   str% "              7[2-47]|\n",
   str% "              9[29]\n",
   str% "            )|\n",
   str% "            5(?:\n",
   str% "              2|\n",
   str% "              3(?:\n",
   str% "                [045]|\n",
   str% "                9(?:\n",
   str% "                  [0-58]|\n",
   str% "                  6[4-9]|\n",
   str% "                  7[0-35689]\n",
   str% "                )\n",
   str% "              )|\n",
   str% "              4[0-369]|\n",
   str% "              5[29]|\n",
   str% "              8[02389]|\n",
   str% "              9[0-3]\n",
   str% "            )|\n",
   str% "            7(?:\n",
   str% "              2[02-46-9]|\n",
   str% "              34|\n",
   str% "              [58]|\n",
   str% "              6[0249]|\n",
   str% "              7[57]|\n",
   str% "              9(?:\n",
   str% "                [23]|\n",
   str% "                4[0-59]|\n",
   str% "                5[01569]|\n",
   str% "                6[0167]\n",
   str% "              )\n",
   str% "            )|\n",
   str% "            8(?:\n",
   str% "              2(?:\n",
   str% "                [1258]|\n",
   str% "                4[0-39]|\n",
   str% "                9[0169]\n",
   str% "              )|\n",
   str% "              3(?:\n",
   str% "                [29]|\n",
   str% "                60|\n",
   str% "                7(?:\n",
   str% "                  [017-9]|\n",
   str% "                  6[6-8]\n",
   str% "                )\n",
   str% "              )|\n",
   str% "              49|\n",
   str% "              51|\n",
   str% "              6(?:\n",
   str% "                [0-24]|\n",
   str% "                36[2-57-9]|\n",
   str% "                5(?:\n",
   str% "                  [0-389]|\n",
   str% "                  5[23]\n",
   str% "                )|\n",
   str% "                6(?:\n",
   str% "                  [01]|\n",
   str% "                  9[178]\n",
   str% "                )|\n",
   str% "                7(?:\n",
   str% "                  2[2-468]|\n",
   str% "                  3[78]\n",
   str% "                )|\n",
   str% "                9[0145]\n",
   str% "              )|\n",
   str% "              7[0-468]|\n",
   str% "              8[68]\n",
   str% "            )|\n",
   str% "            9(?:\n",
   str% "              4[15]|\n",
   str% "              5[138]|\n",
   str% "              7[156]|\n",
   str% "              8[189]|\n",
   str% "              9(?:\n",
   str% "                [1289]|\n",
   str% "                3(?:\n",
   str% "                  31|\n",
   str% "                  4[357]\n",
   str% "                )|\n",
   str% "                4[0178]\n",
   str% "              )\n",
   str% "            )|\n",
   str% "            (?:\n",
   str% "              8294|\n",
   str% "              96\n",
   str% "            )[1-3]|\n",
   str% "            2(?:\n",
   str% "              57|\n",
   str% "              93\n",
   str% "            )[015-9]|\n",
   str% "            (?:\n",
   str% "              223|\n",
   str% "              8699\n",
   str% "            )[014-9]|\n",
   str% "            (?:\n",
   str% "              25[0468]|\n",
   str% "              422|\n",
   str% "              838\n",
   str% "            )[01]|\n",
   str% "            (?:\n",
   str% "              48|\n",
   str% "              8292|\n",
   str% "              9[23]\n",
   str% "            )[1-9]|\n",
   str% "            (?:\n",
   str% "              47[59]|\n",
   str% "              59[89]|\n",
   str% "              8(?:\n",
   str% "                68|\n",
   str% "                9\n",
   str% "              )\n",
   str% "            )[019]\n",
   str% "          </leadingDigits>\n",
   str% "          <format>$1-$2-$3</format>\n",
   str% "        </numberFormat>\n",
   str% "        <numberFormat pattern=\"(\\d{3})(\\d{2})(\\d{4})\" nationalPrefixFormattingRule=\"$NP$FG\">\n",
   str% "          <leadingDigits>\n",
   str% "            [14]|\n",
   str% "            [289][2-9]|\n",
   str% "            5[3-9]|\n",
   str% "            7[2-4679]\n",
   str% "          </leadingDigits>\n",
   str% "          <format>$1-$2-$3</format>\n",
   str% "        </numberFormat>\n",
   str% "        <numberFormat pattern=\"(\\d{4})(\\d{2})(\\d{3,4})\">\n",
   str% "          <leadingDigits>007</leadingDigits>\n",
   str% "          <leadingDigits>0077</leadingDigits>\n",
   str% "          <format>$1-$2-$3</format>\n",
   str% "          <intlFormat>NA</intlFormat>\n",
   str% "        </numberFormat>\n",
   str% "        <numberFormat pattern=\"(\\d{4})(\\d{2})(\\d{4})\">\n",
   str% "          <leadingDigits>008</leadingDigits>\n",
   str% "          <format>$1-$2-$3</format>\n",
   str% "          <intlFormat>NA</intlFormat>\n",
   str% "        </numberFormat>\n",
   str% "        <numberFormat pattern=\"(\\d{3})(\\d{3})(\\d{4})\" nationalPrefixFormattingRule=\"$NP$FG\">\n",
   str% "          <leadingDigits>800</leadingDigits>\n",
   str% "          <format>$1-$2-$3</format>\n",
   str% "        </numberFormat>\n",
   str% "        <numberFormat pattern=\"(\\d{2})(\\d{4})(\\d{4})\" nationalPrefixFormattingRule=\"$NP$FG\">\n",
   str% "          <leadingDigits>[25-9]</leadingDigits>\n",
   str% "          <format>$1-$2-$3</format>\n",
   str% "        </numberFormat>\n",
   str% "        <numberFormat pattern=\"(\\d{4})(\\d{3})(\\d{3,4})\">\n",
   str% "          <leadingDigits>0</leadingDigits>\n",
   str% "          <format>$1-$2-$3</format>\n",
   str% "          <intlFormat>NA</intlFormat>\n",
   str% "        </numberFormat>\n",
   str% "        <numberFormat pattern=\"(\\d{4})(\\d{4})(\\d{4,5})\">\n",
   str% "          <leadingDigits>0</leadingDigits>\n",
   str% "          <format>$1-$2-$3</format>\n",
   str% "          <intlFormat>NA</intlFormat>\n",
   str% "        </numberFormat>\n",
   str% "        <numberFormat pattern=\"(\\d{4})(\\d{5})(\\d{5,6})\">\n",
   str% "          <leadingDigits>0</leadingDigits>\n",
   str% "          <format>$1-$2-$3</format>\n",
   str% "          <intlFormat>NA</intlFormat>\n",
   str% "        </numberFormat>\n",
   str% "        <numberFormat pattern=\"(\\d{4})(\\d{6})(\\d{6,7})\">\n",
   str% "          <leadingDigits>0</leadingDigits>\n",
   str% "          <format>$1-$2-$3</format>\n",
   str% "          <intlFormat>NA</intlFormat>\n",
   str% "        </numberFormat>\n",
   str% "      </availableFormats>\n",
   str% "      <generalDesc>\n",
   str% "        <nationalNumberPattern>\n",
   str% "          00[1-9]\\d{6,14}|\n",
   str% "          [25-9]\\d{9}|\n",
   str% "          (?:\n",
   str% "            00|\n",
   str% "            [1-9]\\d\\d\n",
   str% "          )\\d{6}\n",
   str% "        </nationalNumberPattern>\n",
   str% "      </generalDesc>\n",
   str% "      <!-- Toll-free numbers with a leading \"00\" cannot be dialled internationally. -->\n",
   str% "      <noInternationalDialling>\n",
   str% "        <possibleLengths national=\"[8-17]\"/>\n",
   str% "        <nationalNumberPattern>\n",
   str% "          00(?:\n",
   str% "            777(?:\n",
   str% "              [01]|\n",
   str% "              (?:\n",
   str% "                5|\n",
   str% "                8\\d\n",
   str% "              )\\d\n",
   str% "            )|\n",
   str% "            882[1245]\\d\\d\n",
   str% "          )\\d\\d|\n",
   str% "          00(?:\n",
   str% "            37|\n",
   str% "            66|\n",
   str% "            78\n",
   str% "          )\\d{6,13}\n",
   str% "        </nationalNumberPattern>\n",
   str% "      </noInternationalDialling>\n",
   str% "      <fixedLine>\n",
   str% "        <possibleLengths national=\"9\"/>\n",
   str% "        <exampleNumber>312345678</exampleNumber>\n",
   str% "        <nationalNumberPattern>\n",
   str% "          (?:\n",
   str% "            1(?:\n",
   str% "              1[235-8]|\n",
   str% "              2[3-6]|\n",
   str% "              3[3-9]|\n",
   str% "              4[2-6]|\n",
   str% "              [58][2-8]|\n",
   str% "              6[2-7]|\n",
   str% "              7[2-9]|\n",
   str% "              9[1-9]\n",
   str% "            )|\n",
   str% "            (?:\n",
   str% "              2[2-9]|\n",
   str% "              [36][1-9]\n",
   str% "            )\\d|\n",
   str% "            4(?:\n",
   str% "              [2-578]\\d|\n",
   str% "              6[02-8]|\n",
   str% "              9[2-59]\n",
   str% "            )|\n",
   str% "            5(?:\n",
   str% "              [2-589]\\d|\n",
   str% "              6[1-9]|\n",
   str% "              7[2-8]\n",
   str% "            )|\n",
   str% "            7(?:\n",
   str% "              [25-9]\\d|\n",
   str% "              3[4-9]|\n",
   str% "              4[02-9]\n",
   str% "            )|\n",
   str% "            8(?:\n",
   str% "              [2679]\\d|\n",
   str% "              3[2-9]|\n",
   str% "              4[5-9]|\n",
   str% "              5[1-9]|\n",
   str% "              8[03-9]\n",
   str% "            )|\n",
   str% "            9(?:\n",
   str% "              [2-58]\\d|\n",
   str% "              [679][1-9]\n",
   str% "            )\n",
   str% "          )\\d{6}\n",
   str% "        </nationalNumberPattern>\n",
   str% "      </fixedLine>\n",
   str% "      <mobile>\n",
   str% "        <possibleLengths national=\"10\"/>\n",
   str% "        <exampleNumber>9012345678</exampleNumber>\n",
   str% "        <nationalNumberPattern>[6-9]0[1-9]\\d{7}</nationalNumberPattern>\n",
   str% "      </mobile>\n",
   str% "      <pager>\n",
   str% "        <possibleLengths national=\"10\"/>\n",
   str% "        <exampleNumber>2012345678</exampleNumber>\n",
   str% "        <nationalNumberPattern>20\\d{8}</nationalNumberPattern>\n",
   str% "      </pager>\n",
   str% "      <!-- http://www.kddi.com/english/business/free_call_dx/number.html and\n",
   str% "           http://tm.softbank.jp/english/business/phone_service/freecall_sp/index.html\n",
   str% "           http://eonet.jp/home/denwa/service/access.html\n",
   str% "           http://ci.fusioncom.co.jp/feature/\n",
   str% "           http://www.auhikari.jp/service/tel/connection/index.html -->\n",
   str% "      <!-- Note that in fact, the number length for 0037 and 0066 numbers should extend to 21\n",
   str% "           digits, confirmed with Yahoo JP. However, this extends well beyond the maximum number\n",
   str% "           length allowed by ITU and hence our library, so we only allow numbers up to 17 digits\n",
   str% "           for now (including both leading 00s). -->\n",
   str% "      <tollFree>\n",
   str% "        <possibleLengths national=\"[8-17]\"/>\n",
   str% "        <exampleNumber>120123456</exampleNumber>\n",
   str% "        <nationalNumberPattern>\n",
   str% "          00777(?:\n",
   str% "            [01]|\n",
   str% "            5\\d\n",
   str% "          )\\d\\d|\n",
   str% "          (?:\n",
   str% "            00(?:\n",
   str% "              7778|\n",
   str% "              882[1245]\n",
   str% "            )|\n",
   str% "            (?:\n",
   str% "              120|\n",
   str% "              800\\d\n",
   str% "            )\\d\\d\n",
   str% "          )\\d{4}|\n",
   str% "          00(?:\n",
   str% "            37|\n",
   str% "            66|\n",
   str% "            78\n",
   str% "          )\\d{6,13}\n",
   str% "        </nationalNumberPattern>\n",
   str% "      </tollFree>\n",
   str% "      <premiumRate>\n",
   str% "        <possibleLengths national=\"9\"/>\n",
   str% "        <exampleNumber>990123456</exampleNumber>\n",
   str% "        <nationalNumberPattern>990\\d{6}</nationalNumberPattern>\n",
   str% "      </premiumRate>\n",
   str% "      <personalNumber>\n",
   str% "        <possibleLengths national=\"9\"/>\n",
   str% "        <exampleNumber>601234567</exampleNumber>\n",
   str% "        <nationalNumberPattern>60\\d{7}</nationalNumberPattern>\n",
   str% "      </personalNumber>\n",
   str% "      <voip>\n",
   str% "        <possibleLengths national=\"10\"/>\n",
   str% "        <exampleNumber>5012345678</exampleNumber>\n",
   str% "        <nationalNumberPattern>50[1-9]\\d{7}</nationalNumberPattern>\n",
   str% "      </voip>\n",
   str% "      <!-- Storing \"unified number service\" as UAN. -->\n",
   str% "      <uan>\n",
   str% "        <possibleLengths national=\"9\"/>\n",
   str% "        <exampleNumber>570123456</exampleNumber>\n",
   str% "        <nationalNumberPattern>570\\d{6}</nationalNumberPattern>\n",
   str% "      </uan>\n",
   str% "    </territory>"]

/-- the text up to the end of territory id=KE countryCode=254 -/
noncomputable def KE : List Str :=
  [str% "\n",
   str% "\n",
   str% "    <!-- Kenya (KE) -->\n",
   str% "    <!-- http://www.ca.go.ke/index.php/numbering -->\n",
   str% "    <!-- https://www.itu.int/oth/T0202000070/en -->\n",
   str% "    <!-- http://en.wikipedia.org/wiki/+254 -->\n",
   str% "    <territory id=\"KE\" countryCode=\"254\" internationalPrefix=\"000\" nationalPrefix=\"0\"\n",
   str% "               mobileNumberPortableRegion=\"true\">\n",
   str% "      <availableFormats>\n",
   str% "        <numberFormat pattern=\"(\\d{2})(\\d{5,7})\" nationalPrefixFormattingRule=\"$NP$FG\">\n",
   str% "          <leadingDigits>[24-6]</leadingDigits>\n",
   str% "          <format>$1 $2</format>\n",
   str% "        </numberFormat>\n",
   str% "        <numberFormat pattern=\"(\\d{3})(\\d{6})\" nationalPrefixFormattingRule=\"$NP$FG\">\n",
   str% "          <leadingDigits>[17]</leadingDigits>\n",
   str% "          <format>$1 $2</format>\n",
   str% "        </numberFormat>\n",
   str% "        <numberFormat pattern=\"(\\d{3})(\\d{3})(\\d{3,4})\" nationalPrefixFormattingRule=\"$NP$FG\">\n",
   str% "          <leadingDigits>[89]</leadingDigits>\n",
   str% "          <format>$1 $2 $3</format>\n",
   str% "        </numberFormat>\n",
   str% "      </availableFormats>\n",
   str% "      <generalDesc>\n",
   str% "        <nationalNumberPattern>\n",
   str% "          (?:\n",
   str% "            [17]\\d\\d|\n",
   str% "            900\n",
   str% "          )\\d{6}|\n",
   str% "          (?:\n",
   str% "            2|\n",
   str% "            80\n",
   str% "          )0\\d{6,7}|\n",
   str% "          [4-6]\\d{6,8}\n",
   str% "        </nationalNumberPattern>\n",
   str% "      </generalDesc>\n",
   str% "      <!-- The prefixes 046, 050, 058, and 066 may appear online in less than 9 digits but\n",
   str% "           calling them has confirmed these are outdated. However a 7-digit 068 number was\n",
   str% "           dialed successfully so we consider these valid despite the plan. Range 65 is still\n",
   str% "           supported based on ca.go.ke's doc even though its not mentioned in ITU doc. -->\n",
   str% "      <fixedLine>\n",
   str% "        <possibleLengths national=\"[7-9]\"/>\n",
   str% "        <exampleNumber>202012345</exampleNumber>\n",
   str% "        <nationalNumberPattern>\n",
   str% "          (?:\n",
   str% "            4[245]|\n",
   str% "            5[1-79]|\n",
   str% "            6[01457-9]\n",
   str% "          )\\d{5,7}|\n",
   str% "          (?:\n",
   str% "            4[136]|\n",
   str% "            5[08]|\n",
   str% "            62\n",
   str% "          )\\d{7}|\n",
   str% "          (?:\n",
   str% "            [24]0|\n",
   str% "            66\n",
   str% "          )\\d{6,7}\n",
   str% "        </nationalNumberPattern>\n",
   str% "      </fixedLine>\n",
   str% "      <!-- Per www.ca.go.ke range 1\\d{8} is mobile. The range has not been assigned to an operator\n",
   str% "           yet and no working numbers were found online. Not adding the range for now.\n",
   str% "           As per Communication authority of Kenya range 10[0-2] is assigned to \"Airtel\" and 11[01]\n",
   str% "           is assigned to \"Safaricom\". -->\n",
   str% "      <mobile>\n",
   str% "        <possibleLengths national=\"9\"/>\n",
   str% "        <exampleNumber>712123456</exampleNumber>\n",
   str% "        <nationalNumberPattern>\n",
   str% "          (?:\n",
   str% "            1(?:\n",
   str% "              0[0-8]|\n",
   str% "              1\\d|\n",
   str% "              2[014]|\n",
   str% "              30|\n",
   str% "              4[0-5]\n",
   str% "            )|\n",
   str% "            7\\d\\d\n",
   str% "          )\\d{6}\n",
   str% "        </nationalNumberPattern>\n",
   str% "      </mobile>\n",
   str% "      <!-- Longer numbers have been found than the plan suggests, so we support them here too. -->\n",
   str% "      <!-- The plan suggests 0844 and 0845 may belong here, but these are short numbers rather\n",
   str% "           than prefixes:\n",
   str% "           http://www.telkomkenya.8k.com/Products/v/2.html\n",
   str% "           http://www.kenya-advisor.com/phone-calls-kenya.html\n",
   str% "           http://www.telkom.co.ke/index.php?option=com_content&view=article&id=64&Itemid=98 -->\n",
   str% "      <tollFree>\n",
   str% "        <possibleLengths national=\"9,10\"/>\n",
   str% "        <exampleNumber>800223456</exampleNumber>\n",
   str% "        <nationalNumberPattern>800[02-8]\\d{5,6}</nationalNumberPattern>\n",
   str% "      </tollFree>\n",
   str% "      <premiumRate>\n",
   str% "        <possibleLengths national=\"9\"/>\n",
   str% "        <exampleNumber>900223456</exampleNumber>\n",
   str% "        <nationalNumberPattern>900[02-9]\\d{5}</nationalNumberPattern>\n",
   str% "      </premiumRate>\n",
   str% "    </territory>"]

/-- the text up to the end of territory id=KG countryCode=996 -/
noncomputable def KG : List Str :=
  [str% "\n",
   str% "\n",
   str% "    <!-- Kyrgyzstan (KG) -->\n",
   str% "    <!-- No premiumRate information can be found. -->\n",
   str% "    <!-- http://www.itu.int/oth/T0202000074/en -->\n",
   str% "    <territory id=\"KG\" countryCode=\"996\" internationalPrefix=\"00\" nationalPrefix=\"0\">\n",
   str% "      <availableFormats>\n",
   str% "        <numberFormat pattern=\"(\\d{4})(\\d{5})\" nationalPrefixFormattingRule=\"$NP$FG\">\n",
   str% "          <leadingDigits>\n",
   str% "            3(?:\n",
   str% "              1[346]|\n",
   str% "              [24-79]\n",
   str% "            )\n",
   str% "          </leadingDigits>\n",
   str% "          <format>$1 $2</format>\n",
   str% "        </numberFormat>\n",
   str% "        <numberFormat pattern=\"(\\d{3})(\\d{3})(\\d{3})\" nationalPrefixFormattingRule=\"$NP$FG\">\n",
   str% "          <leadingDigits>\n",
   str% "            [235-79]|\n",
   str% "            88\n",
   str% "          </leadingDigits>\n",
   str% "          <format>$1 $2 $3</format>\n",
   str% "        </numberFormat>\n",
   str% "        <numberFormat pattern=\"(\\d{3})(\\d{3})(\\d)(\\d{2,3})\" nationalPrefixFormattingRule=\"$NP$FG\">\n",
   str% "          <leadingDigits>8</leadingDigits>\n",
   str% "          <format>$1 $2 $3 $4</format>\n",
   str% "        </numberFormat>\n",
   str% "      </availableFormats>\n",
   str% "      <generalDesc>\n",
   str% "        <nationalNumberPattern>\n",
   str% "          8\\d{9}|\n",
   str% "          [235-9]\\d{8}\n",
   str% "        </nationalNumberPattern>\n",
   str% "      </generalDesc>\n",
   str% "      <!-- Extra area codes found on Web Search: 3147. -->\n",
   str% "      <fixedLine>\n",
   str% "        <possibleLengths national=\"9\" localOnly=\"5,6\"/>\n",
   str% "        <exampleNumber>312123456</exampleNumber>\n",
   str% "        <nationalNumberPattern>\n",
   str% "          312(?:\n",
   str% "            5[0-79]\\d|\n",
   str% "            9(?:\n",
   str% "              [0-689]\\d|\n",
   str% "              7[0-24-9]\n",
   str% "            )\n",
   str% "          )\\d{3}|\n",
   str% "          (?:\n",
   str% "            3(?:\n",
   str% "              1(?:\n",
   str% "                2[0-46-8]|\n",
   str% "                3[1-9]|\n",
   str% "                47|\n",
   str% "                [56]\\d\n",
   str% "              )|\n",
   str% "              2(?:\n",
   str% "                22|\n",
   str% "                3[0-479]|\n",
   str% "                6[0-7]\n",
   str% "              )|\n",
   str% "              4(?:\n",
   str% "                22|\n",
   str% "                5[6-9]|\n",
   str% "                6\\d\n",
   str% "              )|\n",
   str% "              5(?:\n",
   str% "                22|\n",
   str% "                3[4-7]|\n",
   str% "                59|\n",
   str% "                6\\d\n",
   str% "              )|\n",
   str% "              6(?:\n",
   str% "                22|\n",
   str% "                5[35-7]|\n",
   str% "                6\\d\n",
   str% "              )|\n",
   str% "              7(?:\n",
   str% "                22|\n",
   str% "                3[468]|\n",
   str% "                4[1-9]|\n",
   str% "                59|\n",
   str% "                [67]\\d\n",
   str% "              )|\n",
   str% "              9(?:\n",
   str% "                22|\n",
   str% "                4[1-8]|\n",
   str% "                6\\d\n",
   str% "              )\n",
   str% "            )|\n",
   str% "            6(?:\n",
   str% "              09|\n",
   str% "              12|\n",
   str% "              2[2-4]\n",
   str% "            )\\d\n",
   str% "          )\\d{5}\n",
   str% "        </nationalNumberPattern>\n",
   str% "      </fixedLine>\n",
   str% "      <mobile>\n",
   str% "        <possibleLengths national=\"9\"/>\n",
   str% "        <exampleNumber>700123456</exampleNumber>\n",
   str% "        <nationalNumberPattern>\n",
   str% "          312(?:\n",
   str% "            58\\d|\n",
   str% "            973\n",
   str% "          )\\d{3}|\n",
   str% "          (?:\n",
   str% "            2(?:\n",
   str% "              0[0-35]|\n",
   str% "              2\\d\n",
   str% "            )|\n",
   str% "            5[0-24-7]\\d|\n",
   str% "            600|\n",
   str% "            7(?:\n",
   str% "              [07]\\d|\n",
   str% "              55\n",
   str% "            )|\n",
   str% "            88[08]|\n",
   str% "            9(?:\n",
   str% "              12|\n",
   str% "              9[05-9]\n",
   str% "            )\n",
   str% "          )\\d{6}\n",
   str% "        </nationalNumberPattern>\n",
   str% "      </mobile>\n",
   str% "      <!-- Add an extra digit to the number pattern since the only toll-free number found on Web\n",
   str% "           Search contains 10 digits instead of the 9 digits specified in the ITU document. -->\n",
   str% "      <tollFree>\n",
   str% "        <possibleLengths national=\"9,10\"/>\n",
   str% "        <exampleNumber>800123456</exampleNumber>\n",
   str% "        <nationalNumberPattern>800\\d{6,7}</nationalNumberPattern>\n",
   str% "      </tollFree>\n",
   str% "    </territory>"]

/-- the text up to the end of territory id=KH countryCode=855 -/
noncomputable def KH : List Str :=
  [str% "\n",
   str% "\n",
   str% "    <!-- Cambodia (KH) -->\n",
   str% "    <!-- http://www.itu.int/oth/T0202000023/en -->\n",
   str% "    <!-- http://en.wikipedia.org/wiki/+855 -->\n",
   str% "    <territory id=\"KH\" countryCode=\"855\" internationalPrefix=\"00[14-9]\" nationalPrefix=\"0\">\n",
   str% "      <availableFormats>\n",
   str% "        <!-- General format for most number ranges -->\n",
   str% "        <numberFormat pattern=\"(\\d{2})(\\d{3})(\\d{3,4})\" nationalPrefixFormattingRule=\"$NP$FG\">\n",
   str% "          <leadingDigits>[1-9]</leadingDigits>\n",
   str% "          <format>$1 $2 $3</format>\n",
   str% "        </numberFormat>\n",
   str% "        <!-- Toll-free and premium rate numbers -->\n",
   str% "        <numberFormat pattern=\"(\\d{4})(\\d{3})(\\d{3})\">\n",
   str% "          <leadingDigits>1</leadingDigits>\n",
   str% "          <format>$1 $2 $3</format>\n",
   str% "        </numberFormat>\n",
   str% "      </availableFormats>\n",
   str% "      <generalDesc>\n",
   str% "        <nationalNumberPattern>\n",
   str% "          1\\d{9}|\n",
   str% "          [1-9]\\d{7,8}\n",
   str% "        </nationalNumberPattern>\n",
   str% "      </generalDesc>\n",
   str% "      <!-- Allowing subscriber numbers beginning with 5 since Mobitel have informed us they have\n",
   str% "           started issuing fixed-line numbers like this. Apparently, mobile-company-issued\n",
   str% "           fixed-line numbers are one digit longer than government-issued numbers. Moreover, the\n",
   str% "           range beginning with 6 seems to include some numbers that are one digit longer as well.\n",
   str% "           Allowing 238\\d{6} and 234[234]\\d{4} based on information from Cambodia Yellow Pages.\n",
   str% "           Note that numbers beginning with 234 are split across two patterns. -->\n",
   str% "      <fixedLine>\n",
   str% "        <possibleLengths national=\"8,9\" localOnly=\"6,7\"/>\n",
   str% "        <exampleNumber>23756789</exampleNumber>\n",
   str% "        <nationalNumberPattern>\n",
   str% "          23(?:\n",
   str% "            4(?:\n",
   str% "              [2-4]|\n",
   str% "              [56]\\d\n",
   str% "            )|\n",
   str% "            [568]\\d\\d\n",
   str% "          )\\d{4}|\n",
   str% "          23[236-9]\\d{5}|\n",
   str% "          (?:\n",
   str% "            2[4-6]|\n",
   str% "            3[2-6]|\n",
   str% "            4[2-4]|\n",
   str% "            [5-7][2-5]\n",
   str% "          )(?:\n",
   str% "            (?:\n",
   str% "              [237-9]|\n",
   str% "              4[56]|\n",
   str% "              5\\d\n",
   str% "            )\\d{5}|\n",
   str% "            6\\d{5,6}\n",
   str% "          )\n",
   str% "        </nationalNumberPattern>\n",
   str% "      </fixedLine>\n",
   str% "      <!-- SMART uses prefixes 01[056], 070, 08[167] and 09[368].\n",
   str% "           Beeline uses 060.\n",
   str% "           Mobitel uses 01[1247].\n",
   str% "           Cellcard uses 0857 and 061.\n",
   str% "           Extra prefixes found online: 088, 097.\n",
   str% "           Allowing 9-digit 1[28], 31, 38 and 76 numbers based on information from Cambodia Yellow\n",
   str% "           Pages and online search. Allowing 71 based on open-source report and online search. -->\n",
   str% "      <mobile>\n",
   str% "        <possibleLengths national=\"8,9\"/>\n",
   str% "        <exampleNumber>91234567</exampleNumber>\n",
   str% "        <nationalNumberPattern>\n",
   str% "          (?:\n",
   str% "            (?:\n",
   str% "              1[28]|\n",
   str% "              3[18]|\n",
   str% "              9[67]\n",
   str% "            )\\d|\n",
   str% "            6[016-9]|\n",
   str% "            7(?:\n",
   str% "              [07-9]|\n",
   str% "              [16]\\d\n",
   str% "            )|\n",
   str% "            8(?:\n",
   str% "              [013-79]|\n",
   str% "              8\\d\n",
   str% "            )\n",
   str% "          )\\d{6}|\n",
   str% "          (?:\n",
   str% "            1\\d|\n",
   str% "            9[0-57-9]\n",
   str% "          )\\d{6}|\n",
   str% "          (?:\n",
   str% "            2[3-6]|\n",
   str% "            3[2-6]|\n",
   str% "            4[2-4]|\n",
   str% "            [5-7][2-5]\n",
   str% "          )48\\d{5}\n",
   str% "        </nationalNumberPattern>\n",
   str% "      </mobile>\n",
   str% "      <!-- Adding extra prefix 180021 used by tollfreetc.com.kh. -->\n",
   str% "      <tollFree>\n",
   str% "        <possibleLengths national=\"10\"/>\n",
   str% "        <exampleNumber>1800123456</exampleNumber>\n",
   str% "        <nationalNumberPattern>\n",
   str% "          1800(?:\n",
   str% "            1\\d|\n",
   str% "            2[019]\n",
   str% "          )\\d{4}\n",
   str% "        </nationalNumberPattern>\n",
   str% "      </tollFree>\n",
   str% "      <premiumRate>\n",
   str% "        <possibleLengths national=\"10\"/>\n",
   str% "        <exampleNumber>1900123456</exampleNumber>\n",
   str% "        <nationalNumberPattern>\n",
   str% "          1900(?:\n",
   str% "            1\\d|\n",
   str% "            2[09]\n",
   str% "          )\\d{4}\n",
   str% "        </nationalNumberPattern>\n",
   str% "      </premiumRate>\n",
   str% "    </territory>"]

/-- the text up to the end of territory id=KI countryCode=686 -/
noncomputable def KI : List Str :=
  [str% "\n",
   str% "\n",
   str% "    <!-- Kiribati (KI) -->\n",
   str% "    <!-- We include the national prefix for parsing here just in case numbers can be dialled with a\n",
   str% "         leading 0 - no numbers online have been found formatted this way, but the ITU document\n",
   str% "         lists it as a national dialling prefix. -->\n",
   str% "    <!-- http://www.itu.int/oth/T0202000071/en -->\n",
   str% "    <territory id=\"KI\" countryCode=\"686\" internationalPrefix=\"00\" nationalPrefix=\"0\">\n",
   str% "      <generalDesc>\n",
   str% "        <nationalNumberPattern>\n",
   str% "          (?:\n",
   str% "            [37]\\d|\n",
   str% "            6[0-79]\n",
   str% "          )\\d{6}|\n",
   str% "          (?:\n",
   str% "            [2-48]\\d|\n",
   str% "            50\n",
   str% "          )\\d{3}\n",
   str% "        </nationalNumberPattern>\n",
   str% "      </generalDesc>\n",
   str% "      <!-- The 5-digit numbers are in a parallel running period where they transition to 8-digit\n",
   str% "           numbers beginning with 7. This period was stated to run between July 1 2016 and July 1\n",
   str% "           2018 in the ITU communication of 27.VI.2017, although some numbers may have ended\n",
   str% "           transition in 2017, such as 75381xxx which is not present in the communication of\n",
   str% "           27.VI.2017, whereas it was in the communication of 1.VIII.2016 where the period was\n",
   str% "           stated to end in 2017. -->\n",
   str% "      <!-- Granularity for fixedLine numbers prefixed by 6 and 7 is high, to disambiguate between\n",
   str% "           them and mobile ranges with equal shorter prefixes. -->\n",
   str% "      <fixedLine>\n",
   str% "        <possibleLengths national=\"5,8\"/>\n",
   str% "        <exampleNumber>31234</exampleNumber>\n",
   str% "        <nationalNumberPattern>\n",
   str% "          (?:\n",
   str% "            [24]\\d|\n",
   str% "            3[1-9]|\n",
   str% "            50|\n",
   str% "            65(?:\n",
   str% "              02[12]|\n",
   str% "              12[56]|\n",
   str% "              22[89]|\n",
   str% "              [3-5]00\n",
   str% "            )|\n",
   str% "            7(?:\n",
   str% "              27\\d\\d|\n",
   str% "              3100|\n",
   str% "              5(?:\n",
   str% "                02[12]|\n",
   str% "                12[56]|\n",
   str% "                22[89]|\n",
   str% "                [34](?:\n",
   str% "                  00|\n",
   str% "                  81\n",
   str% "                )|\n",
   str% "                500\n",
   str% "              )\n",
   str% "            )|\n",
   str% "            8[0-5]\n",
   str% "          )\\d{3}\n",
   str% "        </nationalNumberPattern>\n",
   str% "      </fixedLine>\n",
   str% "      <mobile>\n",
   str% "        <possibleLengths national=\"8\"/>\n",
   str% "        <exampleNumber>72001234</exampleNumber>\n",
   str% "        <nationalNumberPattern>\n",
   str% "          (?:\n",
   str% "            6200[01]|\n",
   str% "            7(?:\n",
   str% "              310[1-9]|\n",
   str% "              5(?:\n",
   str% "                02[03-9]|\n",
   str% "                12[0-47-9]|\n",
   str% "                22[0-7]|\n",
   str% "                [34](?:\n",
   str% "                  0[1-9]|\n",
   str% "                  8[02-9]\n",
   str% "                )|\n",
   str% "                50[1-9]\n",
   str% "              )\n",
   str% "            )\n",
   str% "          )\\d{3}|\n",
   str% "          (?:\n",
   str% "            63\\d\\d|\n",
   str% "            7(?:\n",
   str% "              (?:\n",
   str% "                [0146-9]\\d|\n",
   str% "                2[0-689]\n",
   str% "              )\\d|\n",
   str% "              3(?:\n",
   str% "                [02-9]\\d|\n",
   str% "                1[1-9]\n",
   str% "              )|\n",
   str% "              5(?:\n",
   str% "                [0-2][013-9]|\n",
   str% "                [34][1-79]|\n",
   str% "                5[1-9]|\n",
   str% "                [6-9]\\d\n",
   str% "              )\n",
   str% "            )\n",
   str% "          )\\d{4}\n",
   str% "        </nationalNumberPattern>\n",
   str% "      </mobile>\n",
   str% "      <!-- ITU refers to these as \"Overseas Operator\" (used to call Phone Group's usage\n",
   str% "           \"Telemedia and audiotext\"). -->\n",
   str% "      <voip>\n",
   str% "        <possibleLengths national=\"8\"/>\n",
   str% "        <exampleNumber>30010000</exampleNumber>\n",
   str% "        <nationalNumberPattern>\n",
   str% "          30(?:\n",
   str% "            0[01]\\d\\d|\n",
   str% "            12(?:\n",
   str% "              11|\n",
   str% "              20\n",
   str% "            )\n",
   str% "          )\\d\\d\n",
   str% "        </nationalNumberPattern>\n",
   str% "      </voip>\n",
   str% "    </territory>"]

/-- the text up to the end of territory id=KM countryCode=269 -/
noncomputable def KM : List Str :=
  [str% "\n",
   str% "\n",
   str% "    <!-- Comoros (KM) -->\n",
   str% "    <!-- http://www.itu.int/oth/T020200002D/en -->\n",
   str% "    <territory id=\"KM\" countryCode=\"269\" internationalPrefix=\"00\">\n",
   str% "      <availableFormats>\n",
   str% "        <numberFormat pattern=\"(\\d{3})(\\d{2})(\\d{2})\">\n",
   str% "          <leadingDigits>[3478]</leadingDigits>\n",
   str% "          <format>$1 $2 $3</format>\n",
   str% "        </numberFormat>\n",
   str% "      </availableFormats>\n",
   str% "      <generalDesc>\n",
   str% "        <nationalNumberPattern>[3478]\\d{6}</nationalNumberPattern>\n",
   str% "      </generalDesc>\n",
   str% "      <!-- CDMA phones are included here, as they are considered as an extension of fixed line:\n",
   str% "           http://www.comorestelecom.km/presentationcdma.php -->\n",
   str% "      <fixedLine>\n",
   str% "        <possibleLengths national=\"7\" localOnly=\"4\"/>\n",
   str% "        <exampleNumber>7712345</exampleNumber>\n",
   str% "        <nationalNumberPattern>7[4-7]\\d{5}</nationalNumberPattern>\n",
   str% "      </fixedLine>\n",
   str% "      <mobile>\n",
   str% "        <possibleLengths national=\"7\"/>\n",
   str% "        <exampleNumber>3212345</exampleNumber>\n",
   str% "        <nationalNumberPattern>[34]\\d{6}</nationalNumberPattern>\n",
   str% "      </mobile>\n",
   str% "      <!-- These are referred to as value-added services in the plan and no further information\n",
   str% "           can be found. -->\n",
   str% "      <premiumRate>\n",
   str% "        <possibleLengths national=\"7\"/>\n",
   str% "        <exampleNumber>8001234</exampleNumber>\n",
   str% "        <nationalNumberPattern>8\\d{6}</nationalNumberPattern>\n",
   str% "      </premiumRate>\n",
   str% "    </territory>"]

/-- the text up to the end of territory id=KN countryCode=1 -/
noncomputable def KN : List Str :=
  [str% "\n",
   str% "\n",
   str% "    <!-- St. Kitts & Nevis (KN) -->\n",
   str% "    <!-- Calling code and formatting shared with 'US' -->\n",
   str% "    <!-- http://www.itu.int/oth/T02020000B0/en -->\n",
   str% "    <territory id=\"KN\" countryCode=\"1\" leadingDigits=\"869\" internationalPrefix=\"011\"\n",
   str% "               nationalPrefix=\"1\" nationalPrefixForParsing=\"([2-7]\\d{6})$|1\"\n",
   str% "               nationalPrefixTransformRule=\"869$1\" mobileNumberPortableRegion=\"true\">\n",
   str% "      <generalDesc>\n",
   str% "        <nationalNumberPattern>\n",
   str% "          (?:\n",
   str% "            [58]\\d\\d|\n",
   str% "            900\n",
   str% "          )\\d{7}\n",
   str% "        </nationalNumberPattern>\n",
   str% "      </generalDesc>\n",
   str% "      <!-- Adding the 869 302 prefix as it is used by Marriott Hotels, even though no other record\n",
   str% "           of it can be found. -->\n",
   str% "      <fixedLine>\n",
   str% "        <possibleLengths national=\"10\" localOnly=\"7\"/>\n",
   str% "        <exampleNumber>8692361234</exampleNumber>\n",
   str% "        <nationalNumberPattern>\n",
   str% "          869(?:\n",
   str% "            2(?:\n",
   str% "              29|\n",
   str% "              36\n",
   str% "            )|\n",
   str% "            302|\n",
   str% "            4(?:\n",
   str% "              6[015-9]|\n",
   str% "              70\n",
   str% "            )|\n",
   str% "            56[5-7]\n",
   str% "          )\\d{4}\n",
   str% "        </nationalNumberPattern>\n",
   str% "      </fixedLine>\n",
   str% "      <!-- Added some more prefixes in the 66 and 76 range from online numbers. -->\n",
   str% "      <!-- Example number from the ITU document. -->\n",
   str% "      <mobile>\n",
   str% "        <possibleLengths national=\"10\" localOnly=\"7\"/>\n",
   str% "        <exampleNumber>8697652917</exampleNumber>\n",
   str% "        <nationalNumberPattern>\n",
   str% "          869(?:\n",
   str% "            48[89]|\n",
   str% "            55[6-8]|\n",
   str% "            66\\d|\n",
   str% "            76[02-7]\n",
   str% "          )\\d{4}\n",
   str% "        </nationalNumberPattern>\n",
   str% "      </mobile>\n",
   str% "      <tollFree>\n",
   str% "        <possibleLengths national=\"10\"/>\n",
   str% "        <exampleNumber>8002123456</exampleNumber>\n",
   str% "        <nationalNumberPattern>\n",
   str% "          8(?:\n",
   str% "            00|\n",
   str% "            33|\n",
   str% "            44|\n",
   str% "            55|\n",
   str% "            66|\n",
   str% "            77|\n",
   str% "            88\n",
   str% "          )[2-9]\\d{6}\n",
   str% "        </nationalNumberPattern>\n",
   str% "      </tollFree>\n",
   str% "      <premiumRate>\n",
   str% "        <possibleLengths national=\"10\"/>\n",
   str% "        <exampleNumber>9002123456</exampleNumber>\n",
   str% "        <nationalNumberPattern>900[2-9]\\d{6}</nationalNumberPattern>\n",
   str% "      </premiumRate>\n",
   str% "      <!-- https://www.nationalnanpa.com/number_resource_info/5XX_codes.html -->\n",
   str% "      <personalNumber>\n",
   str% "        <possibleLengths national=\"10\"/>\n",
   str% "        <exampleNumber>5002345678</exampleNumber>\n",
   str% "        <nationalNumberPattern>\n",
   str% "          52(?:\n",
   str% "            3(?:\n",
   str% "              [2-46-9][02-9]\\d|\n",
   str% "              5(?:\n",
   str% "                [02-46-9]\\d|\n",
   str% "                5[0-46-9]\n",
   str% "              )\n",
   str% "            )|\n",
   str% "            4(?:\n",
   str% "              [2-478][02-9]\\d|\n",
   str% "              5(?:\n",
   str% "                [034]\\d|\n",
   str% "                2[024-9]|\n",
   str% "                5[0-46-9]\n",
   str% "              )|\n",
   str% "              6(?:\n",
   str% "                0[1-9]|\n",
   str% "                [2-9]\\d\n",
   str% "              )|\n",
   str% "              9(?:\n",
   str% "                [05-9]\\d|\n",
   str% "                2[0-5]|\n",
   str% "                49\n",
   str% "              )\n",
   str% "            )\n",
   str% "          )\\d{4}|\n",
   str% "          52[34][2-9]1[02-9]\\d{4}|\n",
   str% "          5(?:\n",
   str% "            00|\n",
   str% "            2[125-9]|\n",
   str% "            3[23]|\n",
   str% "            44|\n",
   str% "            66|\n",
   str% "            77|\n",
   str% "            88\n",
   str% "          )[2-9]\\d{6}\n",
   str% "        </nationalNumberPattern>\n",
   str% "      </personalNumber>\n",
   str% "    </territory>"]

/-- the text up to the end of territory id=KP countryCode=850 -/
noncomputable def KP : List Str :=
  [str% "\n",
   str% "\n",
   str% "    <!-- North Korea (KP) -->\n",
   str% "    <!-- http://en.wikipedia.org/wiki/%2B850 -->\n",
   str% "    <territory id=\"KP\" countryCode=\"850\" internationalPrefix=\"00|99\" nationalPrefix=\"0\">\n",
   str% "      <availableFormats>\n",
   str% "        <numberFormat pattern=\"(\\d{2})(\\d{3})(\\d{3})\" nationalPrefixFormattingRule=\"$NP$FG\">\n",
   str% "          <leadingDigits>8</leadingDigits>\n",
   str% "          <format>$1 $2 $3</format>\n",
   str% "        </numberFormat>\n",
   str% "        <numberFormat pattern=\"(\\d)(\\d{3})(\\d{4})\" nationalPrefixFormattingRule=\"$NP$FG\">\n",
   str% "          <leadingDigits>[2-7]</leadingDigits>\n",
   str% "          <format>$1 $2 $3</format>\n",
   str% "        </numberFormat>\n",
   str% "        <numberFormat pattern=\"(\\d{3})(\\d{3})(\\d{4})\" nationalPrefixFormattingRule=\"$NP$FG\">\n",
   str% "          <leadingDigits>1</leadingDigits>\n",
   str% "          <format>$1 $2 $3</format>\n",
   str% "        </numberFormat>\n",
   str% "      </availableFormats>\n",
   str% "      <generalDesc>\n",
   str% "        <nationalNumberPattern>\n",
   str% "          85\\d{6}|\n",
   str% "          (?:\n",
   str% "            19\\d|\n",
   str% "            [2-7]\n",
   str% "          )\\d{7}\n",
   str% "        </nationalNumberPattern>\n",
   str% "      </generalDesc>\n",
   str% "      <!-- For numbers starting with 2, only the 2381 range can be dialed internationally. -->\n",
   str% "      <noInternationalDialling>\n",
   str% "        <possibleLengths national=\"8\"/>\n",
   str% "        <nationalNumberPattern>\n",
   str% "          238[02-9]\\d{4}|\n",
   str% "          2(?:\n",
   str% "            [0-24-9]\\d|\n",
   str% "            3[0-79]\n",
   str% "          )\\d{5}\n",
   str% "        </nationalNumberPattern>\n",
   str% "      </noInternationalDialling>\n",
   str% "      <!-- Covers only numbers from Pyongyang and Rason Economic Special Zone. According to\n",
   str% "           wikipedia, other ranges of phone numbers are top secret, unpublished, and not dialable\n",
   str% "           from overseas. Also, there is conflicting information about the length of fixed-line\n",
   str% "           numbers, so here we are following Wikipedia. -->\n",
   str% "      <fixedLine>\n",
   str% "        <possibleLengths national=\"8,10\" localOnly=\"6,7\"/>\n",
   str% "        <exampleNumber>21234567</exampleNumber>\n",
   str% "        <nationalNumberPattern>\n",
   str% "          (?:\n",
   str% "            (?:\n",
   str% "              195|\n",
   str% "              2\n",
   str% "            )\\d|\n",
   str% "            3[19]|\n",
   str% "            4[159]|\n",
   str% "            5[37]|\n",
   str% "            6[17]|\n",
   str% "            7[39]|\n",
   str% "            85\n",
   str% "          )\\d{6}\n",
   str% "        </nationalNumberPattern>\n",
   str% "      </fixedLine>\n",
   str% "      <mobile>\n",
   str% "        <possibleLengths national=\"10\"/>\n",
   str% "        <exampleNumber>1921234567</exampleNumber>\n",
   str% "        <nationalNumberPattern>19[1-3]\\d{7}</nationalNumberPattern>\n",
   str% "      </mobile>\n",
   str% "    </territory>"]

/-- the text of this module -/
noncomputable def chunk08 : List (List Str) :=
  [JM, JO, JP, KE, KG, KH, KI, KM, KN, KP]

end Phone.Data.S
