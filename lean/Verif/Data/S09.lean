import Verif.Basic.Str
/-! Text of `/repo/assets/PhoneNumberMetadata.xml`, in lines. Generated by `tools/gen_xml.py`; do not edit. -/

set_option maxRecDepth 100000
namespace Phone.Data.S

/-- the text up to the end of territory id=KR countryCode=82 -/
noncomputable def KR : List Str :=
  [str% "\n",
   str% "\n",
   str% "    <!-- South Korea (KR) -->\n",
   str% "    <!-- Exceptions :\n",
   str% "         internationalPrefix\n",
   str% "             0031, 0033, 0071, 0073 - Special services of KT and DACOM, ignorable.\n",
   str% "             Supporting prefixes that are only in use. For prefixes like 003XX and 007XX, the\n",
   str% "             service provider can make arbitrary service + numbers.\n",
   str% "         nationalPrefix\n",
   str% "             1[4-6]XX-YYYY - Country-wide common number services, display as it is without hyphens.\n",
   str% "         00798 is an ITFS range. So it doesn't appear here as internationalPrefix. -->\n",
   str% "    <!-- http://www.itu.int/oth/T0202000072/en -->\n",
   str% "    <!-- http://en.wikipedia.org/wiki/%2B82 -->\n",
   str% "    <!-- http://www.kcc.go.kr/user.do?mode=view&page=P02030300&dc=K02030300&boardId=1074&boardSeq=2349 -->\n",
   str% "    <!-- http://www.kcc.go.kr/user.do?mode=view&page=P02030300&dc=K02030300&boardId=1074&boardSeq=2240 -->\n",
   str% "    <!-- http://www.telecentro.co.kr/sub/index.php?job=detail&ebcf_id=faq&page=1&mid=0503&eb_seq=36 -->\n",
   str% "    <territory id=\"KR\" countryCode=\"82\"\n",
   str% "               internationalPrefix=\"00(?:[125689]|3(?:[46]5|91)|7(?:00|27|3|55|6[126]))\"\n",
   str% "               nationalPrefix=\"0\" nationalPrefixForParsing=\"0(8(?:[1-46-8]|5\\d\\d))?\"\n",
   str% "               mobileNumberPortableRegion=\"true\">\n",
   str% "      <availableFormats>\n",
   str% "        <!-- Format for 5 digit short codes. -->\n",
   str% "        <numberFormat pattern=\"(\\d{5})\" nationalPrefixFormattingRule=\"$NP$FG\">\n",
   str% "          <leadingDigits>1[016-9]1</leadingDigits>\n",
   str% "          <leadingDigits>1[016-9]11</leadingDigits>\n",
   str% "          <leadingDigits>1[016-9]114</leadingDigits>\n",
   str% "          <format>$1</format>\n",
   str% "          <intlFormat>NA</intlFormat>\n",
   str% "        </numberFormat>\n",
   str% "        <!-- Fixed-line number ranges with 5-6 digits. -->\n",
   str% "        <numberFormat pattern=\"(\\d{2})(\\d{3,4})\" nationalPrefixFormattingRule=\"$NP$FG\"\n",
   str% "                      carrierCodeFormattingRule=\"$NP$CC-$FG\">\n",
   str% "          <leadingDigits>\n",
   str% "            (?:\n",
   str% "              3[1-3]|\n",
   str% "              [46][1-4]|\n",
   str% "              5[1-5]\n",
   str% "            )1\n",
   str% "          </leadingDigits>\n",
   str% "          <format>$1-$2</format>\n",
   str% "        </numberFormat>\n",
   str% "        <!-- UAN numbers. -->\n",
   str% "        <numberFormat pattern=\"(\\d{4})(\\d{4})\">\n",
   str% "          <leadingDigits>1</leadingDigits>\n",
   str% "          <format>$1-$2</format>\n",
   str% "        </numberFormat>\n",
   str% "        <!-- Fixed-line number ranges with 8-9 digits. -->\n",
   str% "        <numberFormat pattern=\"(\\d)(\\d{3,4})(\\d{4})\" nationalPrefixFormattingRule=\"$NP$FG\"\n",
   str% "                      carrierCodeFormattingRule=\"$NP$CC-$FG\">\n",
   str% "          <leadingDigits>2</leadingDigits>\n",
   str% "          <format>$1-$2-$3</format>\n",
   str% "        </numberFormat>\n",
   str% "        <!-- Premium-rate and 9-digit toll-free numbers. -->\n",
   str% "        <numberFormat pattern=\"(\\d{2})(\\d{3})(\\d{4})\" nationalPrefixFormattingRule=\"$NP$FG\"\n",
   str% "                      carrierCodeFormattingRule=\"$NP$CC-$FG\">\n",
   str% "          <leadingDigits>\n",
   str% "            [36]0|\n",
   str% "            8\n",
   str% "          </leadingDigits>\n",
   str% "          <format>$1-$2-$3</format>\n",
   str% "        </numberFormat>\n",
   str% "        <!-- Mobile, pager, and fixed-line number ranges with 9-10 digits. -->\n",
   str% "        <numberFormat pattern=\"(\\d{2})(\\d{3,4})(\\d{4})\" nationalPrefixFormattingRule=\"$NP$FG\"\n",
   str% "                      carrierCodeFormattingRule=\"$NP$CC-$FG\">\n",
   str% "          <leadingDigits>\n",
   str% "            [1346]|\n",
   str% "            5[1-5]\n",
   str% "          </leadingDigits>\n",
   str% "          <format>$1-$2-$3</format>\n",
   str% "        </numberFormat>\n",
   str% "        <!-- 10 digit personal and VOIP numbers. -->\n",
   str% "        <numberFormat pattern=\"(\\d{2})(\\d{4})(\\d{4})\" nationalPrefixFormattingRule=\"$NP$FG\"\n",
   str% "                      carrierCodeFormattingRule=\"$NP$CC-$FG\">\n",
   str% "          <leadingDigits>[57]</leadingDigits>\n",
   str% "          <format>$1-$2-$3</format>\n",
   str% "        </numberFormat>\n",
   str% "        <!-- Toll-free numbers with 11 digits. -->\n",
   str% "        <numberFormat pattern=\"(\\d{5})(\\d{3})(\\d{3})\">\n",
   str% "          <leadingDigits>003</leadingDigits>\n",
   str% "          <leadingDigits>0030</leadingDigits>\n",
   str% "          <format>$1 $2 $3</format>\n",
   str% "          <intlFormat>NA</intlFormat>\n",
   str% "        </numberFormat>\n",
   str% "        <!-- 11 digit personal numbers. -->\n",
   str% "        <numberFormat pattern=\"(\\d{2})(\\d{5})(\\d{4})\" nationalPrefixFormattingRule=\"$NP$FG\"\n",
   str% "                      carrierCodeFormattingRule=\"$NP$CC-$FG\">\n",
   str% "          <leadingDigits>5</leadingDigits>\n",
   str% "          <format>$1-$2-$3</format>\n",
   str% "        </numberFormat>\n",
   str% "        <!-- Toll-free numbers with 12-13 digits. -->\n",
   str% "        <numberFormat pattern=\"(\\d{5})(\\d{3,4})(\\d{4})\">\n",
   str% "          <leadingDigits>0</leadingDigits>\n",
   str% "          <format>$1 $2 $3</format>\n",
   str% "          <intlFormat>NA</intlFormat>\n",
   str% "        </numberFormat>\n",
   str% "        <!-- Toll-free numbers with 14 digits. -->\n",
   str% "        <numberFormat pattern=\"(\\d{5})(\\d{2})(\\d{3})(\\d{4})\">\n",
   str% "          <leadingDigits>0</leadingDigits>\n",
   str% "          <format>$1 $2 $3 $4</format>\n",
   str% "          <intlFormat>NA</intlFormat>\n",
   str% "        </numberFormat>\n",
   str% "      </availableFormats>\n",
   str% "      <generalDesc>\n",
   str% "        <nationalNumberPattern>\n",
   str% "          00[1-9]\\d{8,11}|\n",
   str% "          (?:\n",
   str% "            [12]|\n",
   str% "            5\\d{3}\n",
   str% "          )\\d{7}|\n",
   str% "          [13-6]\\d{9}|\n",
   str% "          (?:\n",
   str% "            [1-6]\\d|\n",
   str% "            80\n",
   str% "          )\\d{7}|\n",
   str% "          [3-6]\\d{4,5}|\n",
   str% "          (?:\n",
   str% "            00|\n",
   str% "            7\n",
   str% "          )0\\d{8}\n",
   str% "        </nationalNumberPattern>\n",
   str% "      </generalDesc>\n",
   str% "      <!-- 00798 ITFS numbers can't be dialled internationally. -->\n",
   str% "      <!-- Based on online results, supporting 00308 and 00368 toll-free numbers that are\n",
   str% "           diallable only within the country. -->\n",
   str% "      <noInternationalDialling>\n",
   str% "        <possibleLengths national=\"[11-14]\"/>\n",
   str% "        <nationalNumberPattern>\n",
   str% "          00(?:\n",
   str% "            3(?:\n",
   str% "              08\\d{6,7}|\n",
   str% "              68\\d{7}\n",
   str% "            )|\n",
   str% "            798\\d{7,9}\n",
   str% "          )\n",
   str% "        </nationalNumberPattern>\n",
   str% "      </noInternationalDialling>\n",
   str% "      <!-- We omit 049, supposedly for Kaesong Industrial Region, since real numbers can't be\n",
   str% "           found, and it is in North Korea anyway. We support 7-8 digits long subscriber numbers\n",
   str% "           starting with 1 based on evidence of real numbers found online. Some short codes\n",
   str% "           (1\\d{2,3}) can be dialled with area codes. So we are supporting them when they are\n",
   str% "           prefixed with valid area codes. -->\n",
   str% "      <fixedLine>\n",
   str% "        <possibleLengths national=\"5,6,[8-10]\" localOnly=\"3,4,7\"/>\n",
   str% "        <exampleNumber>22123456</exampleNumber>\n",
   str% "        <nationalNumberPattern>\n",
   str% "          (?:\n",
   str% "            2|\n",
   str% "            3[1-3]|\n",
   str% "            [46][1-4]|\n",
   str% "            5[1-5]\n",
   str% "          )[1-9]\\d{6,7}|\n",
   str% "          (?:\n",
   str% "            3[1-3]|\n",
   str% "            [46][1-4]|\n",
   str% "            5[1-5]\n",
   str% "          )1\\d{2,3}\n",
   str% "        </nationalNumberPattern>\n",
   str% "      </fixedLine>\n",
   str% "      <!-- Prefix 10596 added based on user report -->\n",
   str% "      <mobile>\n",
   str% "        <possibleLengths national=\"9,10\"/>\n",
   str% "        <exampleNumber>1020000000</exampleNumber>\n",
   str% "        <nationalNumberPattern>\n",
   str% "          1(?:\n",
   str% "            05(?:\n",
   str% "              [0-8]\\d|\n",
   str% "              9[0-6]\n",
   str% "            )|\n",
   str% "            22[13]\\d\n",
   str% "          )\\d{4,5}|\n",
   str% "          1(?:\n",
   str% "            0[0-46-9]|\n",
   str% "            [16-9]\\d|\n",
   str% "            2[013-9]\n",
   str% "          )\\d{6,7}\n",
   str% "        </nationalNumberPattern>\n",
   str% "      </mobile>\n",
   str% "      <pager>\n",
   str% "        <possibleLengths national=\"9,10\"/>\n",
   str% "        <exampleNumber>1523456789</exampleNumber>\n",
   str% "        <nationalNumberPattern>15\\d{7,8}</nationalNumberPattern>\n",
   str% "      </pager>\n",
   str% "      <tollFree>\n",
   str% "        <possibleLengths national=\"9,[11-14]\"/>\n",
   str% "        <exampleNumber>801234567</exampleNumber>\n",
   str% "        <nationalNumberPattern>\n",
   str% "          00(?:\n",
   str% "            308\\d{6,7}|\n",
   str% "            798\\d{7,9}\n",
   str% "          )|\n",
   str% "          (?:\n",
   str% "            00368|\n",
   str% "            [38]0\n",
   str% "          )\\d{7}\n",
   str% "        </nationalNumberPattern>\n",
   str% "      </tollFree>\n",
   str% "      <!-- The information below is provided by a Korean person. -->\n",
   str% "      <premiumRate>\n",
   str% "        <possibleLengths national=\"9\"/>\n",
   str% "        <exampleNumber>602345678</exampleNumber>\n",
   str% "        <nationalNumberPattern>60[2-9]\\d{6}</nationalNumberPattern>\n",
   str% "      </premiumRate>\n",
   str% "      <!-- Supporting 11 digit 50 numbers based on evidence provided by reporter. -->\n",
   str% "      <personalNumber>\n",
   str% "        <possibleLengths national=\"10,11\"/>\n",
   str% "        <exampleNumber>5012345678</exampleNumber>\n",
   str% "        <nationalNumberPattern>50\\d{8,9}</nationalNumberPattern>\n",
   str% "      </personalNumber>\n",
   str% "      <voip>\n",
   str% "        <possibleLengths national=\"10\"/>\n",
   str% "        <exampleNumber>7012345678</exampleNumber>\n",
   str% "        <nationalNumberPattern>70\\d{8}</nationalNumberPattern>\n",
   str% "      </voip>\n",
   str% "      <!-- Prefixes 18 and 1522 are added from numbers found online. -->\n",
   str% "      <uan>\n",
   str% "        <possibleLengths national=\"8\"/>\n",
   str% "        <exampleNumber>15441234</exampleNumber>\n",
   str% "        <nationalNumberPattern>\n",
   str% "          1(?:\n",
   str% "            5(?:\n",
   str% "              22|\n",
   str% "              33|\n",
   str% "              44|\n",
   str% "              66|\n",
   str% "              77|\n",
   str% "              88|\n",
   str% "              99\n",
   str% "            )|\n",
   str% "            6(?:\n",
   str% "              [07]0|\n",
   str% "              44|\n",
   str% "              6[0168]|\n",
   str% "              88\n",
   str% "            )|\n",
   str% "            8(?:\n",
   str% "              00|\n",
   str% "              33|\n",
   str% "              55|\n",
   str% "              77|\n",
   str% "              99\n",
   str% "            )\n",
   str% "          )\\d{4}\n",
   str% "        </nationalNumberPattern>\n",
   str% "      </uan>\n",
   str% "    </territory>"]

/-- the text up to the end of territory id=KW countryCode=965 -/
noncomputable def KW : List Str :=
  [str% "\n",
   str% "\n",
   str% "    <!-- Kuwait (KW) -->\n",
   str% "    <!-- No tollFree or premiumRate information can be found. -->\n",
   str% "    <!-- http://www.itu.int/oth/T0202000073/en -->\n",
   str% "    <territory id=\"KW\" countryCode=\"965\" internationalPrefix=\"00\" mobileNumberPortableRegion=\"true\">\n",
   str% "      <availableFormats>\n",
   str% "        <!-- Format is from ITU. -->\n",
   str% "        <numberFormat pattern=\"(\\d{4})(\\d{3,4})\">\n",
   str% "          <leadingDigits>\n",
   str% "            [169]|\n",
   str% "            2(?:\n",
   str% "              [235]|\n",
   str% "              4[1-35-9]\n",
   str% "            )|\n",
   str% "            52\n",
   str% "          </leadingDigits>\n",
   str% "          <format>$1 $2</format>\n",
   str% "        </numberFormat>\n",
   str% "        <numberFormat pattern=\"(\\d{3})(\\d{5})\">\n",
   str% "          <leadingDigits>[245]</leadingDigits>\n",
   str% "          <format>$1 $2</format>\n",
   str% "        </numberFormat>\n",
   str% "      </availableFormats>\n",
   str% "      <generalDesc>\n",
   str% "        <nationalNumberPattern>\n",
   str% "          18\\d{5}|\n",
   str% "          (?:\n",
   str% "            [2569]\\d|\n",
   str% "            41\n",
   str% "          )\\d{6}\n",
   str% "        </nationalNumberPattern>\n",
   str% "      </generalDesc>\n",
   str% "      <fixedLine>\n",
   str% "        <possibleLengths national=\"8\"/>\n",
   str% "        <exampleNumber>22345678</exampleNumber>\n",
   str% "        <nationalNumberPattern>\n",
   str% "          2(?:\n",
   str% "            [23]\\d\\d|\n",
   str% "            4(?:\n",
   str% "              [1-35-9]\\d|\n",
   str% "              44\n",
   str% "            )|\n",
   str% "            5(?:\n",
   str% "              0[034]|\n",
   str% "              [2-46]\\d|\n",
   str% "              5[1-3]|\n",
   str% "              7[1-7]\n",
   str% "            )\n",
   str% "          )\\d{4}\n",
   str% "        </nationalNumberPattern>\n",
   str% "      </fixedLine>\n",
   str% "      <!-- Supported 966[1-9] range based on numbers found online. -->\n",
   str% "      <!-- 989X range is mentioned in older (15.IV.2014) ITU doc but it is not mentioned in\n",
   str% "           ITU doc dated 5.V.2017. As valid numbers are found online, supporting the range. -->\n",
   str% "      <mobile>\n",
   str% "        <possibleLengths national=\"8\"/>\n",
   str% "        <exampleNumber>50012345</exampleNumber>\n",
   str% "        <nationalNumberPattern>\n",
   str% "          (?:\n",
   str% "            41\\d\\d|\n",
   str% "            5(?:\n",
   str% "              (?:\n",
   str% "                [05]\\d|\n",
   str% "                1[0-7]|\n",
   str% "                6[56]\n",
   str% "              )\\d|\n",
   str% "              2(?:\n",
   str% "                22|\n",
   str% "                5[25]\n",
   str% "              )|\n",
   str% "              7(?:\n",
   str% "                55|\n",
   str% "                77\n",
   str% "              )|\n",
   str% "              88[58]\n",
   str% "            )|\n",
   str% "            6(?:\n",
   str% "              (?:\n",
   str% "                0[034679]|\n",
   str% "                5[015-9]|\n",
   str% "                6\\d\n",
   str% "              )\\d|\n",
   str% "              1(?:\n",
   str% "                00|\n",
   str% "                11|\n",
   str% "                6[16]\n",
   str% "              )|\n",
   str% "              2[26]2|\n",
   str% "              3[36]3|\n",
   str% "              4[46]4|\n",
   str% "              7(?:\n",
   str% "                0[013-9]|\n",
   str% "                [67]\\d\n",
   str% "              )|\n",
   str% "              8[68]8|\n",
   str% "              9(?:\n",
   str% "                [069]\\d|\n",
   str% "                3[039]\n",
   str% "              )\n",
   str% "            )|\n",
   str% "            9(?:\n",
   str% "              (?:\n",
   str% "                [04679]\\d|\n",
   str% "                8[057-9]\n",
   str% "              )\\d|\n",
   str% "              1(?:\n",
   str% "                00|\n",
   str% "                1[01]|\n",
   str% "                99\n",
   str% "              )|\n",
   str% "              2(?:\n",
   str% "                00|\n",
   str% "                2\\d\n",
   str% "              )|\n",
   str% "              3(?:\n",
   str% "                00|\n",
   str% "                3[03]\n",
   str% "              )|\n",
   str% "              5(?:\n",
   str% "                00|\n",
   str% "                5\\d\n",
   str% "              )\n",
   str% "            )\n",
   str% "          )\\d{4}\n",
   str% "        </nationalNumberPattern>\n",
   str% "      </mobile>\n",
   str% "      <!-- 18XX XXX was earlier assigned to Fixedline but the latest ITU Doc and also citra.gov.kw\n",
   str% "           confirmed that these are Toll Free numbers. -->\n",
   str% "      <tollFree>\n",
   str% "        <possibleLengths national=\"7\"/>\n",
   str% "        <exampleNumber>1801234</exampleNumber>\n",
   str% "        <nationalNumberPattern>18\\d{5}</nationalNumberPattern>\n",
   str% "      </tollFree>\n",
   str% "    </territory>"]

/-- the text up to the end of territory id=KY countryCode=1 -/
noncomputable def KY : List Str :=
  [str% "\n",
   str% "\n",
   str% "    <!-- Cayman Islands (KY) -->\n",
   str% "    <!-- Calling code and formatting shared with 'US' -->\n",
   str% "    <!-- http://www.itu.int/oth/T0202000027/en -->\n",
   str% "    <territory id=\"KY\" countryCode=\"1\" leadingDigits=\"345\" internationalPrefix=\"011\"\n",
   str% "               nationalPrefix=\"1\" nationalPrefixForParsing=\"([2-9]\\d{6})$|1\"\n",
   str% "               nationalPrefixTransformRule=\"345$1\" mobileNumberPortableRegion=\"true\">\n",
   str% "      <generalDesc>\n",
   str% "        <nationalNumberPattern>\n",
   str% "          (?:\n",
   str% "            345|\n",
   str% "            [58]\\d\\d|\n",
   str% "            900\n",
   str% "          )\\d{7}\n",
   str% "        </nationalNumberPattern>\n",
   str% "      </generalDesc>\n",
   str% "      <!-- The 800 NXX code is listed as being \"national only\", but we successfully reached numbers\n",
   str% "           from Switzerland with this prefix so do not list it as noInternationalDialling. -->\n",
   str% "      <!-- The Westtel numbers in the plan seem now to be live and assigned to fixed-line phones,\n",
   str% "           as per numbers found online and their website http://www.logic.ky. -->\n",
   str% "      <fixedLine>\n",
   str% "        <possibleLengths national=\"10\" localOnly=\"7\"/>\n",
   str% "        <exampleNumber>3452221234</exampleNumber>\n",
   str% "        <nationalNumberPattern>\n",
   str% "          345(?:\n",
   str% "            2(?:\n",
   str% "              22|\n",
   str% "              3[23]|\n",
   str% "              44|\n",
   str% "              66\n",
   str% "            )|\n",
   str% "            333|\n",
   str% "            444|\n",
   str% "            6(?:\n",
   str% "              23|\n",
   str% "              38|\n",
   str% "              40\n",
   str% "            )|\n",
   str% "            7(?:\n",
   str% "              30|\n",
   str% "              4[35-79]|\n",
   str% "              6[6-9]|\n",
   str% "              77\n",
   str% "            )|\n",
   str% "            8(?:\n",
   str% "              00|\n",
   str% "              1[45]|\n",
   str% "              4[89]|\n",
   str% "              88\n",
   str% "            )|\n",
   str% "            9(?:\n",
   str% "              14|\n",
   str% "              4[035-9]\n",
   str% "            )\n",
   str% "          )\\d{4}\n",
   str% "        </nationalNumberPattern>\n",
   str% "      </fixedLine>\n",
   str% "      <!-- Adding central office codes 576, 923 and 936 from numbers found online.\n",
   str% "           Most central office codes that were surrendered have not been included, with the\n",
   str% "           exception of 546 where numbers have been found. -->\n",
   str% "      <mobile>\n",
   str% "        <possibleLengths national=\"10\" localOnly=\"7\"/>\n",
   str% "        <exampleNumber>3453231234</exampleNumber>\n",
   str% "        <nationalNumberPattern>\n",
   str% "          345(?:\n",
   str% "            32[1-9]|\n",
   str% "            4(?:\n",
   str% "              1[2-6]|\n",
   str% "              2[0-4]\n",
   str% "            )|\n",
   str% "            5(?:\n",
   str% "              1[67]|\n",
   str% "              2[5-79]|\n",
   str% "              4[6-9]|\n",
   str% "              50|\n",
   str% "              76\n",
   str% "            )|\n",
   str% "            649|\n",
   str% "            82[56]|\n",
   str% "            9(?:\n",
   str% "              1[679]|\n",
   str% "              2[2-9]|\n",
   str% "              3[06-9]|\n",
   str% "              90\n",
   str% "            )\n",
   str% "          )\\d{4}\n",
   str% "        </nationalNumberPattern>\n",
   str% "      </mobile>\n",
   str% "      <tollFree>\n",
   str% "        <possibleLengths national=\"10\"/>\n",
   str% "        <exampleNumber>8002345678</exampleNumber>\n",
   str% "        <nationalNumberPattern>\n",
   str% "          8(?:\n",
   str% "            00|\n",
   str% "            33|\n",
   str% "            44|\n",
   str% "            55|\n",
   str% "            66|\n",
   str% "            77|\n",
   str% "            88\n",
   str% "          )[2-9]\\d{6}\n",
   str% "        </nationalNumberPattern>\n",
   str% "      </tollFree>\n",
   str% "      <premiumRate>\n",
   str% "        <possibleLengths national=\"10\"/>\n",
   str% "        <exampleNumber>9002345678</exampleNumber>\n",
   str% "        <nationalNumberPattern>\n",
   str% "          (?:\n",
   str% "            345976|\n",
   str% "            900[2-9]\\d\\d\n",
   str% "          )\\d{4}\n",
   str% "        </nationalNumberPattern>\n",
   str% "      </premiumRate>\n",
   str% "      <!-- https://www.nationalnanpa.com/number_resource_info/5XX_codes.html -->\n",
   str% "      <personalNumber>\n",
   str% "        <possibleLengths national=\"10\"/>\n",
   str% "        <exampleNumber>5002345678</exampleNumber>\n",
   str% "        <nationalNumberPattern>\n",
   str% "          52(?:\n",
   str% "            3(?:\n",
   str% "              [2-46-9][02-9]\\d|\n",
   str% "              5(?:\n",
   str% "                [02-46-9]\\d|\n",
   str% "                5[0-46-9]\n",
   str% "              )\n",
   str% "            )|\n",
   str% "            4(?:\n",
   str% "              [2-478][02-9]\\d|\n",
   str% "              5(?:\n",
   str% "                [034]\\d|\n",
   str% "                2[024-9]|\n",
   str% "                5[0-46-9]\n",
   str% "              )|\n",
   str% "              6(?:\n",
   str% "                0[1-9]|\n",
   str% "                [2-9]\\d\n",
   str% "              )|\n",
   str% "              9(?:\n",
   str% "                [05-9]\\d|\n",
   str% "                2[0-5]|\n",
   str% "                49\n",
   str% "              )\n",
   str% "            )\n",
   str% "          )\\d{4}|\n",
   str% "          52[34][2-9]1[02-9]\\d{4}|\n",
   str% "          5(?:\n",
   str% "            00|\n",
   str% "            2[125-9]|\n",
   str% "            3[23]|\n",
   str% "            44|\n",
   str% "            66|\n",
   str% "            77|\n",
   str% "            88\n",
   str% "          )[2-9]\\d{6}\n",
   str% "        </nationalNumberPattern>\n",
   str% "      </personalNumber>\n",
   str% "    </territory>"]

/-- the text up to the end of territory id=KZ countryCode=7 -/
noncomputable def KZ : List Str :=
  [str% "\n",
   str% "\n",
   str% "    <!-- Kazakhstan (KZ) -->\n",
   str% "    <!-- Calling code and formatting shared with 'RU' -->\n",
   str% "    <!-- http://www.itu.int/oth/T020200006F/en -->\n",
   str% "    <!-- https://telecom.kz/en/catalog/kazahstan.171777/5 -->\n",
   str% "    <territory id=\"KZ\" countryCode=\"7\" leadingDigits=\"7\" preferredInternationalPrefix=\"8~10\"\n",
   str% "               internationalPrefix=\"810\" nationalPrefix=\"8\" mobileNumberPortableRegion=\"true\">\n",
   str% "      <generalDesc>\n",
   str% "        <nationalNumberPattern>\n",
   str% "          8\\d{13}|\n",
   str% "          [78]\\d{9}\n",
   str% "        </nationalNumberPattern>\n",
   str% "      </generalDesc>\n",
   str% "      <noInternationalDialling>\n",
   str% "        <possibleLengths national=\"10\"/>\n",
   str% "        <nationalNumberPattern>751\\d{7}</nationalNumberPattern>\n",
   str% "      </noInternationalDialling>\n",
   str% "      <!-- VSAT numbers are also included here. We also include the area code for Baikonur (336\n",
   str% "           22), which is within Kazakhstan but in fact rented and administered by Russia at the\n",
   str% "           moment. Added 7279 from numbers found online. -->\n",
   str% "      <fixedLine>\n",
   str% "        <possibleLengths national=\"10\" localOnly=\"[5-7]\"/>\n",
   str% "        <exampleNumber>7123456789</exampleNumber>\n",
   str% "        <nationalNumberPattern>\n",
   str% "          7(?:\n",
   str% "            1(?:\n",
   str% "              0(?:\n",
   str% "                [23]\\d|\n",
   str% "                4[0-3]|\n",
   str% "                59|\n",
   str% "                63\n",
   str% "              )|\n",
   str% "              1(?:\n",
   str% "                [23]\\d|\n",
   str% "                4[0-79]|\n",
   str% "                59\n",
   str% "              )|\n",
   str% "              2(?:\n",
   str% "                [23]\\d|\n",
   str% "                59\n",
   str% "              )|\n",
   str% "              3(?:\n",
   str% "                2\\d|\n",
   str% "                3[0-79]|\n",
   str% "                4[0-35-9]|\n",
   str% "                59\n",
   str% "              )|\n",
   str% "              4(?:\n",
   str% "                [24]\\d|\n",
   str% "                3[013-9]|\n",
   str% "                5[1-9]|\n",
   str% "                97\n",
   str% "              )|\n",
   str% "              5(?:\n",
   str% "                2\\d|\n",
   str% "                3[1-9]|\n",
   str% "                4[0-7]|\n",
   str% "                59\n",
   str% "              )|\n",
   str% "              6(?:\n",
   str% "                [2-4]\\d|\n",
   str% "                5[19]|\n",
   str% "                61\n",
   str% "              )|\n",
   str% "              72\\d|\n",
   str% "              8(?:\n",
   str% "                [27]\\d|\n",
   str% "                3[1-46-9]|\n",
   str% "                4[0-5]|\n",
   str% "                59\n",
   str% "              )\n",
   str% "            )|\n",
   str% "            2(?:\n",
   str% "              1(?:\n",
   str% "                [23]\\d|\n",
   str% "                4[46-9]|\n",
   str% "                5[3469]\n",
   str% "              )|\n",
   str% "              2(?:\n",
   str% "                2\\d|\n",
   str% "                3[0679]|\n",
   str% "                46|\n",
   str% "                5[12679]\n",
   str% "              )|\n",
   str% "              3(?:\n",
   str% "                [2-4]\\d|\n",
   str% "                5[139]\n",
   str% "              )|\n",
   str% "              4(?:\n",
   str% "                2\\d|\n",
   str% "                3[1-35-9]|\n",
   str% "                59\n",
   str% "              )|\n",
   str% "              5(?:\n",
   str% "                [23]\\d|\n",
   str% "                4[0-8]|\n",
   str% "                59|\n",
   str% "                61\n",
   str% "              )|\n",
   str% "              6(?:\n",
   str% "                2\\d|\n",
   str% "                3[1-9]|\n",
   str% "                4[0-4]|\n",
   str% "                59\n",
   str% "              )|\n",
   str% "              7(?:\n",
   str% "                [2379]\\d|\n",
   str% "                40|\n",
   str% "                5[279]\n",
   str% "              )|\n",
   str% "              8(?:\n",
   str% "                [23]\\d|\n",
   str% "                4[0-3]|\n",
   str% "                59\n",
   str% "              )|\n",
   str% "              9(?:\n",
   str% "                2\\d|\n",
   str% "                3[124578]|\n",
   str% "                59\n",
   str% "              )\n",
   str% "            )\n",
   str% "          )\\d{5}\n",
   str% "        </nationalNumberPattern>\n",
   str% "      </fixedLine>\n",
   str% "      <!-- Added 708 for Altel, 776 for Beeline, 747 for Tele2, confirmed by\n",
   str% "           https://ru.wikipedia.org/wiki/\u0422\u0435\u043B\u0435\u0444\u043E\u043D\u043D\u044B\u0439_\u043F\u043B\u0430\u043D_\u043D\u0443\u043C\u0435\u0440\u0430\u0446\u0438\u0438_\u041A\u0430\u0437\u0430\u0445\u0441\u0442\u0430\u043D\u0430 -->\n",
   str% "      <mobile>\n",
   str% "        <possibleLengths national=\"10\"/>\n",
   str% "        <exampleNumber>7710009998</exampleNumber>\n",
   str% "        <nationalNumberPattern>\n",
   str% "          7(?:\n",
   str% "            0[0-25-8]|\n",
   str% "            47|\n",
   str% "            6[0-4]|\n",
   str% "            7[15-8]|\n",
   str% "            85\n",
   str% "          )\\d{7}\n",
   str% "        </nationalNumberPattern>\n",
   str% "      </mobile>\n",
   str% "      <tollFree>\n",
   str% "        <possibleLengths national=\"10,14\"/>\n",
   str% "        <exampleNumber>8001234567</exampleNumber>\n",
   str% "        <nationalNumberPattern>\n",
   str% "          8(?:\n",
   str% "            00|\n",
   str% "            108\\d{3}\n",
   str% "          )\\d{7}\n",
   str% "        </nationalNumberPattern>\n",
   str% "      </tollFree>\n",
   str% "      <premiumRate>\n",
   str% "        <possibleLengths national=\"10\"/>\n",
   str% "        <exampleNumber>8091234567</exampleNumber>\n",
   str% "        <nationalNumberPattern>809\\d{7}</nationalNumberPattern>\n",
   str% "      </premiumRate>\n",
   str% "      <!-- These are referred to as UPT numbers in the plan. -->\n",
   str% "      <personalNumber>\n",
   str% "        <possibleLengths national=\"10\"/>\n",
   str% "        <exampleNumber>8081234567</exampleNumber>\n",
   str% "        <nationalNumberPattern>808\\d{7}</nationalNumberPattern>\n",
   str% "      </personalNumber>\n",
   str% "      <voip>\n",
   str% "        <possibleLengths national=\"10\"/>\n",
   str% "        <exampleNumber>7511234567</exampleNumber>\n",
   str% "        <nationalNumberPattern>751\\d{7}</nationalNumberPattern>\n",
   str% "      </voip>\n",
   str% "    </territory>"]

/-- the text up to the end of territory id=LA countryCode=856 -/
noncomputable def LA : List Str :=
  [str% "\n",
   str% "\n",
   str% "    <!-- Laos (LA) -->\n",
   str% "    <!-- Seems incomplete -->\n",
   str% "    <!-- http://www.itu.int/oth/T0202000075/en -->\n",
   str% "    <!-- http://en.wikipedia.org/wiki/+856 -->\n",
   str% "    <territory id=\"LA\" countryCode=\"856\" internationalPrefix=\"00\" nationalPrefix=\"0\">\n",
   str% "      <availableFormats>\n",
   str% "        <!-- Format for fixed-line numbers. -->\n",
   str% "        <numberFormat pattern=\"(\\d{2})(\\d{3})(\\d{3})\" nationalPrefixFormattingRule=\"$NP$FG\">\n",
   str% "          <leadingDigits>\n",
   str% "            2[13]|\n",
   str% "            3[14]|\n",
   str% "            [4-8]\n",
   str% "          </leadingDigits>\n",
   str% "          <format>$1 $2 $3</format>\n",
   str% "        </numberFormat>\n",
   str% "        <!-- Format for 9 digit Mobile numbers. -->\n",
   str% "        <numberFormat pattern=\"(\\d{2})(\\d{2})(\\d{2})(\\d{3})\" nationalPrefixFormattingRule=\"$NP$FG\">\n",
   str% "          <leadingDigits>3</leadingDigits>\n",
   str% "          <format>$1 $2 $3 $4</format>\n",
   str% "        </numberFormat>\n",
   str% "        <!-- Format for mobile numbers. -->\n",
   str% "        <numberFormat pattern=\"(\\d{2})(\\d{2})(\\d{3})(\\d{3})\" nationalPrefixFormattingRule=\"$NP$FG\">\n",
   str% "          <leadingDigits>[23]</leadingDigits>\n",
   str% "          <format>$1 $2 $3 $4</format>\n",
   str% "        </numberFormat>\n",
   str% "      </availableFormats>\n",
   str% "      <generalDesc>\n",
   str% "        <nationalNumberPattern>\n",
   str% "          [23]\\d{9}|\n",
   str% "          3\\d{8}|\n",
   str% "          (?:\n",
   str% "            [235-8]\\d|\n",
   str% "            41\n",
   str% "          )\\d{6}\n",
   str% "        </nationalNumberPattern>\n",
   str% "      </generalDesc>\n",
   str% "      <fixedLine>\n",
   str% "        <possibleLengths national=\"8\" localOnly=\"6\"/>\n",
   str% "        <exampleNumber>21212862</exampleNumber>\n",
   str% "        <nationalNumberPattern>\n",
   str% "          (?:\n",
   str% "            2[13]|\n",
   str% "            [35-7][14]|\n",
   str% "            41|\n",
   str% "            8[1468]\n",
   str% "          )\\d{6}\n",
   str% "        </nationalNumberPattern>\n",
   str% "      </fixedLine>\n",
   str% "      <!-- Adding 202[89], 205[289], 207[68] and 209[135-7] from numbers found online. -->\n",
   str% "      <mobile>\n",
   str% "        <possibleLengths national=\"9,10\"/>\n",
   str% "        <exampleNumber>2023123456</exampleNumber>\n",
   str% "        <nationalNumberPattern>\n",
   str% "          (?:\n",
   str% "            20(?:\n",
   str% "              [23579]\\d|\n",
   str% "              8[78]\n",
   str% "            )|\n",
   str% "            30[24]\\d\n",
   str% "          )\\d{6}|\n",
   str% "          30\\d{7}\n",
   str% "        </nationalNumberPattern>\n",
   str% "      </mobile>\n",
   str% "    </territory>"]

/-- the text up to the end of territory id=LB countryCode=961 -/
noncomputable def LB : List Str :=
  [str% "\n",
   str% "\n",
   str% "    <!-- Lebanon (LB) -->\n",
   str% "    <!-- http://www.itu.int/oth/T0202000077/en -->\n",
   str% "    <!-- http://en.wikipedia.org/wiki/%2B961 -->\n",
   str% "    <territory id=\"LB\" countryCode=\"961\" internationalPrefix=\"00\" nationalPrefix=\"0\">\n",
   str% "      <availableFormats>\n",
   str% "        <numberFormat pattern=\"(\\d)(\\d{3})(\\d{3})\" nationalPrefixFormattingRule=\"$NP$FG\">\n",
   str% "          <leadingDigits>\n",
   str% "            [13-69]|\n",
   str% "            7(?:\n",
   str% "              [2-57]|\n",
   str% "              62|\n",
   str% "              8[0-6]|\n",
   str% "              9[04-9]\n",
   str% "            )|\n",
   str% "            8[02-9]\n",
   str% "          </leadingDigits>\n",
   str% "          <format>$1 $2 $3</format>\n",
   str% "        </numberFormat>\n",
   str% "        <numberFormat pattern=\"(\\d{2})(\\d{3})(\\d{3})\">\n",
   str% "          <leadingDigits>[27-9]</leadingDigits>\n",
   str% "          <format>$1 $2 $3</format>\n",
   str% "        </numberFormat>\n",
   str% "      </availableFormats>\n",
   str% "      <generalDesc>\n",
   str% "        <nationalNumberPattern>\n",
   str% "          [27-9]\\d{7}|\n",
   str% "          [13-9]\\d{6}\n",
   str% "        </nationalNumberPattern>\n",
   str% "      </generalDesc>\n",
   str% "      <fixedLine>\n",
   str% "        <possibleLengths national=\"7,8\"/>\n",
   str% "        <exampleNumber>1123456</exampleNumber>\n",
   str% "        <nationalNumberPattern>\n",
   str% "          7(?:\n",
   str% "            62|\n",
   str% "            8[0-6]|\n",
   str% "            9[04-9]\n",
   str% "          )\\d{4}|\n",
   str% "          (?:\n",
   str% "            [14-69]\\d|\n",
   str% "            2(?:\n",
   str% "              [14-69]\\d|\n",
   str% "              [78][1-9]\n",
   str% "            )|\n",
   str% "            7[2-57]|\n",
   str% "            8[02-9]\n",
   str% "          )\\d{5}\n",
   str% "        </nationalNumberPattern>\n",
   str% "      </fixedLine>\n",
   str% "      <!-- We only validate the first three digits here, since the ranges are growing rapidly.\n",
   str% "           The 79[02-9] prefixes were added from bug reports and numbers found online. -->\n",
   str% "      <mobile>\n",
   str% "        <possibleLengths national=\"7,8\"/>\n",
   str% "        <exampleNumber>71123456</exampleNumber>\n",
   str% "        <nationalNumberPattern>\n",
   str% "          (?:\n",
   str% "            (?:\n",
   str% "              3|\n",
   str% "              81\n",
   str% "            )\\d|\n",
   str% "            7(?:\n",
   str% "              [01]\\d|\n",
   str% "              6[013-9]|\n",
   str% "              8[7-9]|\n",
   str% "              9[0-4]\n",
   str% "            )\n",
   str% "          )\\d{5}\n",
   str% "        </nationalNumberPattern>\n",
   str% "      </mobile>\n",
   str% "      <premiumRate>\n",
   str% "        <possibleLengths national=\"8\"/>\n",
   str% "        <exampleNumber>90123456</exampleNumber>\n",
   str% "        <nationalNumberPattern>9[01]\\d{6}</nationalNumberPattern>\n",
   str% "      </premiumRate>\n",
   str% "      <sharedCost>\n",
   str% "        <possibleLengths national=\"8\"/>\n",
   str% "        <exampleNumber>80123456</exampleNumber>\n",
   str% "        <nationalNumberPattern>80\\d{6}</nationalNumberPattern>\n",
   str% "      </sharedCost>\n",
   str% "    </territory>"]

/-- the text up to the end of territory id=LC countryCode=1 -/
noncomputable def LC : List Str :=
  [str% "\n",
   str% "\n",
   str% "    <!-- St. Lucia (LC) -->\n",
   str% "    <!-- Calling code and formatting shared with 'US' -->\n",
   str% "    <!-- http://www.itu.int/oth/T02020000B1/en -->\n",
   str% "    <territory id=\"LC\" countryCode=\"1\" leadingDigits=\"758\" internationalPrefix=\"011\"\n",
   str% "               nationalPrefix=\"1\" nationalPrefixForParsing=\"([2-8]\\d{6})$|1\"\n",
   str% "               nationalPrefixTransformRule=\"758$1\" mobileNumberPortableRegion=\"true\">\n",
   str% "      <generalDesc>\n",
   str% "        <nationalNumberPattern>\n",
   str% "          (?:\n",
   str% "            [58]\\d\\d|\n",
   str% "            758|\n",
   str% "            900\n",
   str% "          )\\d{7}\n",
   str% "        </nationalNumberPattern>\n",
   str% "      </generalDesc>\n",
   str% "      <!-- Adding 430 since numbers have been found with these prefixes online. -->\n",
   str% "      <fixedLine>\n",
   str% "        <possibleLengths national=\"10\" localOnly=\"7\"/>\n",
   str% "        <exampleNumber>7584305678</exampleNumber>\n",
   str% "        <nationalNumberPattern>\n",
   str% "          758(?:\n",
   str% "            234|\n",
   str% "            4(?:\n",
   str% "              30|\n",
   str% "              5\\d|\n",
   str% "              6[2-9]|\n",
   str% "              8[0-2]\n",
   str% "            )|\n",
   str% "            57[0-2]|\n",
   str% "            (?:\n",
   str% "              63|\n",
   str% "              75\n",
   str% "            )8\n",
   str% "          )\\d{4}\n",
   str% "        </nationalNumberPattern>\n",
   str% "      </fixedLine>\n",
   str% "      <mobile>\n",
   str% "        <possibleLengths national=\"10\" localOnly=\"7\"/>\n",
   str% "        <exampleNumber>7582845678</exampleNumber>\n",
   str% "        <nationalNumberPattern>\n",
   str% "          758(?:\n",
   str% "            28[4-7]|\n",
   str% "            384|\n",
   str% "            4(?:\n",
   str% "              6[01]|\n",
   str% "              8[4-9]\n",
   str% "            )|\n",
   str% "            5(?:\n",
   str% "              1[89]|\n",
   str% "              20|\n",
   str% "              84\n",
   str% "            )|\n",
   str% "            7(?:\n",
   str% "              1[2-9]|\n",
   str% "              2\\d|\n",
   str% "              3[0-3]\n",
   str% "            )|\n",
   str% "            812\n",
   str% "          )\\d{4}\n",
   str% "        </nationalNumberPattern>\n",
   str% "      </mobile>\n",
   str% "      <tollFree>\n",
   str% "        <possibleLengths national=\"10\"/>\n",
   str% "        <exampleNumber>8002123456</exampleNumber>\n",
   str% "        <nationalNumberPattern>\n",
   str% "          8(?:\n",
   str% "            00|\n",
   str% "            33|\n",
   str% "            44|\n",
   str% "            55|\n",
   str% "            66|\n",
   str% "            77|\n",
   str% "            88\n",
   str% "          )[2-9]\\d{6}\n",
   str% "        </nationalNumberPattern>\n",
   str% "      </tollFree>\n",
   str% "      <premiumRate>\n",
   str% "        <possibleLengths national=\"10\"/>\n",
   str% "        <exampleNumber>9002123456</exampleNumber>\n",
   str% "        <nationalNumberPattern>900[2-9]\\d{6}</nationalNumberPattern>\n",
   str% "      </premiumRate>\n",
   str% "      <!-- https://www.nationalnanpa.com/number_resource_info/5XX_codes.html -->\n",
   str% "      <personalNumber>\n",
   str% "        <possibleLengths national=\"10\"/>\n",
   str% "        <exampleNumber>5002345678</exampleNumber>\n",
   str% "        <nationalNumberPattern>\n",
   str% "          52(?:\n",
   str% "            3(?:\n",
   str% "              [2-46-9][02-9]\\d|\n",
   str% "              5(?:\n",
   str% "                [02-46-9]\\d|\n",
   str% "                5[0-46-9]\n",
   str% "              )\n",
   str% "            )|\n",
   str% "            4(?:\n",
   str% "              [2-478][02-9]\\d|\n",
   str% "              5(?:\n",
   str% "                [034]\\d|\n",
   str% "                2[024-9]|\n",
   str% "                5[0-46-9]\n",
   str% "              )|\n",
   str% "              6(?:\n",
   str% "                0[1-9]|\n",
   str% "                [2-9]\\d\n",
   str% "              )|\n",
   str% "              9(?:\n",
   str% "                [05-9]\\d|\n",
   str% "                2[0-5]|\n",
   str% "                49\n",
   str% "              )\n",
   str% "            )\n",
   str% "          )\\d{4}|\n",
   str% "          52[34][2-9]1[02-9]\\d{4}|\n",
   str% "          5(?:\n",
   str% "            00|\n",
   str% "            2[125-9]|\n",
   str% "            3[23]|\n",
   str% "            44|\n",
   str% "            66|\n",
   str% "            77|\n",
   str% "            88\n",
   str% "          )[2-9]\\d{6}\n",
   str% "        </nationalNumberPattern>\n",
   str% "      </personalNumber>\n",
   str% "    </territory>"]

/-- the text up to the end of territory id=LI countryCode=423 -/
noncomputable def LI : List Str :=
  [str% "\n",
   str% "\n",
   str% "    <!-- Liechtenstein (LI) -->\n",
   str% "    <!-- The national prefix of \"0\" is only used for 0800 and 0900 numbers. Three carrier-selection\n",
   str% "         codes are in use. -->\n",
   str% "    <!-- http://www.llv.li/#/11193 -->\n",
   str% "    <!-- https://www.itu.int/oth/T020200007B/en -->\n",
   str% "    <territory id=\"LI\" countryCode=\"423\" internationalPrefix=\"00\" nationalPrefix=\"0\"\n",
   str% "               nationalPrefixForParsing=\"(1001)|0\">\n",
   str% "      <availableFormats>\n",
   str% "        <!-- Number format for national mobile services, fixed-line, toll-free, UAN and premium rate services.\n",
   str% "             Some different patterns for tollfree and shared cost numbers may be found by searching\n",
   str% "             for Mehrwertnummer at http://www.telecom.li. -->\n",
   str% "        <numberFormat pattern=\"(\\d{3})(\\d{2})(\\d{2})\" carrierCodeFormattingRule=\"$CC $FG\">\n",
   str% "          <leadingDigits>\n",
   str% "            [2379]|\n",
   str% "            8(?:\n",
   str% "              0[09]|\n",
   str% "              7\n",
   str% "            )\n",
   str% "          </leadingDigits>\n",
   str% "          <leadingDigits>\n",
   str% "            [2379]|\n",
   str% "            8(?:\n",
   str% "              0(?:\n",
   str% "                02|\n",
   str% "                9\n",
   str% "              )|\n",
   str% "              7\n",
   str% "            )\n",
   str% "          </leadingDigits>\n",
   str% "          <format>$1 $2 $3</format>\n",
   str% "        </numberFormat>\n",
   str% "        <numberFormat pattern=\"(\\d{3})(\\d{3})(\\d{3})\">\n",
   str% "          <leadingDigits>8</leadingDigits>\n",
   str% "          <format>$1 $2 $3</format>\n",
   str% "        </numberFormat>\n",
   str% "        <!-- Number format for voicemail services. -->\n",
   str% "        <numberFormat pattern=\"(\\d{2})(\\d{3})(\\d{4})\" carrierCodeFormattingRule=\"$CC $FG\">\n",
   str% "          <leadingDigits>69</leadingDigits>\n",
   str% "          <format>$1 $2 $3</format>\n",
   str% "        </numberFormat>\n",
   str% "        <!-- Number format for international mobile services. -->\n",
   str% "        <numberFormat pattern=\"(\\d{3})(\\d{3})(\\d{3})\" carrierCodeFormattingRule=\"$CC $FG\">\n",
   str% "          <leadingDigits>6</leadingDigits>\n",
   str% "          <format>$1 $2 $3</format>\n",
   str% "        </numberFormat>\n",
   str% "      </availableFormats>\n",
   str% "      <generalDesc>\n",
   str% "        <nationalNumberPattern>\n",
   str% "          [68]\\d{8}|\n",
   str% "          (?:\n",
   str% "            [2378]\\d|\n",
   str% "            90\n",
   str% "          )\\d{5}\n",
   str% "        </nationalNumberPattern>\n",
   str% "      </generalDesc>\n",
   str% "      <fixedLine>\n",
   str% "        <possibleLengths national=\"7\"/>\n",
   str% "        <exampleNumber>2345678</exampleNumber>\n",
   str% "        <nationalNumberPattern>\n",
   str% "          (?:\n",
   str% "            2(?:\n",
   str% "              01|\n",
   str% "              1[27]|\n",
   str% "              2[024]|\n",
   str% "              3\\d|\n",
   str% "              6[02-578]|\n",
   str% "              96\n",
   str% "            )|\n",
   str% "            3(?:\n",
   str% "              [24]0|\n",
   str% "              33|\n",
   str% "              7[0135-7]|\n",
   str% "              8[048]|\n",
   str% "              9[0269]\n",
   str% "            )\n",
   str% "          )\\d{4}\n",
   str% "        </nationalNumberPattern>\n",
   str% "      </fixedLine>\n",
   str% "      <mobile>\n",
   str% "        <possibleLengths national=\"7,9\"/>\n",
   str% "        <exampleNumber>660234567</exampleNumber>\n",
   str% "        <nationalNumberPattern>\n",
   str% "          (?:\n",
   str% "            6(?:\n",
   str% "              (?:\n",
   str% "                4[5-9]|\n",
   str% "                5\\d\n",
   str% "              )\\d|\n",
   str% "              6(?:\n",
   str% "                [024-68]\\d|\n",
   str% "                1[01]|\n",
   str% "                3[7-9]|\n",
   str% "                70\n",
   str% "              )\n",
   str% "            )\\d|\n",
   str% "            7(?:\n",
   str% "              [37-9]\\d|\n",
   str% "              42|\n",
   str% "              56\n",
   str% "            )\n",
   str% "          )\\d{4}\n",
   str% "        </nationalNumberPattern>\n",
   str% "      </mobile>\n",
   str% "      <!-- The prefix 809 seems to be used for AT&T and Verizon access lines from Liechtenstein,\n",
   str% "           even though it doesn't appear in the plan. Prefix 8005 of length 9-digit added on user report. -->\n",
   str% "      <tollFree>\n",
   str% "        <possibleLengths national=\"7,9\"/>\n",
   str% "        <exampleNumber>8002222</exampleNumber>\n",
   str% "        <nationalNumberPattern>\n",
   str% "          8002[28]\\d\\d|\n",
   str% "          80(?:\n",
   str% "            05\\d|\n",
   str% "            9\n",
   str% "          )\\d{4}\n",
   str% "        </nationalNumberPattern>\n",
   str% "      </tollFree>\n",
   str% "      <premiumRate>\n",
   str% "        <possibleLengths national=\"7\"/>\n",
   str% "        <exampleNumber>9002222</exampleNumber>\n",
   str% "        <nationalNumberPattern>\n",
   str% "          90(?:\n",
   str% "            02[258]|\n",
   str% "            1(?:\n",
   str% "              23|\n",
   str% "              3[14]\n",
   str% "            )|\n",
   str% "            66[136]\n",
   str% "          )\\d\\d\n",
   str% "        </nationalNumberPattern>\n",
   str% "      </premiumRate>\n",
   str% "      <uan>\n",
   str% "        <possibleLengths national=\"7\"/>\n",
   str% "        <exampleNumber>8702812</exampleNumber>\n",
   str% "        <nationalNumberPattern>\n",
   str% "          870(?:\n",
   str% "            28|\n",
   str% "            87\n",
   str% "          )\\d\\d\n",
   str% "        </nationalNumberPattern>\n",
   str% "      </uan>\n",
   str% "      <voicemail>\n",
   str% "        <possibleLengths national=\"9\"/>\n",
   str% "        <exampleNumber>697861234</exampleNumber>\n",
   str% "        <nationalNumberPattern>\n",
   str% "          697(?:\n",
   str% "            42|\n",
   str% "            56|\n",
   str% "            [78]\\d\n",
   str% "          )\\d{4}\n",
   str% "        </nationalNumberPattern>\n",
   str% "      </voicemail>\n",
   str% "    </territory>"]

/-- the text up to the end of territory id=LK countryCode=94 -/
noncomputable def LK : List Str :=
  [str% "\n",
   str% "\n",
   str% "    <!-- Sri Lanka (LK) -->\n",
   str% "    <!-- http://en.wikipedia.org/wiki/%2B94 -->\n",
   str% "    <!-- http://www.itu.int/oth/T02020000C3/en -->\n",
   str% "    <territory id=\"LK\" countryCode=\"94\" internationalPrefix=\"00\" nationalPrefix=\"0\">\n",
   str% "      <availableFormats>\n",
   str% "        <!-- Format for mobile numbers. -->\n",
   str% "        <numberFormat pattern=\"(\\d{2})(\\d{3})(\\d{4})\" nationalPrefixFormattingRule=\"$NP$FG\">\n",
   str% "          <leadingDigits>7</leadingDigits>\n",
   str% "          <format>$1 $2 $3</format>\n",
   str% "        </numberFormat>\n",
   str% "        <!-- Format for fixed-line numbers. The two digit area code and single digit operator\n",
   str% "             codes are grouped as it is the most common way of writing fixed-line numbers in LK. -->\n",
   str% "        <numberFormat pattern=\"(\\d{3})(\\d{3})(\\d{3})\" nationalPrefixFormattingRule=\"$NP$FG\">\n",
   str% "          <leadingDigits>[1-689]</leadingDigits>\n",
   str% "          <format>$1 $2 $3</format>\n",
   str% "        </numberFormat>\n",
   str% "      </availableFormats>\n",
   str% "      <generalDesc>\n",
   str% "        <nationalNumberPattern>[1-9]\\d{8}</nationalNumberPattern>\n",
   str% "      </generalDesc>\n",
   str% "      <!-- The first two digits are area codes followed by single digit operator codes ([2-57]).\n",
   str% "           There is evidence that local dialling is supported by removing the area code, but\n",
   str% "           not the operator code. This results in the area code length not matching the first\n",
   str% "           group of the format (which is very unusual). As there is no evidence for how local\n",
   str% "           numbers would be formatted, that has been omitted for now. -->\n",
   str% "      <fixedLine>\n",
   str% "        <possibleLengths national=\"9\" localOnly=\"7\"/>\n",
   str% "        <exampleNumber>112345678</exampleNumber>\n",
   str% "        <nationalNumberPattern>\n",
   str% "          (?:\n",
   str% "            12[2-9]|\n",
   str% "            602|\n",
   str% "            8[12]\\d|\n",
   str% "            9(?:\n",
   str% "              1\\d|\n",
   str% "              22|\n",
   str% "              9[245]\n",
   str% "            )\n",
   str% "          )\\d{6}|\n",
   str% "          (?:\n",
   str% "            11|\n",
   str% "            2[13-7]|\n",
   str% "            3[1-8]|\n",
   str% "            4[157]|\n",
   str% "            5[12457]|\n",
   str% "            6[35-7]\n",
   str% "          )[2-57]\\d{6}\n",
   str% "        </nationalNumberPattern>\n",
   str% "      </fixedLine>\n",
   str% "      <!-- Adding the prefix 76 for Dialog, based on information from open-source users. -->\n",
   str% "      <!-- Adding Prefix 702 and 703 based on update from Mobitel which has verified these\n",
   str% "           prefixes to be correct. -->\n",
   str% "      <mobile>\n",
   str% "        <possibleLengths national=\"9\"/>\n",
   str% "        <exampleNumber>712345678</exampleNumber>\n",
   str% "        <nationalNumberPattern>\n",
   str% "          7(?:\n",
   str% "            [0-25-8]\\d|\n",
   str% "            4[0-4]\n",
   str% "          )\\d{6}\n",
   str% "        </nationalNumberPattern>\n",
   str% "      </mobile>\n",
   str% "      <!-- Prefix 1973 is assigned to SriLankan Airlines in various locations. -->\n",
   str% "      <uan>\n",
   str% "        <possibleLengths national=\"9\"/>\n",
   str% "        <exampleNumber>197312345</exampleNumber>\n",
   str% "        <nationalNumberPattern>1973\\d{5}</nationalNumberPattern>\n",
   str% "      </uan>\n",
   str% "    </territory>"]

/-- the text up to the end of territory id=LR countryCode=231 -/
noncomputable def LR : List Str :=
  [str% "\n",
   str% "\n",
   str% "    <!-- Liberia (LR) -->\n",
   str% "    <!-- http://www.itu.int/oth/T0202000079/en -->\n",
   str% "    <territory id=\"LR\" countryCode=\"231\" internationalPrefix=\"00\" nationalPrefix=\"0\">\n",
   str% "      <availableFormats>\n",
   str% "        <numberFormat pattern=\"(\\d)(\\d{3})(\\d{3})\" nationalPrefixFormattingRule=\"$NP$FG\">\n",
   str% "          <leadingDigits>\n",
   str% "            4[67]|\n",
   str% "            [56]\n",
   str% "          </leadingDigits>\n",
   str% "          <format>$1 $2 $3</format>\n",
   str% "        </numberFormat>\n",
   str% "        <!-- Formatting from Ministry of Agriculture,\n",
   str% "             http://www.moa.gov.lr/content.php?sub=Email&?related=Contacts -->\n",
   str% "        <numberFormat pattern=\"(\\d{2})(\\d{3})(\\d{3})\" nationalPrefixFormattingRule=\"$NP$FG\">\n",
   str% "          <leadingDigits>2</leadingDigits>\n",
   str% "          <format>$1 $2 $3</format>\n",
   str% "        </numberFormat>\n",
   str% "        <numberFormat pattern=\"(\\d{2})(\\d{3})(\\d{4})\" nationalPrefixFormattingRule=\"$NP$FG\">\n",
   str% "          <leadingDigits>[2-578]</leadingDigits>\n",
   str% "          <format>$1 $2 $3</format>\n",
   str% "        </numberFormat>\n",
   str% "      </availableFormats>\n",
   str% "      <generalDesc>\n",
   str% "        <nationalNumberPattern>\n",
   str% "          (?:\n",
   str% "            [2457]\\d|\n",
   str% "            33|\n",
   str% "            88\n",
   str% "          )\\d{7}|\n",
   str% "          (?:\n",
   str% "            2\\d|\n",
   str% "            [4-6]\n",
   str% "          )\\d{6}\n",
   str% "        </nationalNumberPattern>\n",
   str% "      </generalDesc>\n",
   str% "      <fixedLine>\n",
   str% "        <possibleLengths national=\"8\"/>\n",
   str% "        <exampleNumber>21234567</exampleNumber>\n",
   str% "        <nationalNumberPattern>2\\d{7}</nationalNumberPattern>\n",
   str% "      </fixedLine>\n",
   str% "      <!-- West Africa Telecom seems to be a mobile company from their website. -->\n",
   str% "      <mobile>\n",
   str% "        <possibleLengths national=\"7,9\"/>\n",
   str% "        <exampleNumber>770123456</exampleNumber>\n",
   str% "        <nationalNumberPattern>\n",
   str% "          (?:\n",
   str% "            (?:\n",
   str% "              (?:\n",
   str% "                22|\n",
   str% "                33\n",
   str% "              )0|\n",
   str% "              555|\n",
   str% "              7(?:\n",
   str% "                6[01]|\n",
   str% "                7\\d\n",
   str% "              )|\n",
   str% "              88\\d\n",
   str% "            )\\d|\n",
   str% "            4(?:\n",
   str% "              240|\n",
   str% "              [67]\n",
   str% "            )\n",
   str% "          )\\d{5}|\n",
   str% "          [56]\\d{6}\n",
   str% "        </nationalNumberPattern>\n",
   str% "      </mobile>\n",
   str% "      <premiumRate>\n",
   str% "        <possibleLengths national=\"9\"/>\n",
   str% "        <exampleNumber>332021234</exampleNumber>\n",
   str% "        <nationalNumberPattern>\n",
   str% "          332(?:\n",
   str% "            02|\n",
   str% "            [34]\\d\n",
   str% "          )\\d{4}\n",
   str% "        </nationalNumberPattern>\n",
   str% "      </premiumRate>\n",
   str% "    </territory>"]

/-- the text up to the end of territory id=LS countryCode=266 -/
noncomputable def LS : List Str :=
  [str% "\n",
   str% "\n",
   str% "    <!-- Lesotho (LS) -->\n",
   str% "    <!-- http://www.itu.int/oth/T0202000078/en -->\n",
   str% "    <territory id=\"LS\" countryCode=\"266\" internationalPrefix=\"00\">\n",
   str% "      <availableFormats>\n",
   str% "        <!-- Formatting following yellow pages: http://www.yellowpages.co.ls -->\n",
   str% "        <numberFormat pattern=\"(\\d{4})(\\d{4})\">\n",
   str% "          <leadingDigits>[2568]</leadingDigits>\n",
   str% "          <format>$1 $2</format>\n",
   str% "        </numberFormat>\n",
   str% "      </availableFormats>\n",
   str% "      <generalDesc>\n",
   str% "        <nationalNumberPattern>\n",
   str% "          (?:\n",
   str% "            [256]\\d\\d|\n",
   str% "            800\n",
   str% "          )\\d{5}\n",
   str% "        </nationalNumberPattern>\n",
   str% "      </generalDesc>\n",
   str% "      <fixedLine>\n",
   str% "        <possibleLengths national=\"8\"/>\n",
   str% "        <exampleNumber>22123456</exampleNumber>\n",
   str% "        <nationalNumberPattern>2\\d{7}</nationalNumberPattern>\n",
   str% "      </fixedLine>\n",
   str% "      <mobile>\n",
   str% "        <possibleLengths national=\"8\"/>\n",
   str% "        <exampleNumber>50123456</exampleNumber>\n",
   str% "        <nationalNumberPattern>[56]\\d{7}</nationalNumberPattern>\n",
   str% "      </mobile>\n",
   str% "      <tollFree>\n",
   str% "        <possibleLengths national=\"8\"/>\n",
   str% "        <exampleNumber>80021234</exampleNumber>\n",
   str% "        <nationalNumberPattern>800[1256]\\d{4}</nationalNumberPattern>\n",
   str% "      </tollFree>\n",
   str% "    </territory>"]

/-- the text up to the end of territory id=LT countryCode=370 -/
noncomputable def LT : List Str :=
  [str% "\n",
   str% "\n",
   str% "    <!-- Lithuania (LT) -->\n",
   str% "    <!-- Note that Lithuania switched to national prefix 0. The former prefix\n",
   str% "         8 will continue to be operational until 28 February 2025. -->\n",
   str% "    <!-- http://www.itu.int/oth/T020200007C/en -->\n",
   str% "    <!-- National Prefix formatting rule from http://www.yellowpages.lt -->\n",
   str% "    <territory id=\"LT\" countryCode=\"370\" internationalPrefix=\"00\" nationalPrefix=\"0\"\n",
   str% "               nationalPrefixForParsing=\"[08]\" mobileNumberPortableRegion=\"true\">\n",
   str% "      <availableFormats>\n",
   str% "        <!-- 1 digit area code (fixed line only) -->\n",
   str% "        <numberFormat pattern=\"(\\d)(\\d{3})(\\d{4})\" nationalPrefixFormattingRule=\"($NP-$FG)\"\n",
   str% "                      nationalPrefixOptionalWhenFormatting=\"true\">\n",
   str% "          <leadingDigits>52[0-7]</leadingDigits>\n",
   str% "          <format>$1 $2 $3</format>\n",
   str% "        </numberFormat>\n",
   str% "        <!-- Non-geographic numbers (toll free, UAN etc.) -->\n",
   str% "        <numberFormat pattern=\"(\\d{3})(\\d{2})(\\d{3})\" nationalPrefixFormattingRule=\"$NP $FG\"\n",
   str% "                      nationalPrefixOptionalWhenFormatting=\"true\">\n",
   str% "          <leadingDigits>[7-9]</leadingDigits>\n",
   str% "          <format>$1 $2 $3</format>\n",
   str% "        </numberFormat>\n",
   str% "        <!-- 2 digit area codes (fixed line only) -->\n",
   str% "        <numberFormat pattern=\"(\\d{2})(\\d{6})\" nationalPrefixFormattingRule=\"($NP-$FG)\"\n",
   str% "                      nationalPrefixOptionalWhenFormatting=\"true\">\n",
   str% "          <leadingDigits>\n",
   str% "            37|\n",
   str% "            4(?:\n",
   str% "              [15]|\n",
   str% "              6[1-8]\n",
   str% "            )\n",
   str% "          </leadingDigits>\n",
   str% "          <format>$1 $2</format>\n",
   str% "        </numberFormat>\n",
   str% "        <!-- 3 digit area codes and other formats (mobile etc.) -->\n",
   str% "        <numberFormat pattern=\"(\\d{3})(\\d{5})\" nationalPrefixFormattingRule=\"($NP-$FG)\"\n",
   str% "                      nationalPrefixOptionalWhenFormatting=\"true\">\n",
   str% "          <leadingDigits>[3-6]</leadingDigits>\n",
   str% "          <format>$1 $2</format>\n",
   str% "        </numberFormat>\n",
   str% "      </availableFormats>\n",
   str% "      <generalDesc>\n",
   str% "        <nationalNumberPattern>\n",
   str% "          (?:\n",
   str% "            [3469]\\d|\n",
   str% "            52|\n",
   str% "            [78]0\n",
   str% "          )\\d{6}\n",
   str% "        </nationalNumberPattern>\n",
   str% "      </generalDesc>\n",
   str% "      <fixedLine>\n",
   str% "        <possibleLengths national=\"8\"/>\n",
   str% "        <exampleNumber>31234567</exampleNumber>\n",
   str% "        <nationalNumberPattern>\n",
   str% "          (?:\n",
   str% "            3[1478]|\n",
   str% "            4[124-6]|\n",
   str% "            52\n",
   str% "          )\\d{6}\n",
   str% "        </nationalNumberPattern>\n",
   str% "      </fixedLine>\n",
   str% "      <mobile>\n",
   str% "        <possibleLengths national=\"8\"/>\n",
   str% "        <exampleNumber>61234567</exampleNumber>\n",
   str% "        <nationalNumberPattern>6\\d{7}</nationalNumberPattern>\n",
   str% "      </mobile>\n",
   str% "      <tollFree>\n",
   str% "        <possibleLengths national=\"8\"/>\n",
   str% "        <exampleNumber>80012345</exampleNumber>\n",
   str% "        <nationalNumberPattern>80[02]\\d{5}</nationalNumberPattern>\n",
   str% "      </tollFree>\n",
   str% "      <premiumRate>\n",
   str% "        <possibleLengths national=\"8\"/>\n",
   str% "        <exampleNumber>90012345</exampleNumber>\n",
   str% "        <nationalNumberPattern>\n",
   str% "          9(?:\n",
   str% "            0[0239]|\n",
   str% "            10\n",
   str% "          )\\d{5}\n",
   str% "        </nationalNumberPattern>\n",
   str% "      </premiumRate>\n",
   str% "      <sharedCost>\n",
   str% "        <possibleLengths national=\"8\"/>\n",
   str% "        <exampleNumber>80812345</exampleNumber>\n",
   str% "        <nationalNumberPattern>808\\d{5}</nationalNumberPattern>\n",
   str% "      </sharedCost>\n",
   str% "      <personalNumber>\n",
   str% "        <possibleLengths national=\"8\"/>\n",
   str% "        <exampleNumber>70012345</exampleNumber>\n",
   str% "        <nationalNumberPattern>70[05]\\d{5}</nationalNumberPattern>\n",
   str% "      </personalNumber>\n",
   str% "      <voip>\n",
   str% "        <possibleLengths national=\"8\"/>\n",
   str% "        <exampleNumber>80123456</exampleNumber>\n",
   str% "        <nationalNumberPattern>[89]01\\d{5}</nationalNumberPattern>\n",
   str% "      </voip>\n",
   str% "      <!-- Including government service numbers here too. -->\n",
   str% "      <uan>\n",
   str% "        <possibleLengths national=\"8\"/>\n",
   str% "        <exampleNumber>70712345</exampleNumber>\n",
   str% "        <nationalNumberPattern>70[67]\\d{5}</nationalNumberPattern>\n",
   str% "      </uan>\n",
   str% "    </territory>"]

/-- the text up to the end of territory id=LU countryCode=352 -/
noncomputable def LU : List Str :=
  [str% "\n",
   str% "\n",
   str% "    <!-- Luxembourg (LU) -->\n",
   str% "    <!-- https://web.ilr.lu/FR/Professionnels/Communications-electroniques/Pages/HomePage.aspx -->\n",
   str% "    <!-- http://legilux.public.lu/eli/etat/leg/rilr/2014/07/14/n2/jo -->\n",
   str% "    <territory id=\"LU\" countryCode=\"352\" internationalPrefix=\"00\"\n",
   str% "               nationalPrefixForParsing=\"(15(?:0[06]|1[12]|[35]5|4[04]|6[26]|77|88|99)\\d)\"\n",
   str% "               mobileNumberPortableRegion=\"true\">\n",
   str% "      <availableFormats>\n",
   str% "        <!-- This format is for 5 digit fixed-line ranges. -->\n",
   str% "        <numberFormat pattern=\"(\\d{2})(\\d{3})\" carrierCodeFormattingRule=\"$CC $FG\">\n",
   str% "          <leadingDigits>\n",
   str% "            2(?:\n",
   str% "              0[2-689]|\n",
   str% "              [2-9]\n",
   str% "            )|\n",
   str% "            [3-57]|\n",
   str% "            8(?:\n",
   str% "              0[2-9]|\n",
   str% "              [13-9]\n",
   str% "            )|\n",
   str% "            9(?:\n",
   str% "              0[89]|\n",
   str% "              [2-579]\n",
   str% "            )\n",
   str% "          </leadingDigits>\n",
   str% "          <format>$1 $2</format>\n",
   str% "        </numberFormat>\n",
   str% "        <!-- Patterns overlap because of variable number length. This format is for 6 digit\n",
   str% "             fixed-line ranges. -->\n",
   str% "        <numberFormat pattern=\"(\\d{2})(\\d{2})(\\d{2})\" carrierCodeFormattingRule=\"$CC $FG\">\n",
   str% "          <leadingDigits>\n",
   str% "            2(?:\n",
   str% "              0[2-689]|\n",
   str% "              [2-9]\n",
   str% "            )|\n",
   str% "            [3-57]|\n",
   str% "            8(?:\n",
   str% "              0[2-9]|\n",
   str% "              [13-9]\n",
   str% "            )|\n",
   str% "            9(?:\n",
   str% "              0[89]|\n",
   str% "              [2-579]\n",
   str% "            )\n",
   str% "          </leadingDigits>\n",
   str% "          <format>$1 $2 $3</format>\n",
   str% "        </numberFormat>\n",
   str% "        <!-- This format is for 7 digit fixed-line ranges -->\n",
   str% "        <numberFormat pattern=\"(\\d{2})(\\d{2})(\\d{3})\" carrierCodeFormattingRule=\"$CC $FG\">\n",
   str% "          <leadingDigits>20[2-689]</leadingDigits>\n",
   str% "          <format>$1 $2 $3</format>\n",
   str% "        </numberFormat>\n",
   str% "        <!-- This format is for 7 and 8 digit fixed-line ranges. -->\n",
   str% "        <numberFormat pattern=\"(\\d{2})(\\d{2})(\\d{2})(\\d{1,2})\" carrierCodeFormattingRule=\"$CC $FG\">\n",
   str% "          <leadingDigits>20</leadingDigits>\n",
   str% "          <format>$1 $2 $3 $4</format>\n",
   str% "        </numberFormat>\n",
   str% "        <!-- This format is for 7 to 11 digit fixed-line ranges. -->\n",
   str% "        <numberFormat pattern=\"(\\d{2})(\\d{2})(\\d{2})(\\d{1,5})\" carrierCodeFormattingRule=\"$CC $FG\">\n",
   str% "          <leadingDigits>\n",
   str% "            [3-57]|\n",
   str% "            8[13-9]|\n",
   str% "            9(?:\n",
   str% "              0[89]|\n",
   str% "              [2-579]\n",
   str% "            )|\n",
   str% "            (?:\n",
   str% "              2|\n",
   str% "              80\n",
   str% "            )[2-9]\n",
   str% "          </leadingDigits>\n",
   str% "          <format>$1 $2 $3 $4</format>\n",
   str% "        </numberFormat>\n",
   str% "        <!-- Format for variable cost types like premium-rate, toll-free. -->\n",
   str% "        <numberFormat pattern=\"(\\d{3})(\\d{2})(\\d{3})\" carrierCodeFormattingRule=\"$CC $FG\">\n",
   str% "          <leadingDigits>\n",
   str% "            80[01]|\n",
   str% "            90[015]\n",
   str% "          </leadingDigits>\n",
   str% "          <format>$1 $2 $3</format>\n",
   str% "        </numberFormat>\n",
   str% "        <!-- This format is for 9 digit fixed-line ranges. -->\n",
   str% "        <numberFormat pattern=\"(\\d{2})(\\d{2})(\\d{2})(\\d{3})\" carrierCodeFormattingRule=\"$CC $FG\">\n",
   str% "          <leadingDigits>20</leadingDigits>\n",
   str% "          <format>$1 $2 $3 $4</format>\n",
   str% "        </numberFormat>\n",
   str% "        <!-- Format for mobile numbers. -->\n",
   str% "        <numberFormat pattern=\"(\\d{3})(\\d{3})(\\d{3})\" carrierCodeFormattingRule=\"$CC $FG\">\n",
   str% "          <leadingDigits>6</leadingDigits>\n",
   str% "          <format>$1 $2 $3</format>\n",
   str% "        </numberFormat>\n",
   str% "        <!-- This format is for some 9 or 10 digit fixed-line ranges. -->\n",
   str% "        <numberFormat pattern=\"(\\d{2})(\\d{2})(\\d{2})(\\d{2})(\\d{1,2})\"\n",
   str% "                      carrierCodeFormattingRule=\"$CC $FG\">\n",
   str% "          <leadingDigits>20</leadingDigits>\n",
   str% "          <format>$1 $2 $3 $4 $5</format>\n",
   str% "        </numberFormat>\n",
   str% "      </availableFormats>\n",
   str% "      <generalDesc>\n",
   str% "        <nationalNumberPattern>\n",
   str% "          35[013-9]\\d{4,8}|\n",
   str% "          6\\d{8}|\n",
   str% "          35\\d{2,4}|\n",
   str% "          (?:\n",
   str% "            [2457-9]\\d|\n",
   str% "            3[0-46-9]\n",
   str% "          )\\d{2,9}\n",
   str% "        </nationalNumberPattern>\n",
   str% "      </generalDesc>\n",
   str% "      <!-- Even though 20 is listed in the fixed-line plan, other documentation clarify that it is\n",
   str% "           for VOIP. Furthermore, even though the plan says that numbers beginning with 2[346-8]\n",
   str% "           by default are 8 digits, from information found online it seems that they can actually\n",
   str% "           be 4 up to 11 digits long. -->\n",
   str% "      <fixedLine>\n",
   str% "        <possibleLengths national=\"[4-11]\"/>\n",
   str% "        <exampleNumber>27123456</exampleNumber>\n",
   str% "        <nationalNumberPattern>\n",
   str% "          (?:\n",
   str% "            35[013-9]|\n",
   str% "            80[2-9]|\n",
   str% "            90[89]\n",
   str% "          )\\d{1,8}|\n",
   str% "          (?:\n",
   str% "            2[2-9]|\n",
   str% "            3[0-46-9]|\n",
   str% "            [457]\\d|\n",
   str% "            8[13-9]|\n",
   str% "            9[2-579]\n",
   str% "          )\\d{2,9}\n",
   str% "        </nationalNumberPattern>\n",
   str% "      </fixedLine>\n",
   str% "      <!-- 679 (9 digit) are mentioned as \"special mobile services\" in ilr.lu's doc. Supporting here\n",
   str% "           as per Luxembourg Regulation doc of 14 July 2014 which says all mobile ranges start with\n",
   str% "           digit 6. -->\n",
   str% "      <mobile>\n",
   str% "        <possibleLengths national=\"9\"/>\n",
   str% "        <exampleNumber>628123456</exampleNumber>\n",
   str% "        <nationalNumberPattern>\n",
   str% "          6(?:\n",
   str% "            [26][18]|\n",
   str% "            5[1568]|\n",
   str% "            7[189]|\n",
   str% "            81|\n",
   str% "            9[128]\n",
   str% "          )\\d{6}\n",
   str% "        </nationalNumberPattern>\n",
   str% "      </mobile>\n",
   str% "      <tollFree>\n",
   str% "        <possibleLengths national=\"8\"/>\n",
   str% "        <exampleNumber>80012345</exampleNumber>\n",
   str% "        <nationalNumberPattern>800\\d{5}</nationalNumberPattern>\n",
   str% "      </tollFree>\n",
   str% "      <premiumRate>\n",
   str% "        <possibleLengths national=\"8\"/>\n",
   str% "        <exampleNumber>90012345</exampleNumber>\n",
   str% "        <nationalNumberPattern>90[015]\\d{5}</nationalNumberPattern>\n",
   str% "      </premiumRate>\n",
   str% "      <sharedCost>\n",
   str% "        <possibleLengths national=\"8\"/>\n",
   str% "        <exampleNumber>80112345</exampleNumber>\n",
   str% "        <nationalNumberPattern>801\\d{5}</nationalNumberPattern>\n",
   str% "      </sharedCost>\n",
   str% "      <!-- The document says the normal length will be 8 digits, but many numbers found online\n",
   str% "           deviate from that. The prefixes from the following document have been added:\n",
   str% "           http://www.ilr.public.lu/communications_electroniques/numerotation/plan_nat_num/numeros_geographiques_geo.pdf\n",
   str% "           201 has also been added since a diallable number was found online, and it says in\n",
   str% "           http://www.ilr.public.lu/communications_electroniques/decisions/2004/0479.pdf that no\n",
   str% "           numbers will be issued that begin with 200, numbers beginning with 201 will be issued\n",
   str% "           one at a time, and 202-209 in blocks. -->\n",
   str% "      <voip>\n",
   str% "        <possibleLengths national=\"[4-10]\"/>\n",
   str% "        <exampleNumber>20201234</exampleNumber>\n",
   str% "        <nationalNumberPattern>\n",
   str% "          20(?:\n",
   str% "            1\\d{5}|\n",
   str% "            [2-689]\\d{1,7}\n",
   str% "          )\n",
   str% "        </nationalNumberPattern>\n",
   str% "      </voip>\n",
   str% "    </territory>"]

/-- the text up to the end of territory id=LV countryCode=371 -/
noncomputable def LV : List Str :=
  [str% "\n",
   str% "\n",
   str% "    <!-- Latvia (LV) -->\n",
   str% "    <!-- http://www.itu.int/oth/T0202000076/en -->\n",
   str% "    <!-- http://en.wikipedia.org/wiki/+371 -->\n",
   str% "    <territory id=\"LV\" countryCode=\"371\" internationalPrefix=\"00\" mobileNumberPortableRegion=\"true\">\n",
   str% "      <availableFormats>\n",
   str% "        <numberFormat pattern=\"(\\d{2})(\\d{3})(\\d{3})\">\n",
   str% "          <leadingDigits>\n",
   str% "            [2679]|\n",
   str% "            8[01]\n",
   str% "          </leadingDigits>\n",
   str% "          <format>$1 $2 $3</format>\n",
   str% "        </numberFormat>\n",
   str% "      </availableFormats>\n",
   str% "      <generalDesc>\n",
   str% "        <nationalNumberPattern>\n",
   str% "          (?:\n",
   str% "            [268]\\d|\n",
   str% "            78|\n",
   str% "            90\n",
   str% "          )\\d{6}\n",
   str% "        </nationalNumberPattern>\n",
   str% "      </generalDesc>\n",
   str% "      <fixedLine>\n",
   str% "        <possibleLengths national=\"8\"/>\n",
   str% "        <exampleNumber>63123456</exampleNumber>\n",
   str% "        <nationalNumberPattern>6\\d{7}</nationalNumberPattern>\n",
   str% "      </fixedLine>\n",
   str% "      <mobile>\n",
   str% "        <possibleLengths national=\"8\"/>\n",
   str% "        <exampleNumber>21234567</exampleNumber>\n",
   str% "        <nationalNumberPattern>\n",
   str% "          2333[0-8]\\d{3}|\n",
   str% "          2(?:\n",
   str% "            [0-24-9]\\d\\d|\n",
   str% "            3(?:\n",
   str% "              0[07]|\n",
   str% "              [14-9]\\d|\n",
   str% "              2[02-9]|\n",
   str% "              3[0-24-9]\n",
   str% "            )\n",
   str% "          )\\d{4}\n",
   str% "        </nationalNumberPattern>\n",
   str% "      </mobile>\n",
   str% "      <tollFree>\n",
   str% "        <possibleLengths national=\"8\"/>\n",
   str% "        <exampleNumber>80123456</exampleNumber>\n",
   str% "        <nationalNumberPattern>80\\d{6}</nationalNumberPattern>\n",
   str% "      </tollFree>\n",
   str% "      <premiumRate>\n",
   str% "        <possibleLengths national=\"8\"/>\n",
   str% "        <exampleNumber>90123456</exampleNumber>\n",
   str% "        <nationalNumberPattern>90\\d{6}</nationalNumberPattern>\n",
   str% "      </premiumRate>\n",
   str% "      <sharedCost>\n",
   str% "        <possibleLengths national=\"8\"/>\n",
   str% "        <exampleNumber>81123456</exampleNumber>\n",
   str% "        <nationalNumberPattern>81\\d{6}</nationalNumberPattern>\n",
   str% "      </sharedCost>\n",
   str% "    </territory>"]

/-- the text up to the end of territory id=LY countryCode=218 -/
noncomputable def LY : List Str :=
  [str% "\n",
   str% "\n",
   str% "    <!-- Libya (LY) -->\n",
   str% "    <!-- Status as of 21 Jan 2011: a lot of outdated information on the web including on wikipedia\n",
   str% "         and itu.int. The new area codes are on the Arabic website of the main telecommunication\n",
   str% "         operator (Hatef Libya). A new mobile operator Aljeel Aljadeed for Technology will start\n",
   str% "         using 096 (they are allowing customers to register numbers currently), so their code has\n",
   str% "         also been added. -->\n",
   str% "    <!-- http://hlc.ly/price.php -->\n",
   str% "    <territory id=\"LY\" countryCode=\"218\" internationalPrefix=\"00\" nationalPrefix=\"0\">\n",
   str% "      <availableFormats>\n",
   str% "        <numberFormat pattern=\"(\\d{2})(\\d{7})\" nationalPrefixFormattingRule=\"$NP$FG\">\n",
   str% "          <leadingDigits>[2-9]</leadingDigits>\n",
   str% "          <format>$1-$2</format>\n",
   str% "        </numberFormat>\n",
   str% "      </availableFormats>\n",
   str% "      <generalDesc>\n",
   str% "        <nationalNumberPattern>[2-9]\\d{8}</nationalNumberPattern>\n",
   str% "      </generalDesc>\n",
   str% "      <fixedLine>\n",
   str% "        <possibleLengths national=\"9\" localOnly=\"7\"/>\n",
   str% "        <exampleNumber>212345678</exampleNumber>\n",
   str% "        <nationalNumberPattern>\n",
   str% "          (?:\n",
   str% "            2(?:\n",
   str% "              0[56]|\n",
   str% "              [1-6]\\d|\n",
   str% "              7[124579]|\n",
   str% "              8[124]\n",
   str% "            )|\n",
   str% "            3(?:\n",
   str% "              1\\d|\n",
   str% "              2[2356]\n",
   str% "            )|\n",
   str% "            4(?:\n",
   str% "              [17]\\d|\n",
   str% "              2[1-357]|\n",
   str% "              5[2-4]|\n",
   str% "              8[124]\n",
   str% "            )|\n",
   str% "            5(?:\n",
   str% "              [1347]\\d|\n",
   str% "              2[1-469]|\n",
   str% "              5[13-5]|\n",
   str% "              8[1-4]\n",
   str% "            )|\n",
   str% "            6(?:\n",
   str% "              [1-479]\\d|\n",
   str% "              5[2-57]|\n",
   str% "              8[1-5]\n",
   str% "            )|\n",
   str% "            7(?:\n",
   str% "              [13]\\d|\n",
   str% "              2[13-79]\n",
   str% "            )|\n",
   str% "            8(?:\n",
   str% "              [124]\\d|\n",
   str% "              5[124]|\n",
   str% "              84\n",
   str% "            )\n",
   str% "          )\\d{6}\n",
   str% "        </nationalNumberPattern>\n",
   str% "      </fixedLine>\n",
   str% "      <!-- The prefix 094 has been added on the strength of numbers found online, and numbers\n",
   str% "           where SMS messages have been apparently successfully received. -->\n",
   str% "      <mobile>\n",
   str% "        <possibleLengths national=\"9\"/>\n",
   str% "        <exampleNumber>912345678</exampleNumber>\n",
   str% "        <nationalNumberPattern>9[1-6]\\d{7}</nationalNumberPattern>\n",
   str% "      </mobile>\n",
   str% "    </territory>"]

/-- the text up to the end of territory id=MA countryCode=212 -/
noncomputable def MA : List Str :=
  [str% "\n",
   str% "\n",
   str% "    <!-- Morocco (MA) -->\n",
   str% "    <!-- Main region for 'EH' -->\n",
   str% "    <!-- http://www.itu.int/oth/T0202000090/en -->\n",
   str% "    <!-- http://en.wikipedia.org/wiki/+212 -->\n",
   str% "    <!-- https://www.anrt.ma/content/plan-de-numerotation -->\n",
   str% "    <!-- https://www.anrt.ma/en/missions/gestion-des-ressources/numerotation -->\n",
   str% "    <territory id=\"MA\" mainCountryForCode=\"true\" countryCode=\"212\" leadingDigits=\"[5-8]\"\n",
   str% "               internationalPrefix=\"00\" nationalPrefix=\"0\" mobileNumberPortableRegion=\"true\">\n",
   str% "      <availableFormats>\n",
   str% "        <numberFormat pattern=\"(\\d{4})(\\d{5})\" nationalPrefixFormattingRule=\"$NP$FG\">\n",
   str% "          <leadingDigits>892</leadingDigits>\n",
   str% "          <format>$1-$2</format>\n",
   str% "        </numberFormat>\n",
   str% "        <numberFormat pattern=\"(\\d{2})(\\d{7})\" nationalPrefixFormattingRule=\"$NP$FG\">\n",
   str% "          <leadingDigits>\n",
   str% "            8(?:\n",
   str% "              0[0-7]|\n",
   str% "              9\n",
   str% "            )\n",
   str% "          </leadingDigits>\n",
   str% "          <format>$1-$2</format>\n",
   str% "        </numberFormat>\n",
   str% "        <numberFormat pattern=\"(\\d)(\\d{2})(\\d{2})(\\d{2})(\\d{2})\"\n",
   str% "                      nationalPrefixFormattingRule=\"$NP$FG\">\n",
   str% "          <leadingDigits>[5-8]</leadingDigits>\n",
   str% "          <format>$1 $2 $3 $4 $5</format>\n",
   str% "        </numberFormat>\n",
   str% "      </availableFormats>\n",
   str% "      <generalDesc>\n",
   str% "        <nationalNumberPattern>[5-8]\\d{8}</nationalNumberPattern>\n",
   str% "      </generalDesc>\n",
   str% "      <!-- Prefix 5220 and 5364 was added from a user report. -->\n",
   str% "      <fixedLine>\n",
   str% "        <possibleLengths national=\"9\"/>\n",
   str% "        <exampleNumber>520123456</exampleNumber>\n",
   str% "        <nationalNumberPattern>\n",
   str% "          5(?:\n",
   str% "            (?:\n",
   str% "              18|\n",
   str% "              4[0679]|\n",
   str% "              5[03]\n",
   str% "            )\\d|\n",
   str% "            2(?:\n",
   str% "              [0-25-79]\\d|\n",
   str% "              3[1-578]|\n",
   str% "              4[02-46-8]|\n",
   str% "              8[0235-9]\n",
   str% "            )|\n",
   str% "            3(?:\n",
   str% "              [0-47]\\d|\n",
   str% "              5[02-9]|\n",
   str% "              6[02-8]|\n",
   str% "              8[014-9]|\n",
   str% "              9[3-9]\n",
   str% "            )\n",
   str% "          )\\d{5}\n",
   str% "        </nationalNumberPattern>\n",
   str% "      </fixedLine>\n",
   str% "      <!-- Also duplicated in Western Sahara, please ensure you update both. -->\n",
   str% "      <mobile>\n",
   str% "        <possibleLengths national=\"9\"/>\n",
   str% "        <exampleNumber>650123456</exampleNumber>\n",
   str% "        <nationalNumberPattern>\n",
   str% "          (?:\n",
   str% "            6(?:\n",
   str% "              [0-79]\\d|\n",
   str% "              8[0-247-9]\n",
   str% "            )|\n",
   str% "            7(?:\n",
   str% "              [016-8]\\d|\n",
   str% "              2[0-8]|\n",
   str% "              5[0-5]\n",
   str% "            )\n",
   str% "          )\\d{6}\n",
   str% "        </nationalNumberPattern>\n",
   str% "      </mobile>\n",
   str% "      <tollFree>\n",
   str% "        <possibleLengths national=\"9\"/>\n",
   str% "        <exampleNumber>801234567</exampleNumber>\n",
   str% "        <nationalNumberPattern>80[0-7]\\d{6}</nationalNumberPattern>\n",
   str% "      </tollFree>\n",
   str% "      <premiumRate>\n",
   str% "        <possibleLengths national=\"9\"/>\n",
   str% "        <exampleNumber>891234567</exampleNumber>\n",
   str% "        <nationalNumberPattern>89\\d{7}</nationalNumberPattern>\n",
   str% "      </premiumRate>\n",
   str% "      <!-- Putting VSAT numbers here. -->\n",
   str% "      <voip>\n",
   str% "        <possibleLengths national=\"9\"/>\n",
   str% "        <exampleNumber>592401234</exampleNumber>\n",
   str% "        <nationalNumberPattern>\n",
   str% "          (?:\n",
   str% "            592(?:\n",
   str% "              4[0-2]|\n",
   str% "              93\n",
   str% "            )|\n",
   str% "            80[89]\\d\\d\n",
   str% "          )\\d{4}\n",
   str% "        </nationalNumberPattern>\n",
   str% "      </voip>\n",
   str% "    </territory>"]

/-- the text up to the end of territory id=MC countryCode=377 -/
noncomputable def MC : List Str :=
  [str% "\n",
   str% "\n",
   str% "    <!-- Monaco (MC) -->\n",
   str% "    <!-- We support Kosovo mobile numbers (044, 045) with a Monaco calling code here, while Kosovo\n",
   str% "         numbers all move over to the +383 plan. Kosovo numbers are still under several calling\n",
   str% "         codes. It also seems that the national prefix is only used for mobile numbers, not\n",
   str% "         fixed-line. -->\n",
   str% "    <!-- http://www.itu.int/oth/T020200008D/en -->\n",
   str% "    <territory id=\"MC\" countryCode=\"377\" internationalPrefix=\"00\" nationalPrefix=\"0\">\n",
   str% "      <availableFormats>\n",
   str% "        <!-- National only fixed line numbers -->\n",
   str% "        <numberFormat pattern=\"(\\d{3})(\\d{3})(\\d{2})\">\n",
   str% "          <leadingDigits>87</leadingDigits>\n",
   str% "          <format>$1 $2 $3</format>\n",
   str% "          <intlFormat>NA</intlFormat>\n",
   str% "        </numberFormat>\n",
   str% "        <!-- Alternate format for mobile ranges starting with 4.\n",
   str% "             4X mobile numbers are actually used by Kosovo, which might explain the format difference. -->\n",
   str% "        <numberFormat pattern=\"(\\d{2})(\\d{3})(\\d{3})\" nationalPrefixFormattingRule=\"$NP$FG\">\n",
   str% "          <leadingDigits>4</leadingDigits>\n",
   str% "          <format>$1 $2 $3</format>\n",
   str% "        </numberFormat>\n",
   str% "        <!-- Fixed line and some mobile ranges formatting.\n",
   str% "             This formatting was found online rather than in the ITU document example.\n",
   str% "             For the mobile prefix 3, we could not get authoritative information, so following\n",
   str% "             the behaviour of fixed-line numbers beginning with 9 for now. -->\n",
   str% "        <numberFormat pattern=\"(\\d{2})(\\d{2})(\\d{2})(\\d{2})\">\n",
   str% "          <leadingDigits>[389]</leadingDigits>\n",
   str% "          <format>$1 $2 $3 $4</format>\n",
   str% "        </numberFormat>\n",
   str% "        <!-- 9-digit mobile numbers. -->\n",
   str% "        <numberFormat pattern=\"(\\d)(\\d{2})(\\d{2})(\\d{2})(\\d{2})\"\n",
   str% "                      nationalPrefixFormattingRule=\"$NP$FG\">\n",
   str% "          <leadingDigits>[67]</leadingDigits>\n",
   str% "          <format>$1 $2 $3 $4 $5</format>\n",
   str% "        </numberFormat>\n",
   str% "      </availableFormats>\n",
   str% "      <generalDesc>\n",
   str% "        <nationalNumberPattern>\n",
   str% "          (?:\n",
   str% "            [3489]|\n",
   str% "            [67]\\d\n",
   str% "          )\\d{7}\n",
   str% "        </nationalNumberPattern>\n",
   str% "      </generalDesc>\n",
   str% "      <noInternationalDialling>\n",
   str% "        <possibleLengths national=\"8\"/>\n",
   str% "        <nationalNumberPattern>8[07]0\\d{5}</nationalNumberPattern>\n",
   str% "      </noInternationalDialling>\n",
   str% "      <!-- Restricted to this as no numbers with the prefix of 91, 95 or 96 have been found. -->\n",
   str% "      <fixedLine>\n",
   str% "        <possibleLengths national=\"8\"/>\n",
   str% "        <exampleNumber>99123456</exampleNumber>\n",
   str% "        <nationalNumberPattern>\n",
   str% "          (?:\n",
   str% "            870|\n",
   str% "            9[2-47-9]\\d\n",
   str% "          )\\d{5}\n",
   str% "        </nationalNumberPattern>\n",
   str% "      </fixedLine>\n",
   str% "      <!-- 4X mobile numbers are actually used by Kosovo, but it is supported here as it is mentioned\n",
   str% "           in the ITU doc. -->\n",
   str% "      <mobile>\n",
   str% "        <possibleLengths national=\"8,9\"/>\n",
   str% "        <exampleNumber>612345678</exampleNumber>\n",
   str% "        <nationalNumberPattern>\n",
   str% "          4(?:\n",
   str% "            [46]\\d|\n",
   str% "            5[1-9]\n",
   str% "          )\\d{5}|\n",
   str% "          (?:\n",
   str% "            3|\n",
   str% "            [67]\\d\n",
   str% "          )\\d{7}\n",
   str% "        </nationalNumberPattern>\n",
   str% "      </mobile>\n",
   str% "      <tollFree>\n",
   str% "        <possibleLengths national=\"8\"/>\n",
   str% "        <exampleNumber>90123456</exampleNumber>\n",
   str% "        <nationalNumberPattern>\n",
   str% "          (?:\n",
   str% "            800|\n",
   str% "            90\\d\n",
   str% "          )\\d{5}\n",
   str% "        </nationalNumberPattern>\n",
   str% "      </tollFree>\n",
   str% "    </territory>"]

/-- the text up to the end of territory id=MD countryCode=373 -/
noncomputable def MD : List Str :=
  [str% "\n",
   str% "\n",
   str% "    <!-- Moldova (MD) -->\n",
   str% "    <!-- As per the ITU doc, 1010 \u2013 1099 are carrier access codes in Moldova, but we are not sure\n",
   str% "         of their usage, such as whether they're used for national or international calls. -->\n",
   str% "    <!-- Announcements -->\n",
   str% "    <!-- Mobile ranges -->\n",
   str% "    <!-- http://www.itu.int/oth/T020200008C/en -->\n",
   str% "    <!-- http://anrceti.md/fileupload/58 -->\n",
   str% "    <!-- http://en.anrceti.md/resurse_numerotare_tel_mobila -->\n",
   str% "    <territory id=\"MD\" countryCode=\"373\" internationalPrefix=\"00\" nationalPrefix=\"0\"\n",
   str% "               mobileNumberPortableRegion=\"true\">\n",
   str% "      <availableFormats>\n",
   str% "        <numberFormat pattern=\"(\\d{3})(\\d{5})\" nationalPrefixFormattingRule=\"$NP$FG\">\n",
   str% "          <leadingDigits>[89]</leadingDigits>\n",
   str% "          <format>$1 $2</format>\n",
   str% "        </numberFormat>\n",
   str% "        <numberFormat pattern=\"(\\d{2})(\\d{3})(\\d{3})\" nationalPrefixFormattingRule=\"$NP$FG\">\n",
   str% "          <leadingDigits>\n",
   str% "            22|\n",
   str% "            3\n",
   str% "          </leadingDigits>\n",
   str% "          <format>$1 $2 $3</format>\n",
   str% "        </numberFormat>\n",
   str% "        <numberFormat pattern=\"(\\d{3})(\\d{2})(\\d{3})\" nationalPrefixFormattingRule=\"$NP$FG\">\n",
   str% "          <leadingDigits>[25-7]</leadingDigits>\n",
   str% "          <format>$1 $2 $3</format>\n",
   str% "        </numberFormat>\n",
   str% "      </availableFormats>\n",
   str% "      <generalDesc>\n",
   str% "        <nationalNumberPattern>\n",
   str% "          (?:\n",
   str% "            [235-7]\\d|\n",
   str% "            [89]0\n",
   str% "          )\\d{6}\n",
   str% "        </nationalNumberPattern>\n",
   str% "      </generalDesc>\n",
   str% "      <fixedLine>\n",
   str% "        <possibleLengths national=\"8\"/>\n",
   str% "        <exampleNumber>22212345</exampleNumber>\n",
   str% "        <nationalNumberPattern>\n",
   str% "          (?:\n",
   str% "            (?:\n",
   str% "              2[1-9]|\n",
   str% "              3[1-79]\n",
   str% "            )\\d|\n",
   str% "            5(?:\n",
   str% "              33|\n",
   str% "              5[257]\n",
   str% "            )\n",
   str% "          )\\d{5}\n",
   str% "        </nationalNumberPattern>\n",
   str% "      </fixedLine>\n",
   str% "      <!-- Includes prefixes for Interdnestrcom, http://www.idknet.com/. -->\n",
   str% "      <mobile>\n",
   str% "        <possibleLengths national=\"8\"/>\n",
   str% "        <exampleNumber>62112345</exampleNumber>\n",
   str% "        <nationalNumberPattern>\n",
   str% "          562\\d{5}|\n",
   str% "          (?:\n",
   str% "            6\\d|\n",
   str% "            7[16-9]\n",
   str% "          )\\d{6}\n",
   str% "        </nationalNumberPattern>\n",
   str% "      </mobile>\n",
   str% "      <tollFree>\n",
   str% "        <possibleLengths national=\"8\"/>\n",
   str% "        <exampleNumber>80012345</exampleNumber>\n",
   str% "        <nationalNumberPattern>800\\d{5}</nationalNumberPattern>\n",
   str% "      </tollFree>\n",
   str% "      <premiumRate>\n",
   str% "        <possibleLengths national=\"8\"/>\n",
   str% "        <exampleNumber>90012345</exampleNumber>\n",
   str% "        <nationalNumberPattern>90[056]\\d{5}</nationalNumberPattern>\n",
   str% "      </premiumRate>\n",
   str% "      <!-- Information came from en.anrceti.md/node/81 -->\n",
   str% "      <sharedCost>\n",
   str% "        <possibleLengths national=\"8\"/>\n",
   str% "        <exampleNumber>80812345</exampleNumber>\n",
   str% "        <nationalNumberPattern>808\\d{5}</nationalNumberPattern>\n",
   str% "      </sharedCost>\n",
   str% "      <!-- Used for \"nomadic numbers\". -->\n",
   str% "      <voip>\n",
   str% "        <possibleLengths national=\"8\"/>\n",
   str% "        <exampleNumber>30123456</exampleNumber>\n",
   str% "        <nationalNumberPattern>3[08]\\d{6}</nationalNumberPattern>\n",
   str% "      </voip>\n",
   str% "      <uan>\n",
   str% "        <possibleLengths national=\"8\"/>\n",
   str% "        <exampleNumber>80312345</exampleNumber>\n",
   str% "        <nationalNumberPattern>803\\d{5}</nationalNumberPattern>\n",
   str% "      </uan>\n",
   str% "    </territory>"]

/-- the text up to the end of territory id=ME countryCode=382 -/
noncomputable def ME : List Str :=
  [str% "\n",
   str% "\n",
   str% "    <!-- Montenegro (ME) -->\n",
   str% "    <!-- According to EKIP, the detailed phone number assignments are published on their\n",
   str% "         website (regulation:\n",
   str% "         http://www.ekip.me/download/Law%20on%20Electronic%20Communications%20(updated)%204.9.2013%20(1)nova%20verzija.pdf\n",
   str% "         ). Thus ITU updates always need to be combined with the information at the below ekip.me source URL. -->\n",
   str% "    <!-- http://www.itu.int/oth/T02020000DA/en -->\n",
   str% "    <!-- http://en.wikipedia.org/wiki/Telephone_numbers_in_Montenegro -->\n",
   str% "    <!-- http://www.ekip.me/numeracija/dodijeljena.php -->\n",
   str% "    <territory id=\"ME\" countryCode=\"382\" internationalPrefix=\"00\" nationalPrefix=\"0\">\n",
   str% "      <availableFormats>\n",
   str% "        <numberFormat pattern=\"(\\d{2})(\\d{3})(\\d{3,4})\" nationalPrefixFormattingRule=\"$NP$FG\">\n",
   str% "          <leadingDigits>[2-9]</leadingDigits>\n",
   str% "          <format>$1 $2 $3</format>\n",
   str% "        </numberFormat>\n",
   str% "      </availableFormats>\n",
   str% "      <generalDesc>\n",
   str% "        <nationalNumberPattern>\n",
   str% "          (?:\n",
   str% "            20|\n",
   str% "            [3-79]\\d\n",
   str% "          )\\d{6}|\n",
   str% "          80\\d{6,7}\n",
   str% "        </nationalNumberPattern>\n",
   str% "      </generalDesc>\n",
   str% "      <!-- Fixed line numbers have prefix 20,30,31,32,33,40,41,50,51,52 followed by 6 digits.\n",
   str% "           The valid options for the third digit were from\n",
   str% "           http://www.ekip.me/numeracija/dodijeljena.php -->\n",
   str% "      <fixedLine>\n",
   str% "        <possibleLengths national=\"8\" localOnly=\"6\"/>\n",
   str% "        <exampleNumber>30234567</exampleNumber>\n",
   str% "        <nationalNumberPattern>\n",
   str% "          (?:\n",
   str% "            20[2-8]|\n",
   str% "            3(?:\n",
   str% "              [0-2][2-7]|\n",
   str% "              3[24-7]\n",
   str% "            )|\n",
   str% "            4(?:\n",
   str% "              0[2-467]|\n",
   str% "              1[2467]\n",
   str% "            )|\n",
   str% "            5(?:\n",
   str% "              0[2467]|\n",
   str% "              1[24-7]|\n",
   str% "              2[2-467]\n",
   str% "            )\n",
   str% "          )\\d{5}\n",
   str% "        </nationalNumberPattern>\n",
   str% "      </fixedLine>\n",
   str% "      <!-- According to ITU it is possible for mobile numbers to be 4-12 digits long\n",
   str% "           (http://www.itu.int/oth/T02020000DA/en). However, in reality they seem to be 8 digits\n",
   str% "           long. In particular, http://www.ekip.me/numeracija/dodijeljena.php mentions 67[0-2]\n",
   str% "           numbers to be 9 digits long but this seems to be no longer the case, based on user\n",
   str% "           reports and online examples. -->\n",
   str% "      <mobile>\n",
   str% "        <possibleLengths national=\"8\"/>\n",
   str% "        <exampleNumber>60123456</exampleNumber>\n",
   str% "        <nationalNumberPattern>\n",
   str% "          6(?:\n",
   str% "            [07-9]\\d|\n",
   str% "            3[024]|\n",
   str% "            6[0-25]\n",
   str% "          )\\d{5}\n",
   str% "        </nationalNumberPattern>\n",
   str% "      </mobile>\n",
   str% "      <tollFree>\n",
   str% "        <possibleLengths national=\"8,9\"/>\n",
   str% "        <exampleNumber>80080002</exampleNumber>\n",
   str% "        <nationalNumberPattern>\n",
   str% "          80(?:\n",
   str% "            [0-2578]|\n",
   str% "            9\\d\n",
   str% "          )\\d{5}\n",
   str% "        </nationalNumberPattern>\n",
   str% "      </tollFree>\n",
   str% "      <!-- Numbers with prefix 94 or 95 are services with additional charges. -->\n",
   str% "      <premiumRate>\n",
   str% "        <possibleLengths national=\"8\"/>\n",
   str% "        <exampleNumber>94515151</exampleNumber>\n",
   str% "        <nationalNumberPattern>\n",
   str% "          9(?:\n",
   str% "            4[1568]|\n",
   str% "            5[178]\n",
   str% "          )\\d{5}\n",
   str% "        </nationalNumberPattern>\n",
   str% "      </premiumRate>\n",
   str% "      <voip>\n",
   str% "        <possibleLengths national=\"8\"/>\n",
   str% "        <exampleNumber>78108780</exampleNumber>\n",
   str% "        <nationalNumberPattern>78[1-49]\\d{5}</nationalNumberPattern>\n",
   str% "      </voip>\n",
   str% "      <uan>\n",
   str% "        <possibleLengths national=\"8\"/>\n",
   str% "        <exampleNumber>77273012</exampleNumber>\n",
   str% "        <nationalNumberPattern>77[1-9]\\d{5}</nationalNumberPattern>\n",
   str% "      </uan>\n",
   str% "    </territory>"]

/-- the text up to the end of territory id=MF countryCode=590 -/
noncomputable def MF : List Str :=
  [str% "\n",
   str% "\n",
   str% "    <!-- St. Martin (MF) -->\n",
   str% "    <!-- Calling code and formatting shared with 'GP' -->\n",
   str% "    <!-- Linked from http://www.arcep.fr/index.php?id=interactivenumeros -->\n",
   str% "    <!-- http://www.itu.int/oth/T0202000058/en -->\n",
   str% "    <!-- http://www.arcep.fr/fileadmin/reprise/dossiers/numero/ZABPQ-ZNE.xls -->\n",
   str% "    <!-- https://extranet.arcep.fr/portail/Op%C3%A9rateursCE/Num%C3%A9rotation.aspx -->\n",
   str% "    <territory id=\"MF\" countryCode=\"590\" internationalPrefix=\"00\" nationalPrefix=\"0\"\n",
   str% "               mobileNumberPortableRegion=\"true\">\n",
   str% "      <generalDesc>\n",
   str% "        <nationalNumberPattern>\n",
   str% "          7090\\d{5}|\n",
   str% "          (?:\n",
   str% "            [56]9|\n",
   str% "            [89]\\d\n",
   str% "          )\\d{7}\n",
   str% "        </nationalNumberPattern>\n",
   str% "      </generalDesc>\n",
   str% "      <fixedLine>\n",
   str% "        <possibleLengths national=\"9\"/>\n",
   str% "        <exampleNumber>590271234</exampleNumber>\n",
   str% "        <nationalNumberPattern>\n",
   str% "          (?:\n",
   str% "            59(?:\n",
   str% "              0(?:\n",
   str% "                0[079]|\n",
   str% "                [14]3|\n",
   str% "                [27][79]|\n",
   str% "                3[03-7]|\n",
   str% "                5[0-268]|\n",
   str% "                87\n",
   str% "              )|\n",
   str% "              87\\d\n",
   str% "            )|\n",
   str% "            80[6-9]\\d\\d\n",
   str% "          )\\d{4}\n",
   str% "        </nationalNumberPattern>\n",
   str% "      </fixedLine>\n",
   str% "      <!-- Any ranges assigned from\n",
   str% "           http://www.arcep.fr/index.php?id=interactivenumeros have been listed as belonging to\n",
   str% "           Guadeloupe, St Martin and St Barth\u00E9lemy, since we can't reliably distinguish between\n",
   str% "           them. As per Wikipedia Guadeloupe T\u00E9l\u00E9phone Mobile operator is no longer functioning.\n",
   str% "           However we support these ranges as they are still mentioned in ARCEP numbering plan\n",
   str% "           doc. -->\n",
   str% "      <mobile>\n",
   str% "        <possibleLengths national=\"9\"/>\n",
   str% "        <exampleNumber>690001234</exampleNumber>\n",
   str% "        <nationalNumberPattern>\n",
   str% "          (?:\n",
   str% "            69(?:\n",
   str% "              0\\d\\d|\n",
   str% "              1(?:\n",
   str% "                2[2-9]|\n",
   str% "                3[0-5]\n",
   str% "              )\n",
   str% "            )|\n",
   str% "            7090[0-4]\n",
   str% "          )\\d{4}\n",
   str% "        </nationalNumberPattern>\n",
   str% "      </mobile>\n",
   str% "      <!-- As per ARCEP, mainland France and overseas territories use 0800 to 0805 as Toll-free\n",
   str% "           numbers. -->\n",
   str% "      <tollFree>\n",
   str% "        <possibleLengths national=\"9\"/>\n",
   str% "        <exampleNumber>800012345</exampleNumber>\n",
   str% "        <nationalNumberPattern>80[0-5]\\d{6}</nationalNumberPattern>\n",
   str% "      </tollFree>\n",
   str% "      <premiumRate>\n",
   str% "        <possibleLengths national=\"9\"/>\n",
   str% "        <exampleNumber>810123456</exampleNumber>\n",
   str% "        <nationalNumberPattern>8[129]\\d{7}</nationalNumberPattern>\n",
   str% "      </premiumRate>\n",
   str% "      <voip>\n",
   str% "        <possibleLengths national=\"9\"/>\n",
   str% "        <exampleNumber>976012345</exampleNumber>\n",
   str% "        <nationalNumberPattern>\n",
   str% "          9(?:\n",
   str% "            (?:\n",
   str% "              39[5-7]|\n",
   str% "              76[018]\n",
   str% "            )\\d|\n",
   str% "            475[0-6]\n",
   str% "          )\\d{4}\n",
   str% "        </nationalNumberPattern>\n",
   str% "      </voip>\n",
   str% "    </territory>"]

/-- the text of this module -/
noncomputable def chunk09 : List (List Str) :=
  [KR, KW, KY, KZ, LA, LB, LC, LI, LK, LR, LS, LT, LU, LV, LY, MA, MC, MD, ME, MF]

end Phone.Data.S
