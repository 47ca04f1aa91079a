import Verif.Basic.Str
/-! Text of `/repo/assets/PhoneNumberMetadata.xml`, in lines. Generated by `tools/gen_xml.py`; do not edit. -/

set_option maxRecDepth 100000
namespace Phone.Data.S

/-- the text up to the end of territory id=AC countryCode=247 -/
noncomputable def AC : List Str :=
  [str% "\n",
   str% "    <!-- Ascension Island (AC) -->\n",
   str% "    <!-- http://www.itu.int/oth/T02020000AF/en -->\n",
   str% "    <territory id=\"AC\" countryCode=\"247\" internationalPrefix=\"00\">\n",
   str% "      <generalDesc>\n",
   str% "        <nationalNumberPattern>\n",
   str% "          (?:\n",
   str% "            [01589]\\d|\n",
   str% "            [46]\n",
   str% "          )\\d{4}\n",
   str% "        </nationalNumberPattern>\n",
   str% "      </generalDesc>\n",
   str% "      <fixedLine>\n",
   str% "        <possibleLengths national=\"5\"/>\n",
   str% "        <exampleNumber>62889</exampleNumber>\n",
   str% "        <nationalNumberPattern>6[2-467]\\d{3}</nationalNumberPattern>\n",
   str% "      </fixedLine>\n",
   str% "      <!-- Note prefix 4 is reserved for mobile use , not currently in use -->\n",
   str% "      <mobile>\n",
   str% "        <possibleLengths national=\"5\"/>\n",
   str% "        <exampleNumber>40123</exampleNumber>\n",
   str% "        <nationalNumberPattern>4\\d{4}</nationalNumberPattern>\n",
   str% "      </mobile>\n",
   str% "      <!-- Omit '00' as a prefix since that's the IDD prefix. -->\n",
   str% "      <uan>\n",
   str% "        <possibleLengths national=\"6\"/>\n",
   str% "        <exampleNumber>542011</exampleNumber>\n",
   str% "        <nationalNumberPattern>\n",
   str% "          (?:\n",
   str% "            0[1-9]|\n",
   str% "            [1589]\\d\n",
   str% "          )\\d{4}\n",
   str% "        </nationalNumberPattern>\n",
   str% "      </uan>\n",
   str% "    </territory>"]

/-- the text up to the end of territory id=AD countryCode=376 -/
noncomputable def AD : List Str :=
  [str% "\n",
   str% "\n",
   str% "    <!-- Andorra (AD) -->\n",
   str% "    <!-- http://www.itu.int/oth/T0202000005/en -->\n",
   str% "    <territory id=\"AD\" countryCode=\"376\" internationalPrefix=\"00\">\n",
   str% "      <availableFormats>\n",
   str% "        <numberFormat pattern=\"(\\d{3})(\\d{3})\">\n",
   str% "          <leadingDigits>[135-9]</leadingDigits>\n",
   str% "          <format>$1 $2</format>\n",
   str% "        </numberFormat>\n",
   str% "        <numberFormat pattern=\"(\\d{4})(\\d{4})\">\n",
   str% "          <leadingDigits>1</leadingDigits>\n",
   str% "          <format>$1 $2</format>\n",
   str% "        </numberFormat>\n",
   str% "        <numberFormat pattern=\"(\\d{3})(\\d{3})(\\d{3})\">\n",
   str% "          <leadingDigits>6</leadingDigits>\n",
   str% "          <format>$1 $2 $3</format>\n",
   str% "        </numberFormat>\n",
   str% "      </availableFormats>\n",
   str% "      <generalDesc>\n",
   str% "        <nationalNumberPattern>\n",
   str% "          (?:\n",
   str% "            1|\n",
   str% "            6\\d\n",
   str% "          )\\d{7}|\n",
   str% "          [135-9]\\d{5}\n",
   str% "        </nationalNumberPattern>\n",
   str% "      </generalDesc>\n",
   str% "      <noInternationalDialling>\n",
   str% "        <possibleLengths national=\"8\"/>\n",
   str% "        <nationalNumberPattern>1800\\d{4}</nationalNumberPattern>\n",
   str% "      </noInternationalDialling>\n",
   str% "      <fixedLine>\n",
   str% "        <possibleLengths national=\"6\"/>\n",
   str% "        <exampleNumber>712345</exampleNumber>\n",
   str% "        <nationalNumberPattern>[78]\\d{5}</nationalNumberPattern>\n",
   str% "      </fixedLine>\n",
   str% "      <mobile>\n",
   str% "        <possibleLengths national=\"6,9\"/>\n",
   str% "        <exampleNumber>312345</exampleNumber>\n",
   str% "        <nationalNumberPattern>\n",
   str% "          690\\d{6}|\n",
   str% "          [356]\\d{5}\n",
   str% "        </nationalNumberPattern>\n",
   str% "      </mobile>\n",
   str% "      <!-- Note that the definitions of 1800 and 1802 numbers differ in the plan and on the\n",
   str% "           Andorran http://www.sta.ad website, but we consider both to be freephone here. -->\n",
   str% "      <tollFree>\n",
   str% "        <possibleLengths national=\"8\"/>\n",
   str% "        <exampleNumber>18001234</exampleNumber>\n",
   str% "        <nationalNumberPattern>180[02]\\d{4}</nationalNumberPattern>\n",
   str% "      </tollFree>\n",
   str% "      <!-- The national numbering plan says that 6-digit numbers beginning with 1 and 9 are reserved\n",
   str% "           for special services, so we assume they are premium rate here, although we cannot find\n",
   str% "           examples online. -->\n",
   str% "      <premiumRate>\n",
   str% "        <possibleLengths national=\"6\"/>\n",
   str% "        <exampleNumber>912345</exampleNumber>\n",
   str% "        <nationalNumberPattern>[19]\\d{5}</nationalNumberPattern>\n",
   str% "      </premiumRate>\n",
   str% "    </territory>"]

/-- the text up to the end of territory id=AE countryCode=971 -/
noncomputable def AE : List Str :=
  [str% "\n",
   str% "\n",
   str% "    <!-- United Arab Emirates (AE) -->\n",
   str% "    <!-- http://www.itu.int/oth/T02020000DC/en -->\n",
   str% "    <territory id=\"AE\" countryCode=\"971\" internationalPrefix=\"00\" nationalPrefix=\"0\">\n",
   str% "      <availableFormats>\n",
   str% "        <numberFormat pattern=\"(\\d{3})(\\d{2,9})\">\n",
   str% "          <leadingDigits>\n",
   str% "            60|\n",
   str% "            8\n",
   str% "          </leadingDigits>\n",
   str% "          <format>$1 $2</format>\n",
   str% "        </numberFormat>\n",
   str% "        <numberFormat pattern=\"(\\d)(\\d{3})(\\d{4})\" nationalPrefixFormattingRule=\"$NP$FG\">\n",
   str% "          <leadingDigits>\n",
   str% "            [236]|\n",
   str% "            [479][2-8]\n",
   str% "          </leadingDigits>\n",
   str% "          <format>$1 $2 $3</format>\n",
   str% "        </numberFormat>\n",
   str% "        <numberFormat pattern=\"(\\d{3})(\\d)(\\d{5})\">\n",
   str% "          <leadingDigits>[479]</leadingDigits>\n",
   str% "          <format>$1 $2 $3</format>\n",
   str% "        </numberFormat>\n",
   str% "        <numberFormat pattern=\"(\\d{2})(\\d{3})(\\d{4})\" nationalPrefixFormattingRule=\"$NP$FG\">\n",
   str% "          <leadingDigits>5</leadingDigits>\n",
   str% "          <format>$1 $2 $3</format>\n",
   str% "        </numberFormat>\n",
   str% "      </availableFormats>\n",
   str% "      <generalDesc>\n",
   str% "        <nationalNumberPattern>\n",
   str% "          (?:\n",
   str% "            [4-7]\\d|\n",
   str% "            9[0-689]\n",
   str% "          )\\d{7}|\n",
   str% "          800\\d{2,9}|\n",
   str% "          [2-4679]\\d{7}\n",
   str% "        </nationalNumberPattern>\n",
   str% "      </generalDesc>\n",
   str% "      <fixedLine>\n",
   str% "        <possibleLengths national=\"8\" localOnly=\"7\"/>\n",
   str% "        <exampleNumber>22345678</exampleNumber>\n",
   str% "        <nationalNumberPattern>[2-4679][2-8]\\d{6}</nationalNumberPattern>\n",
   str% "      </fixedLine>\n",
   str% "      <!-- Prefixes 54 and 58 are mentioned on Wikipedia,\n",
   str% "           https://en.wikipedia.org/wiki/Telephone_numbers_in_the_United_Arab_Emirates. -->\n",
   str% "      <mobile>\n",
   str% "        <possibleLengths national=\"9\"/>\n",
   str% "        <exampleNumber>501234567</exampleNumber>\n",
   str% "        <nationalNumberPattern>5[02-68]\\d{7}</nationalNumberPattern>\n",
   str% "      </mobile>\n",
   str% "      <tollFree>\n",
   str% "        <possibleLengths national=\"[5-12]\"/>\n",
   str% "        <exampleNumber>800123456</exampleNumber>\n",
   str% "        <nationalNumberPattern>\n",
   str% "          400\\d{6}|\n",
   str% "          800\\d{2,9}\n",
   str% "        </nationalNumberPattern>\n",
   str% "      </tollFree>\n",
   str% "      <premiumRate>\n",
   str% "        <possibleLengths national=\"9\"/>\n",
   str% "        <exampleNumber>900234567</exampleNumber>\n",
   str% "        <nationalNumberPattern>900[02]\\d{5}</nationalNumberPattern>\n",
   str% "      </premiumRate>\n",
   str% "      <sharedCost>\n",
   str% "        <possibleLengths national=\"9\"/>\n",
   str% "        <exampleNumber>700012345</exampleNumber>\n",
   str% "        <nationalNumberPattern>700[05]\\d{5}</nationalNumberPattern>\n",
   str% "      </sharedCost>\n",
   str% "      <uan>\n",
   str% "        <possibleLengths national=\"9\"/>\n",
   str% "        <exampleNumber>600212345</exampleNumber>\n",
   str% "        <nationalNumberPattern>600[25]\\d{5}</nationalNumberPattern>\n",
   str% "      </uan>\n",
   str% "    </territory>"]

/-- the text up to the end of territory id=AF countryCode=93 -/
noncomputable def AF : List Str :=
  [str% "\n",
   str% "\n",
   str% "    <!-- Afghanistan (AF) -->\n",
   str% "    <!-- http://www.itu.int/oth/T0202000001/en -->\n",
   str% "    <territory id=\"AF\" countryCode=\"93\" internationalPrefix=\"00\" nationalPrefix=\"0\">\n",
   str% "      <availableFormats>\n",
   str% "        <numberFormat pattern=\"(\\d{3})(\\d{4})\">\n",
   str% "          <leadingDigits>[1-9]</leadingDigits>\n",
   str% "          <format>$1 $2</format>\n",
   str% "          <intlFormat>NA</intlFormat>\n",
   str% "        </numberFormat>\n",
   str% "        <!-- Formatting based primarily on ITU document. -->\n",
   str% "        <numberFormat pattern=\"(\\d{2})(\\d{3})(\\d{4})\" nationalPrefixFormattingRule=\"$NP$FG\">\n",
   str% "          <leadingDigits>[2-7]</leadingDigits>\n",
   str% "          <format>$1 $2 $3</format>\n",
   str% "        </numberFormat>\n",
   str% "      </availableFormats>\n",
   str% "      <generalDesc>\n",
   str% "        <nationalNumberPattern>[2-7]\\d{8}</nationalNumberPattern>\n",
   str% "      </generalDesc>\n",
   str% "      <fixedLine>\n",
   str% "        <possibleLengths national=\"9\" localOnly=\"7\"/>\n",
   str% "        <exampleNumber>234567890</exampleNumber>\n",
   str% "        <nationalNumberPattern>\n",
   str% "          (?:\n",
   str% "            [25][0-8]|\n",
   str% "            [34][0-4]|\n",
   str% "            6[0-5]\n",
   str% "          )[2-9]\\d{6}\n",
   str% "        </nationalNumberPattern>\n",
   str% "      </fixedLine>\n",
   str% "      <!-- 731 range is supported based on user report. -->\n",
   str% "      <mobile>\n",
   str% "        <possibleLengths national=\"9\" localOnly=\"7\"/>\n",
   str% "        <exampleNumber>701234567</exampleNumber>\n",
   str% "        <nationalNumberPattern>7\\d{8}</nationalNumberPattern>\n",
   str% "      </mobile>\n",
   str% "    </territory>"]

/-- the text up to the end of territory id=AG countryCode=1 -/
noncomputable def AG : List Str :=
  [str% "\n",
   str% "\n",
   str% "    <!-- Antigua & Barbuda (AG) -->\n",
   str% "    <!-- Calling code and formatting shared with 'US' -->\n",
   str% "    <!-- http://www.itu.int/oth/T0202000008/en -->\n",
   str% "    <territory id=\"AG\" countryCode=\"1\" leadingDigits=\"268\" internationalPrefix=\"011\"\n",
   str% "               nationalPrefix=\"1\" nationalPrefixForParsing=\"([457]\\d{6})$|1\"\n",
   str% "               nationalPrefixTransformRule=\"268$1\" mobileNumberPortableRegion=\"true\">\n",
   str% "      <generalDesc>\n",
   str% "        <nationalNumberPattern>\n",
   str% "          (?:\n",
   str% "            268|\n",
   str% "            [58]\\d\\d|\n",
   str% "            900\n",
   str% "          )\\d{7}\n",
   str% "        </nationalNumberPattern>\n",
   str% "      </generalDesc>\n",
   str% "      <!-- 268 468 is not in the plan, but has been added after numbers with this prefix have been\n",
   str% "           found in online searches. -->\n",
   str% "      <fixedLine>\n",
   str% "        <possibleLengths national=\"10\" localOnly=\"7\"/>\n",
   str% "        <exampleNumber>2684601234</exampleNumber>\n",
   str% "        <nationalNumberPattern>\n",
   str% "          268(?:\n",
   str% "            4(?:\n",
   str% "              6[0-38]|\n",
   str% "              84\n",
   str% "            )|\n",
   str% "            56[0-2]\n",
   str% "          )\\d{4}\n",
   str% "        </nationalNumberPattern>\n",
   str% "      </fixedLine>\n",
   str% "      <!-- 268 776/778/779 are not in the plan, but have been added after numbers with these\n",
   str% "           prefixes have been found in online searches. Same for 268 782/784/786/789. -->\n",
   str% "      <mobile>\n",
   str% "        <possibleLengths national=\"10\" localOnly=\"7\"/>\n",
   str% "        <exampleNumber>2684641234</exampleNumber>\n",
   str% "        <nationalNumberPattern>\n",
   str% "          268(?:\n",
   str% "            464|\n",
   str% "            7(?:\n",
   str% "              1[3-9]|\n",
   str% "              [28]\\d|\n",
   str% "              3[0246]|\n",
   str% "              64|\n",
   str% "              7[0-689]\n",
   str% "            )\n",
   str% "          )\\d{4}\n",
   str% "        </nationalNumberPattern>\n",
   str% "      </mobile>\n",
   str% "      <pager>\n",
   str% "        <possibleLengths national=\"10\" localOnly=\"7\"/>\n",
   str% "        <exampleNumber>2684061234</exampleNumber>\n",
   str% "        <nationalNumberPattern>26840[69]\\d{4}</nationalNumberPattern>\n",
   str% "      </pager>\n",
   str% "      <tollFree>\n",
   str% "        <possibleLengths national=\"10\"/>\n",
   str% "        <exampleNumber>8002123456</exampleNumber>\n",
   str% "        <nationalNumberPattern>\n",
   str% "          8(?:\n",
   str% "            00|\n",
   str% "            33|\n",
   str% "            44|\n",
   str% "            55|\n",
   str% "            66|\n",
   str% "            77|\n",
   str% "            88\n",
   str% "          )[2-9]\\d{6}\n",
   str% "        </nationalNumberPattern>\n",
   str% "      </tollFree>\n",
   str% "      <premiumRate>\n",
   str% "        <possibleLengths national=\"10\"/>\n",
   str% "        <exampleNumber>9002123456</exampleNumber>\n",
   str% "        <nationalNumberPattern>900[2-9]\\d{6}</nationalNumberPattern>\n",
   str% "      </premiumRate>\n",
   str% "      <!-- https://www.nationalnanpa.com/number_resource_info/5XX_codes.html -->\n",
   str% "      <personalNumber>\n",
   str% "        <possibleLengths national=\"10\"/>\n",
   str% "        <exampleNumber>5002345678</exampleNumber>\n",
   str% "        <nationalNumberPattern>\n",
   str% "          52(?:\n",
   str% "            3(?:\n",
   str% "              [2-46-9][02-9]\\d|\n",
   str% "              5(?:\n",
   str% "                [02-46-9]\\d|\n",
   str% "                5[0-46-9]\n",
   str% "              )\n",
   str% "            )|\n",
   str% "            4(?:\n",
   str% "              [2-478][02-9]\\d|\n",
   str% "              5(?:\n",
   str% "                [034]\\d|\n",
   str% "                2[024-9]|\n",
   str% "                5[0-46-9]\n",
   str% "              )|\n",
   str% "              6(?:\n",
   str% "                0[1-9]|\n",
   str% "                [2-9]\\d\n",
   str% "              )|\n",
   str% "              9(?:\n",
   str% "                [05-9]\\d|\n",
   str% "                2[0-5]|\n",
   str% "                49\n",
   str% "              )\n",
   str% "            )\n",
   str% "          )\\d{4}|\n",
   str% "          52[34][2-9]1[02-9]\\d{4}|\n",
   str% "          5(?:\n",
   str% "            00|\n",
   str% "            2[125-9]|\n",
   str% "            3[23]|\n",
   str% "            44|\n",
   str% "            66|\n",
   str% "            77|\n",
   str% "            88\n",
   str% "          )[2-9]\\d{6}\n",
   str% "        </nationalNumberPattern>\n",
   str% "      </personalNumber>\n",
   str% "      <!-- This is included as Centrex in the plan. -->\n",
   str% "      <voip>\n",
   str% "        <possibleLengths national=\"10\" localOnly=\"7\"/>\n",
   str% "        <exampleNumber>2684801234</exampleNumber>\n",
   str% "        <nationalNumberPattern>26848[01]\\d{4}</nationalNumberPattern>\n",
   str% "      </voip>\n",
   str% "    </territory>"]

/-- the text up to the end of territory id=AI countryCode=1 -/
noncomputable def AI : List Str :=
  [str% "\n",
   str% "\n",
   str% "    <!-- Anguilla (AI) -->\n",
   str% "    <!-- Calling code and formatting shared with 'US' -->\n",
   str% "    <!-- http://www.itu.int/oth/T0202000007/en -->\n",
   str% "    <territory id=\"AI\" countryCode=\"1\" leadingDigits=\"264\" internationalPrefix=\"011\"\n",
   str% "               nationalPrefix=\"1\" nationalPrefixForParsing=\"([2457]\\d{6})$|1\"\n",
   str% "               nationalPrefixTransformRule=\"264$1\" mobileNumberPortableRegion=\"true\">\n",
   str% "      <generalDesc>\n",
   str% "        <nationalNumberPattern>\n",
   str% "          (?:\n",
   str% "            264|\n",
   str% "            [58]\\d\\d|\n",
   str% "            900\n",
   str% "          )\\d{7}\n",
   str% "        </nationalNumberPattern>\n",
   str% "      </generalDesc>\n",
   str% "      <fixedLine>\n",
   str% "        <possibleLengths national=\"10\" localOnly=\"7\"/>\n",
   str% "        <exampleNumber>2644612345</exampleNumber>\n",
   str% "        <nationalNumberPattern>\n",
   str% "          264(?:\n",
   str% "            292|\n",
   str% "            4(?:\n",
   str% "              6[12]|\n",
   str% "              9[78]\n",
   str% "            )\n",
   str% "          )\\d{4}\n",
   str% "        </nationalNumberPattern>\n",
   str% "      </fixedLine>\n",
   str% "      <mobile>\n",
   str% "        <possibleLengths national=\"10\" localOnly=\"7\"/>\n",
   str% "        <exampleNumber>2642351234</exampleNumber>\n",
   str% "        <nationalNumberPattern>\n",
   str% "          264(?:\n",
   str% "            235|\n",
   str% "            4(?:\n",
   str% "              69|\n",
   str% "              7[67]\n",
   str% "            )|\n",
   str% "            5(?:\n",
   str% "              3[6-9]|\n",
   str% "              8[1-4]\n",
   str% "            )|\n",
   str% "            7(?:\n",
   str% "              29|\n",
   str% "              72\n",
   str% "            )\n",
   str% "          )\\d{4}\n",
   str% "        </nationalNumberPattern>\n",
   str% "      </mobile>\n",
   str% "      <pager>\n",
   str% "        <possibleLengths national=\"10\" localOnly=\"7\"/>\n",
   str% "        <exampleNumber>2647241234</exampleNumber>\n",
   str% "        <nationalNumberPattern>264724\\d{4}</nationalNumberPattern>\n",
   str% "      </pager>\n",
   str% "      <tollFree>\n",
   str% "        <possibleLengths national=\"10\"/>\n",
   str% "        <exampleNumber>8002123456</exampleNumber>\n",
   str% "        <nationalNumberPattern>\n",
   str% "          8(?:\n",
   str% "            00|\n",
   str% "            33|\n",
   str% "            44|\n",
   str% "            55|\n",
   str% "            66|\n",
   str% "            77|\n",
   str% "            88\n",
   str% "          )[2-9]\\d{6}\n",
   str% "        </nationalNumberPattern>\n",
   str% "      </tollFree>\n",
   str% "      <premiumRate>\n",
   str% "        <possibleLengths national=\"10\"/>\n",
   str% "        <exampleNumber>9002123456</exampleNumber>\n",
   str% "        <nationalNumberPattern>900[2-9]\\d{6}</nationalNumberPattern>\n",
   str% "      </premiumRate>\n",
   str% "      <!-- https://www.nationalnanpa.com/number_resource_info/5XX_codes.html -->\n",
   str% "      <personalNumber>\n",
   str% "        <possibleLengths national=\"10\"/>\n",
   str% "        <exampleNumber>5002345678</exampleNumber>\n",
   str% "        <nationalNumberPattern>\n",
   str% "          52(?:\n",
   str% "            3(?:\n",
   str% "              [2-46-9][02-9]\\d|\n",
   str% "              5(?:\n",
   str% "                [02-46-9]\\d|\n",
   str% "                5[0-46-9]\n",
   str% "              )\n",
   str% "            )|\n",
   str% "            4(?:\n",
   str% "              [2-478][02-9]\\d|\n",
   str% "              5(?:\n",
   str% "                [034]\\d|\n",
   str% "                2[024-9]|\n",
   str% "                5[0-46-9]\n",
   str% "              )|\n",
   str% "              6(?:\n",
   str% "                0[1-9]|\n",
   str% "                [2-9]\\d\n",
   str% "              )|\n",
   str% "              9(?:\n",
   str% "                [05-9]\\d|\n",
   str% "                2[0-5]|\n",
   str% "                49\n",
   str% "              )\n",
   str% "            )\n",
   str% "          )\\d{4}|\n",
   str% "          52[34][2-9]1[02-9]\\d{4}|\n",
   str% "          5(?:\n",
   str% "            00|\n",
   str% "            2[125-9]|\n",
   str% "            3[23]|\n",
   str% "            44|\n",
   str% "            66|\n",
   str% "            77|\n",
   str% "            88\n",
   str% "          )[2-9]\\d{6}\n",
   str% "        </nationalNumberPattern>\n",
   str% "      </personalNumber>\n",
   str% "    </territory>"]

/-- the text up to the end of territory id=AL countryCode=355 -/
noncomputable def AL : List Str :=
  [str% "\n",
   str% "\n",
   str% "    <!-- Albania (AL) -->\n",
   str% "    <!-- http://www.itu.int/oth/T0202000002/en -->\n",
   str% "    <territory id=\"AL\" countryCode=\"355\" internationalPrefix=\"00\" nationalPrefix=\"0\"\n",
   str% "               mobileNumberPortableRegion=\"true\">\n",
   str% "      <availableFormats>\n",
   str% "        <!-- Premium rate or toll free formats -->\n",
   str% "        <numberFormat pattern=\"(\\d{3})(\\d{3,4})\" nationalPrefixFormattingRule=\"$NP$FG\">\n",
   str% "          <leadingDigits>\n",
   str% "            80|\n",
   str% "            9\n",
   str% "          </leadingDigits>\n",
   str% "          <format>$1 $2</format>\n",
   str% "        </numberFormat>\n",
   str% "        <!-- Formats mostly follow http://tirana.usembassy.gov/list_of_doctors.html -->\n",
   str% "        <numberFormat pattern=\"(\\d)(\\d{3})(\\d{4})\" nationalPrefixFormattingRule=\"$NP$FG\">\n",
   str% "          <leadingDigits>4[2-6]</leadingDigits>\n",
   str% "          <format>$1 $2 $3</format>\n",
   str% "        </numberFormat>\n",
   str% "        <numberFormat pattern=\"(\\d{2})(\\d{3})(\\d{3})\" nationalPrefixFormattingRule=\"$NP$FG\">\n",
   str% "          <leadingDigits>\n",
   str% "            [2358][2-5]|\n",
   str% "            4\n",
   str% "          </leadingDigits>\n",
   str% "          <format>$1 $2 $3</format>\n",
   str% "        </numberFormat>\n",
   str% "        <numberFormat pattern=\"(\\d{3})(\\d{5})\" nationalPrefixFormattingRule=\"$NP$FG\">\n",
   str% "          <leadingDigits>[23578]</leadingDigits>\n",
   str% "          <format>$1 $2</format>\n",
   str% "        </numberFormat>\n",
   str% "        <numberFormat pattern=\"(\\d{2})(\\d{3})(\\d{4})\" nationalPrefixFormattingRule=\"$NP$FG\">\n",
   str% "          <leadingDigits>6</leadingDigits>\n",
   str% "          <format>$1 $2 $3</format>\n",
   str% "        </numberFormat>\n",
   str% "      </availableFormats>\n",
   str% "      <generalDesc>\n",
   str% "        <nationalNumberPattern>\n",
   str% "          (?:\n",
   str% "            700\\d\\d|\n",
   str% "            900\n",
   str% "          )\\d{3}|\n",
   str% "          8\\d{5,7}|\n",
   str% "          (?:\n",
   str% "            [2-5]|\n",
   str% "            6\\d\n",
   str% "          )\\d{7}\n",
   str% "        </nationalNumberPattern>\n",
   str% "      </generalDesc>\n",
   str% "      <fixedLine>\n",
   str% "        <possibleLengths national=\"8\" localOnly=\"[5-7]\"/>\n",
   str% "        <exampleNumber>22345678</exampleNumber>\n",
   str% "        <nationalNumberPattern>\n",
   str% "          4505[0-2]\\d{3}|\n",
   str% "          (?:\n",
   str% "            [2358][16-9]\\d[2-9]|\n",
   str% "            4410\n",
   str% "          )\\d{4}|\n",
   str% "          (?:\n",
   str% "            [2358][2-5][2-9]|\n",
   str% "            4(?:\n",
   str% "              [2-57-9][2-9]|\n",
   str% "              6\\d\n",
   str% "            )\n",
   str% "          )\\d{5}\n",
   str% "        </nationalNumberPattern>\n",
   str% "      </fixedLine>\n",
   str% "      <!-- More specific prefixes from the 1.NumraAlokuar.rar file linked from the ITU doc.\n",
   str% "           Though 677 is mentioned as unallocated in\n",
   str% "           http://akep.al/images/stories/AKEP/plani-numracionit/1.NumraAlokuar.rar,\n",
   str% "           adding support for 67[7-9] based on carrier doc. -->\n",
   str% "      <mobile>\n",
   str% "        <possibleLengths national=\"9\"/>\n",
   str% "        <exampleNumber>672123456</exampleNumber>\n",
   str% "        <nationalNumberPattern>\n",
   str% "          6(?:\n",
   str% "            [78][2-9]|\n",
   str% "            9\\d\n",
   str% "          )\\d{6}\n",
   str% "        </nationalNumberPattern>\n",
   str% "      </mobile>\n",
   str% "      <tollFree>\n",
   str% "        <possibleLengths national=\"7\"/>\n",
   str% "        <exampleNumber>8001234</exampleNumber>\n",
   str% "        <nationalNumberPattern>800\\d{4}</nationalNumberPattern>\n",
   str% "      </tollFree>\n",
   str% "      <!-- It is named \"Shared Revenue Services\" in the plan, but as there is a separate \"Shared\n",
   str% "           Cost Services\", it is highly likely these numbers are premium rate numbers. No\n",
   str% "           information/example is found in the Internet. -->\n",
   str% "      <premiumRate>\n",
   str% "        <possibleLengths national=\"6\"/>\n",
   str% "        <exampleNumber>900123</exampleNumber>\n",
   str% "        <nationalNumberPattern>900[1-9]\\d\\d</nationalNumberPattern>\n",
   str% "      </premiumRate>\n",
   str% "      <sharedCost>\n",
   str% "        <possibleLengths national=\"6\"/>\n",
   str% "        <exampleNumber>808123</exampleNumber>\n",
   str% "        <nationalNumberPattern>808[1-9]\\d\\d</nationalNumberPattern>\n",
   str% "      </sharedCost>\n",
   str% "      <personalNumber>\n",
   str% "        <possibleLengths national=\"8\"/>\n",
   str% "        <exampleNumber>70021234</exampleNumber>\n",
   str% "        <nationalNumberPattern>700[2-9]\\d{4}</nationalNumberPattern>\n",
   str% "      </personalNumber>\n",
   str% "    </territory>"]

/-- the text up to the end of territory id=AM countryCode=374 -/
noncomputable def AM : List Str :=
  [str% "\n",
   str% "\n",
   str% "    <!-- Armenia (AM) -->\n",
   str% "    <!-- We think the national dialling prefix is 0 - it seems this was a change in 2005 (or 2008)\n",
   str% "         along with the new city codes. However, their official document makes no mention of it,\n",
   str% "         websites disagree, and we are not sure if the change has actually been made. -->\n",
   str% "    <!-- http://www.itu.int/oth/T020200000A/en -->\n",
   str% "    <!-- http://en.wikipedia.org/wiki/%2B374 -->\n",
   str% "    <!-- http://en.wikipedia.org/wiki/Telephone_numbers_in_Nagorno-Karabakh_Republic -->\n",
   str% "    <territory id=\"AM\" countryCode=\"374\" internationalPrefix=\"00\" nationalPrefix=\"0\"\n",
   str% "               mobileNumberPortableRegion=\"true\">\n",
   str% "      <availableFormats>\n",
   str% "        <numberFormat pattern=\"(\\d{3})(\\d{2})(\\d{3})\" nationalPrefixFormattingRule=\"$NP $FG\">\n",
   str% "          <leadingDigits>[89]0</leadingDigits>\n",
   str% "          <format>$1 $2 $3</format>\n",
   str% "        </numberFormat>\n",
   str% "        <numberFormat pattern=\"(\\d{3})(\\d{5})\" nationalPrefixFormattingRule=\"($NP$FG)\">\n",
   str% "          <leadingDigits>\n",
   str% "            2|\n",
   str% "            3[12]\n",
   str% "          </leadingDigits>\n",
   str% "          <format>$1 $2</format>\n",
   str% "        </numberFormat>\n",
   str% "        <numberFormat pattern=\"(\\d{2})(\\d{6})\" nationalPrefixFormattingRule=\"($NP$FG)\">\n",
   str% "          <leadingDigits>\n",
   str% "            1|\n",
   str% "            47\n",
   str% "          </leadingDigits>\n",
   str% "          <format>$1 $2</format>\n",
   str% "        </numberFormat>\n",
   str% "        <numberFormat pattern=\"(\\d{2})(\\d{6})\" nationalPrefixFormattingRule=\"$NP$FG\">\n",
   str% "          <leadingDigits>[3-9]</leadingDigits>\n",
   str% "          <format>$1 $2</format>\n",
   str% "        </numberFormat>\n",
   str% "      </availableFormats>\n",
   str% "      <generalDesc>\n",
   str% "        <nationalNumberPattern>\n",
   str% "          (?:\n",
   str% "            [1-489]\\d|\n",
   str% "            55|\n",
   str% "            60|\n",
   str% "            77\n",
   str% "          )\\d{6}\n",
   str% "        </nationalNumberPattern>\n",
   str% "      </generalDesc>\n",
   str% "      <!-- Includes telephone numbers in Nagorno-Karabakh Republic, physically located inside\n",
   str% "           Azerbaijan, which use prefix 47. -->\n",
   str% "      <fixedLine>\n",
   str% "        <possibleLengths national=\"8\" localOnly=\"5,6\"/>\n",
   str% "        <exampleNumber>10123456</exampleNumber>\n",
   str% "        <nationalNumberPattern>\n",
   str% "          (?:\n",
   str% "            (?:\n",
   str% "              1[0-25]|\n",
   str% "              47\n",
   str% "            )\\d|\n",
   str% "            2(?:\n",
   str% "              2[2-46]|\n",
   str% "              3[1-8]|\n",
   str% "              4[2-69]|\n",
   str% "              5[2-7]|\n",
   str% "              6[1-9]|\n",
   str% "              8[1-7]\n",
   str% "            )|\n",
   str% "            3[12]2\n",
   str% "          )\\d{5}\n",
   str% "        </nationalNumberPattern>\n",
   str% "      </fixedLine>\n",
   str% "      <!-- Part of the range 97 is used by Nagorno-Karabakh Republic. -->\n",
   str% "      <mobile>\n",
   str% "        <possibleLengths national=\"8\"/>\n",
   str% "        <exampleNumber>77123456</exampleNumber>\n",
   str% "        <nationalNumberPattern>\n",
   str% "          (?:\n",
   str% "            33|\n",
   str% "            4[1349]|\n",
   str% "            55|\n",
   str% "            77|\n",
   str% "            88|\n",
   str% "            9[13-9]\n",
   str% "          )\\d{6}\n",
   str% "        </nationalNumberPattern>\n",
   str% "      </mobile>\n",
   str% "      <tollFree>\n",
   str% "        <possibleLengths national=\"8\"/>\n",
   str% "        <exampleNumber>80012345</exampleNumber>\n",
   str% "        <nationalNumberPattern>800\\d{5}</nationalNumberPattern>\n",
   str% "      </tollFree>\n",
   str% "      <premiumRate>\n",
   str% "        <possibleLengths national=\"8\"/>\n",
   str% "        <exampleNumber>90012345</exampleNumber>\n",
   str% "        <nationalNumberPattern>90[016]\\d{5}</nationalNumberPattern>\n",
   str% "      </premiumRate>\n",
   str% "      <sharedCost>\n",
   str% "        <possibleLengths national=\"8\"/>\n",
   str% "        <exampleNumber>80112345</exampleNumber>\n",
   str% "        <nationalNumberPattern>80[1-4]\\d{5}</nationalNumberPattern>\n",
   str% "      </sharedCost>\n",
   str% "      <voip>\n",
   str% "        <possibleLengths national=\"8\"/>\n",
   str% "        <exampleNumber>60271234</exampleNumber>\n",
   str% "        <nationalNumberPattern>\n",
   str% "          60(?:\n",
   str% "            2[78]|\n",
   str% "            3[5-9]|\n",
   str% "            4[02-9]|\n",
   str% "            5[0-46-9]|\n",
   str% "            [6-8]\\d|\n",
   str% "            9[0-2]\n",
   str% "          )\\d{4}\n",
   str% "        </nationalNumberPattern>\n",
   str% "      </voip>\n",
   str% "    </territory>"]

/-- the text up to the end of territory id=AO countryCode=244 -/
noncomputable def AO : List Str :=
  [str% "\n",
   str% "\n",
   str% "    <!-- Angola (AO) -->\n",
   str% "    <!-- http://www.itu.int/oth/T0202000006/en -->\n",
   str% "    <territory id=\"AO\" countryCode=\"244\" internationalPrefix=\"00\">\n",
   str% "      <availableFormats>\n",
   str% "        <numberFormat pattern=\"(\\d{3})(\\d{3})(\\d{3})\">\n",
   str% "          <leadingDigits>[29]</leadingDigits>\n",
   str% "          <format>$1 $2 $3</format>\n",
   str% "        </numberFormat>\n",
   str% "      </availableFormats>\n",
   str% "      <generalDesc>\n",
   str% "        <nationalNumberPattern>[29]\\d{8}</nationalNumberPattern>\n",
   str% "      </generalDesc>\n",
   str% "      <!-- Supporting 2Y5 and 2YY5 ranges (where Y and YY represent one and two digit area code)\n",
   str% "           based on user report and format followed in ITU doc. Wikipedia also mentions that\n",
   str% "           \"Fixed-line numbers start with digit 2, followed by 1 or 2 digits area code. After the\n",
   str% "           area code, there is one digit telecoms operator code. So now we are adding 5 as telecom\n",
   str% "           operator code now.\" -->\n",
   str% "      <fixedLine>\n",
   str% "        <possibleLengths national=\"9\"/>\n",
   str% "        <exampleNumber>222123456</exampleNumber>\n",
   str% "        <nationalNumberPattern>\n",
   str% "          2\\d(?:\n",
   str% "            [0134][25-9]|\n",
   str% "            [25-9]\\d\n",
   str% "          )\\d{5}\n",
   str% "        </nationalNumberPattern>\n",
   str% "      </fixedLine>\n",
   str% "      <!-- Expanded the 92 prefix possibilities to match numbers found online. Unitel\n",
   str% "           apparently launched the prefix 94 on 25th April 2012, and Movicel has 99. -->\n",
   str% "      <mobile>\n",
   str% "        <possibleLengths national=\"9\"/>\n",
   str% "        <exampleNumber>923123456</exampleNumber>\n",
   str% "        <nationalNumberPattern>9[1-79]\\d{7}</nationalNumberPattern>\n",
   str% "      </mobile>\n",
   str% "    </territory>"]

/-- the text up to the end of territory id=AR countryCode=54 -/
noncomputable def AR : List Str :=
  [str% "\n",
   str% "\n",
   str% "    <!-- Argentina (AR) -->\n",
   str% "    <!-- The national prefix for parsing here consists of a 0 (optional), followed by the area code\n",
   str% "         (which is captured, so that it can be retained), followed by 15, which is the mobile token,\n",
   str% "         which will be stripped if present. We expect the following combinations: 0AC15 and AC15\n",
   str% "         (where the 0 and 15 will be stripped, and it will be transformed into 9AC), 0, and 15 (in\n",
   str% "         the latter two cases we just strip the 0 or 15 as appropriate and leave the number as is.) -->\n",
   str% "    <!-- http://www.itu.int/oth/T0202000009/en -->\n",
   str% "    <!-- https://www.enacom.gob.ar/indicativos-de-servicio_p141 -->\n",
   str% "    <!-- https://www.enacom.gob.ar/indicativos-interurbanos_p143 -->\n",
   str% "    <!-- http://en.wikipedia.org/wiki/+54 -->\n",
   str% "    <territory id=\"AR\" countryCode=\"54\" internationalPrefix=\"00\" nationalPrefix=\"0\"\n",
   str% "               nationalPrefixForParsing=\"\n",
   str% "                 0?(?:\n",
   str% "                   (\n",
   str% "                     11|\n",
   str% "                     2(?:\n",
   str% "                       2(?:\n",
   str% "                         02?|\n",
   str% "                         [13]|\n",
   str% "                         2[13-79]|\n",
   str% "                         4[1-6]|\n",
   str% "                         5[2457]|\n",
   str% "                         6[124-8]|\n",
   str% "                         7[1-4]|\n",
   str% "                         8[13-6]|\n",
   str% "                         9[1267]\n",
   str% "                       )|\n",
   str% "                       3(?:\n",
   str% "                         02?|\n",
   str% "                         1[467]|\n",
   str% "                         2[03-6]|\n",
   str% "                         3[13-8]|\n",
   str% "                         [49][2-6]|\n",
   str% "                         5[2-8]|\n",
   str% "                         [67]\n",
   str% "                       )|\n",
   str% "                       4(?:\n",
   str% "                         7[3-578]|\n",
   str% "                         9\n",
   str% "                       )|\n",
   str% "                       6(?:\n",
   str% "                         [0136]|\n",
   str% "                         2[24-6]|\n",
   str% "                         4[6-8]?|\n",
   str% "                         5[15-8]\n",
   str% "                       )|\n",
   str% "                       80|\n",
   str% "                       9(?:\n",
   str% "                         0[1-3]|\n",
   str% "                         [19]|\n",
   str% "                         2\\d|\n",
   str% "                         3[1-6]|\n",
   str% "                         4[02568]?|\n",
   str% "                         5[2-4]|\n",
   str% "                         6[2-46]|\n",
   str% "                         72?|\n",
   str% "                         8[23]?\n",
   str% "                       )\n",
   str% "                     )|\n",
   str% "                     3(?:\n",
   str% "                       3(?:\n",
   str% "                         2[79]|\n",
   str% "                         6|\n",
   str% "                         8[2578]\n",
   str% "                       )|\n",
   str% "                       4(?:\n",
   str% "                         0[0-24-9]|\n",
   str% "                         [12]|\n",
   str% "                         3[5-8]?|\n",
   str% "                         4[24-7]|\n",
   str% "                         5[4-68]?|\n",
   str% "                         6[02-9]|\n",
   str% "                         7[126]|\n",
   str% "                         8[2379]?|\n",
   str% "                         9[1-36-8]\n",
   str% "                       )|\n",
   str% "                       5(?:\n",
   str% "                         1|\n",
   str% "                         2[1245]|\n",
   str% "                         3[237]?|\n",
   str% "                         4[1-46-9]|\n",
   str% "                         6[2-4]|\n",
   str% "                         7[1-6]|\n",
   str% "                         8[2-5]?\n",
   str% "                       )|\n",
   str% "                       6[24]|\n",
   str% "                       7(?:\n",
   str% "                         [069]|\n",
   str% "                         1[1568]|\n",
   str% "                         2[15]|\n",
   str% "                         3[145]|\n",
   str% "                         4[13]|\n",
   str% "                         5[14-8]|\n",
   str% "                         7[2-57]|\n",
   str% "                         8[126]\n",
   str% "                       )|\n",
   str% "                       8(?:\n",
   str% "                         [01]|\n",
   str% "                         2[15-7]|\n",
   str% "                         3[2578]?|\n",
   str% "                         4[13-6]|\n",
   str% "                         5[4-8]?|\n",
   str% "                         6[1-357-9]|\n",
   str% "                         7[36-8]?|\n",
   str% "                         8[5-8]?|\n",
   str% "                         9[124]\n",
   str% "                       )\n",
   str% "                     )\n",
   str% "                   )15\n",
   str% "                 )?\"\n",
   str% "               nationalPrefixTransformRule=\"9$1\" mobileNumberPortableRegion=\"true\">\n",
   str% "      <availableFormats>\n",
   str% "        <!-- Format short numbers as a block. -->\n",
   str% "        <numberFormat pattern=\"(\\d{3})\">\n",
   str% "          <leadingDigits>\n",
   str% "            0|\n",
   str% "            1(?:\n",
   str% "              0[0-35-7]|\n",
   str% "              1[02-5]|\n",
   str% "              2[015]|\n",
   str% "              3[47]|\n",
   str% "              4[478]\n",
   str% "            )|\n",
   str% "            911\n",
   str% "          </leadingDigits>\n",
   str% "          <format>$1</format>\n",
   str% "          <intlFormat>NA</intlFormat>\n",
   str% "        </numberFormat>\n",
   str% "        <numberFormat pattern=\"(\\d{2})(\\d{4})\">\n",
   str% "          <leadingDigits>[1-9]</leadingDigits>\n",
   str% "          <format>$1-$2</format>\n",
   str% "          <intlFormat>NA</intlFormat>\n",
   str% "        </numberFormat>\n",
   str% "        <numberFormat pattern=\"(\\d{3})(\\d{4})\">\n",
   str% "          <leadingDigits>[2-9]</leadingDigits>\n",
   str% "          <format>$1-$2</format>\n",
   str% "          <intlFormat>NA</intlFormat>\n",
   str% "        </numberFormat>\n",
   str% "        <numberFormat pattern=\"(\\d{4})(\\d{4})\">\n",
   str% "          <leadingDigits>[1-8]</leadingDigits>\n",
   str% "          <format>$1-$2</format>\n",
   str% "          <intlFormat>NA</intlFormat>\n",
   str% "        </numberFormat>\n",
   str% "        <numberFormat pattern=\"(\\d{4})(\\d{2})(\\d{4})\" nationalPrefixFormattingRule=\"$NP$FG\"\n",
   str% "                      nationalPrefixOptionalWhenFormatting=\"true\">\n",
   str% "          <leadingDigits>\n",
   str% "            2(?:\n",
   str% "              2[024-9]|\n",
   str% "              3[0-59]|\n",
   str% "              47|\n",
   str% "              6[245]|\n",
   str% "              9[02-8]\n",
   str% "            )|\n",
   str% "            3(?:\n",
   str% "              3[28]|\n",
   str% "              4[03-9]|\n",
   str% "              5[2-46-8]|\n",
   str% "              7[1-578]|\n",
   str% "              8[2-9]\n",
   str% "            )\n",
   str% "          </leadingDigits>\n",
   str% "          <leadingDigits>\n",
   str% "            2(?:\n",
   str% "              [23]02|\n",
   str% "              6(?:\n",
   str% "                [25]|\n",
   str% "                4[6-8]\n",
   str% "              )|\n",
   str% "              9(?:\n",
   str% "                [02356]|\n",
   str% "                4[02568]|\n",
   str% "                72|\n",
   str% "                8[23]\n",
   str% "              )\n",
   str% "            )|\n",
   str% "            3(?:\n",
   str% "              3[28]|\n",
   str% "              4(?:\n",
   str% "                [04679]|\n",
   str% "                3[5-8]|\n",
   str% "                5[4-68]|\n",
   str% "                8[2379]\n",
   str% "              )|\n",
   str% "              5(?:\n",
   str% "                [2467]|\n",
   str% "                3[237]|\n",
   str% "                8[2-5]\n",
   str% "              )|\n",
   str% "              7[1-578]|\n",
   str% "              8(?:\n",
   str% "                [2469]|\n",
   str% "                3[2578]|\n",
   str% "                5[4-8]|\n",
   str% "                7[36-8]|\n",
   str% "                8[5-8]\n",
   str% "              )\n",
   str% "            )|\n",
   str% "            2(?:\n",
   str% "              2[24-9]|\n",
   str% "              3[1-59]|\n",
   str% "              47\n",
   str% "            )\n",
   str% "          </leadingDigits>\n",
   str% "          <leadingDigits>\n",
   str% "            2(?:\n",
   str% "              [23]02|\n",
   str% "              6(?:\n",
   str% "                [25]|\n",
   str% "                4(?:\n",
   str% "                  64|\n",
   str% "                  [78]\n",
   str% "                )\n",
   str% "              )|\n",
   str% "              9(?:\n",
   str% "                [02356]|\n",
   str% "                4(?:\n",
   str% "                  [0268]|\n",
   str% "                  5[2-6]\n",
   str% "                )|\n",
   str% "                72|\n",
   str% "                8[23]\n",
   str% "              )\n",
   str% "            )|\n",
   str% "            3(?:\n",
   str% "              3[28]|\n",
   str% "              4(?:\n",
   str% "                [04679]|\n",
   str% "                3[78]|\n",
   str% "                5(?:\n",
   str% "                  4[46]|\n",
   str% "                  8\n",
   str% "                )|\n",
   str% "                8[2379]\n",
   str% "              )|\n",
   str% "              5(?:\n",
   str% "                [2467]|\n",
   str% "                3[237]|\n",
   str% "                8[23]\n",
   str% "              )|\n",
   str% "              7[1-578]|\n",
   str% "              8(?:\n",
   str% "                [2469]|\n",
   str% "                3[278]|\n",
   str% "                5[56][46]|\n",
   str% "                86[3-6]\n",
   str% "              )\n",
   str% "            )|\n",
   str% "            2(?:\n",
   str% "              2[24-9]|\n",
   str% "              3[1-59]|\n",
   str% "              47\n",
   str% "            )|\n",
   str% "            38(?:\n",
   str% "              [58][78]|\n",
   str% "              7[378]\n",
   str% "            )|\n",
   str% "            3(?:\n",
   str% "              4[35][56]|\n",
   str% "              58[45]|\n",
   str% "              8(?:\n",
   str% "                [38]5|\n",
   str% "                54|\n",
   str% "                76\n",
   str% "              )\n",
   str% "            )[4-6]\n",
   str% "          </leadingDigits>\n",
   str% "          <leadingDigits>\n",
   str% "            2(?:\n",
   str% "              [23]02|\n",
   str% "              6(?:\n",
   str% "                [25]|\n",
   str% "                4(?:\n",
   str% "                  64|\n",
   str% "                  [78]\n",
   str% "                )\n",
   str% "              )|\n",
   str% "              9(?:\n",
   str% "                [02356]|\n",
   str% "                4(?:\n",
   str% "                  [0268]|\n",
   str% "                  5[2-6]\n",
   str% "                )|\n",
   str% "                72|\n",
   str% "                8[23]\n",
   str% "              )\n",
   str% "            )|\n",
   str% "            3(?:\n",
   str% "              3[28]|\n",
   str% "              4(?:\n",
   str% "                [04679]|\n",
   str% "                3(?:\n",
   str% "                  5(?:\n",
   str% "                    4[0-25689]|\n",
   str% "                    [56]\n",
   str% "                  )|\n",
   str% "                  [78]\n",
   str% "                )|\n",
   str% "                58|\n",
   str% "                8[2379]\n",
   str% "              )|\n",
   str% "              5(?:\n",
   str% "                [2467]|\n",
   str% "                3[237]|\n",
   str% "                8(?:\n",
   str% "                  [23]|\n",
   str% "                  4(?:\n",
   str% "                    [45]|\n",
   str% "                    60\n",
   str% "                  )|\n",
   str% "                  5(?:\n",
   str% "                    4[0-39]|\n",
   str% "                    5|\n",
   str% "                    64\n",
   str% "                  )\n",
   str% "                )\n",
   str% "              )|\n",
   str% "              7[1-578]|\n",
   str% "              8(?:\n",
   str% "                [2469]|\n",
   str% "                3[278]|\n",
   str% "                54(?:\n",
   str% "                  4|\n",
   str% "                  5[13-7]|\n",
   str% "                  6[89]\n",
   str% "                )|\n",
   str% "                86[3-6]\n",
   str% "              )\n",
   str% "            )|\n",
   str% "            2(?:\n",
   str% "              2[24-9]|\n",
   str% "              3[1-59]|\n",
   str% "              47\n",
   str% "            )|\n",
   str% "            38(?:\n",
   str% "              [58][78]|\n",
   str% "              7[378]\n",
   str% "            )|\n",
   str% "            3(?:\n",
   str% "              454|\n",
   str% "              85[56]\n",
   str% "            )[46]|\n",
   str% "            3(?:\n",
   str% "              4(?:\n",
   str% "                36|\n",
   str% "                5[56]\n",
   str% "              )|\n",
   str% "              8(?:\n",
   str% "                [38]5|\n",
   str% "                76\n",
   str% "              )\n",
   str% "            )[4-6]\n",
   str% "          </leadingDigits>\n",
   str% "          <format>$1 $2-$3</format>\n",
   str% "        </numberFormat>\n",
   str% "        <!-- Formatting for geographic numbers (including those which can be dialled with a mobile token). -->\n",
   str% "        <numberFormat pattern=\"(\\d{2})(\\d{4})(\\d{4})\" nationalPrefixFormattingRule=\"$NP$FG\"\n",
   str% "                      nationalPrefixOptionalWhenFormatting=\"true\">\n",
   str% "          <leadingDigits>1</leadingDigits>\n",
   str% "          <format>$1 $2-$3</format>\n",
   str% "        </numberFormat>\n",
   str% "        <!-- Various non-geographic numbers, including UAN, premium rate but also some mobile\n",
   str% "             ranges. We assume no local dialling is possible for these ranges. -->\n",
   str% "        <numberFormat pattern=\"(\\d{3})(\\d{3})(\\d{4})\" nationalPrefixFormattingRule=\"$NP$FG\">\n",
   str% "          <leadingDigits>[68]</leadingDigits>\n",
   str% "          <format>$1-$2-$3</format>\n",
   str% "        </numberFormat>\n",
   str% "        <numberFormat pattern=\"(\\d{3})(\\d{3})(\\d{4})\" nationalPrefixFormattingRule=\"$NP$FG\"\n",
   str% "                      nationalPrefixOptionalWhenFormatting=\"true\">\n",
   str% "          <leadingDigits>[23]</leadingDigits>\n",
   str% "          <format>$1 $2-$3</format>\n",
   str% "        </numberFormat>\n",
   str% "        <numberFormat pattern=\"(\\d)(\\d{4})(\\d{2})(\\d{4})\" nationalPrefixFormattingRule=\"$NP$FG\">\n",
   str% "          <leadingDigits>\n",
   str% "            9(?:\n",
   str% "              2[2-469]|\n",
   str% "              3[3-578]\n",
   str% "            )\n",
   str% "          </leadingDigits>\n",
   str% "          <leadingDigits>\n",
   str% "            9(?:\n",
   str% "              2(?:\n",
   str% "                2[024-9]|\n",
   str% "                3[0-59]|\n",
   str% "                47|\n",
   str% "                6[245]|\n",
   str% "                9[02-8]\n",
   str% "              )|\n",
   str% "              3(?:\n",
   str% "                3[28]|\n",
   str% "                4[03-9]|\n",
   str% "                5[2-46-8]|\n",
   str% "                7[1-578]|\n",
   str% "                8[2-9]\n",
   str% "              )\n",
   str% "            )\n",
   str% "          </leadingDigits>\n",
   str% "          <leadingDigits>\n",
   str% "            9(?:\n",
   str% "              2(?:\n",
   str% "                [23]02|\n",
   str% "                6(?:\n",
   str% "                  [25]|\n",
   str% "                  4[6-8]\n",
   str% "                )|\n",
   str% "                9(?:\n",
   str% "                  [02356]|\n",
   str% "                  4[02568]|\n",
   str% "                  72|\n",
   str% "                  8[23]\n",
   str% "                )\n",
   str% "              )|\n",
   str% "              3(?:\n",
   str% "                3[28]|\n",
   str% "                4(?:\n",
   str% "                  [04679]|\n",
   str% "                  3[5-8]|\n",
   str% "                  5[4-68]|\n",
   str% "                  8[2379]\n",
   str% "                )|\n",
   str% "                5(?:\n",
   str% "                  [2467]|\n",
   str% "                  3[237]|\n",
   str% "                  8[2-5]\n",
   str% "                )|\n",
   str% "                7[1-578]|\n",
   str% "                8(?:\n",
   str% "                  [2469]|\n",
   str% "                  3[2578]|\n",
   str% "                  5[4-8]|\n",
   str% "                  7[36-8]|\n",
   str% "                  8[5-8]\n",
   str% "                )\n",
   str% "              )\n",
   str% "            )|\n",
   str% "            92(?:\n",
   str% "              2[24-9]|\n",
   str% "              3[1-59]|\n",
   str% "              47\n",
   str% "            )\n",
   str% "          </leadingDigits>\n",
   str% "          <leadingDigits>\n",
   str% "            9(?:\n",
   str% "              2(?:\n",
   str% "                [23]02|\n",
   str% "                6(?:\n",
   str% "                  [25]|\n",
   str% "                  4(?:\n",
   str% "                    64|\n",
   str% "                    [78]\n",
   str% "                  )\n",
   str% "                )|\n",
   str% "                9(?:\n",
   str% "                  [02356]|\n",
   str% "                  4(?:\n",
   str% "                    [0268]|\n",
   str% "                    5[2-6]\n",
   str% "                  )|\n",
   str% "                  72|\n",
   str% "                  8[23]\n",
   str% "                )\n",
   str% "              )|\n",
   str% "              3(?:\n",
   str% "                3[28]|\n",
   str% "                4(?:\n",
   str% "                  [04679]|\n",
   str% "                  3[78]|\n",
   str% "                  5(?:\n",
   str% "                    4[46]|\n",
   str% "                    8\n",
   str% "                  )|\n",
   str% "                  8[2379]\n",
   str% "                )|\n",
   str% "                5(?:\n",
   str% "                  [2467]|\n",
   str% "                  3[237]|\n",
   str% "                  8[23]\n",
   str% "                )|\n",
   str% "                7[1-578]|\n",
   str% "                8(?:\n",
   str% "                  [2469]|\n",
   str% "                  3[278]|\n",
   str% "                  5(?:\n",
   str% "                    [56][46]|\n",
   str% "                    [78]\n",
   str% "                  )|\n",
   str% "                  7[378]|\n",
   str% "                  8(?:\n",
   str% "                    6[3-6]|\n",
   str% "                    [78]\n",
   str% "                  )\n",
   str% "                )\n",
   str% "              )\n",
   str% "            )|\n",
   str% "            92(?:\n",
   str% "              2[24-9]|\n",
   str% "              3[1-59]|\n",
   str% "              47\n",
   str% "            )|\n",
   str% "            93(?:\n",
   str% "              4[35][56]|\n",
   str% "              58[45]|\n",
   str% "              8(?:\n",
   str% "                [38]5|\n",
   str% "                54|\n",
   str% "                76\n",
   str% "              )\n",
   str% "            )[4-6]\n",
   str% "          </leadingDigits>\n",
   str% "          <leadingDigits>\n",
   str% "            9(?:\n",
   str% "              2(?:\n",
   str% "                [23]02|\n",
   str% "                6(?:\n",
   str% "                  [25]|\n",
   str% "                  4(?:\n",
   str% "                    64|\n",
   str% "                    [78]\n",
   str% "                  )\n",
   str% "                )|\n",
   str% "                9(?:\n",
   str% "                  [02356]|\n",
   str% "                  4(?:\n",
   str% "                    [0268]|\n",
   str% "                    5[2-6]\n",
   str% "                  )|\n",
   str% "                  72|\n",
   str% "                  8[23]\n",
   str% "                )\n",
   str% "              )|\n",
   str% "              3(?:\n",
   str% "                3[28]|\n",
   str% "                4(?:\n",
   str% "                  [04679]|\n",
   str% "                  3(?:\n",
   str% "                    5(?:\n",
   str% "                      4[0-25689]|\n",
   str% "                      [56]\n",
   str% "                    )|\n",
   str% "                    [78]\n",
   str% "                  )|\n",
   str% "                  5(?:\n",
   str% "                    4[46]|\n",
   str% "                    8\n",
   str% "                  )|\n",
   str% "                  8[2379]\n",
   str% "                )|\n",
   str% "                5(?:\n",
   str% "                  [2467]|\n",
   str% "                  3[237]|\n",
   str% "                  8(?:\n",
   str% "                    [23]|\n",
   str% "                    4(?:\n",
   str% "                      [45]|\n",
   str% "                      60\n",
   str% "                    )|\n",
   str% "                    5(?:\n",
   str% "                      4[0-39]|\n",
   str% "                      5|\n",
   str% "                      64\n",
   str% "                    )\n",
   str% "                  )\n",
   str% "                )|\n",
   str% "                7[1-578]|\n",
   str% "                8(?:\n",
   str% "                  [2469]|\n",
   str% "                  3[278]|\n",
   str% "                  5(?:\n",
   str% "                    4(?:\n",
   str% "                      4|\n",
   str% "                      5[13-7]|\n",
   str% "                      6[89]\n",
   str% "                    )|\n",
   str% "                    [56][46]|\n",
   str% "                    [78]\n",
   str% "                  )|\n",
   str% "                  7[378]|\n",
   str% "                  8(?:\n",
   str% "                    6[3-6]|\n",
   str% "                    [78]\n",
   str% "                  )\n",
   str% "                )\n",
   str% "              )\n",
   str% "            )|\n",
   str% "            92(?:\n",
   str% "              2[24-9]|\n",
   str% "              3[1-59]|\n",
   str% "              47\n",
   str% "            )|\n",
   str% "            93(?:\n",
   str% "              4(?:\n",
   str% "                36|\n",
   str% "                5[56]\n",
   str% "              )|\n",
   str% "              8(?:\n",
   str% "                [38]5|\n",
   str% "                76\n",
   str% "              )\n",
   str% "            )[4-6]\n",
   str% "          </leadingDigits>\n",
   str% "          <format>$2 15-$3-$4</format>\n",
   str% "          <intlFormat>$1 $2 $3-$4</intlFormat>\n",
   str% "        </numberFormat>\n",
   str% "        <numberFormat pattern=\"(\\d)(\\d{2})(\\d{4})(\\d{4})\" nationalPrefixFormattingRule=\"$NP$FG\">\n",
   str% "          <leadingDigits>91</leadingDigits>\n",
   str% "          <format>$2 15-$3-$4</format>\n",
   str% "          <intlFormat>$1 $2 $3-$4</intlFormat>\n",
   str% "        </numberFormat>\n",
   str% "        <numberFormat pattern=\"(\\d{3})(\\d{3})(\\d{5})\" nationalPrefixFormattingRule=\"$NP$FG\">\n",
   str% "          <leadingDigits>8</leadingDigits>\n",
   str% "          <format>$1-$2-$3</format>\n",
   str% "        </numberFormat>\n",
   str% "        <numberFormat pattern=\"(\\d)(\\d{3})(\\d{3})(\\d{4})\" nationalPrefixFormattingRule=\"$NP$FG\">\n",
   str% "          <leadingDigits>9</leadingDigits>\n",
   str% "          <format>$2 15-$3-$4</format>\n",
   str% "          <intlFormat>$1 $2 $3-$4</intlFormat>\n",
   str% "        </numberFormat>\n",
   str% "      </availableFormats>\n",
   str% "      <generalDesc>\n",
   str% "        <nationalNumberPattern>\n",
   str% "          (?:\n",
   str% "            11|\n",
   str% "            [89]\\d\\d\n",
   str% "          )\\d{8}|\n",
   str% "          [2368]\\d{9}\n",
   str% "        </nationalNumberPattern>\n",
   str% "      </generalDesc>\n",
   str% "      <noInternationalDialling>\n",
   str% "        <possibleLengths national=\"10\"/>\n",
   str% "        <nationalNumberPattern>810\\d{7}</nationalNumberPattern>\n",
   str% "      </noInternationalDialling>\n",
   str% "      <!-- Also covering fixed satellite service numbers (670). -->\n",
   str% "      <fixedLine>\n",
   str% "        <possibleLengths national=\"10\" localOnly=\"[6-8]\"/>\n",
   str% "        <exampleNumber>1123456789</exampleNumber>\n",
   str% "        <nationalNumberPattern>\n",
   str% "          3(?:\n",
   str% "            7(?:\n",
   str% "              1[15]|\n",
   str% "              81\n",
   str% "            )|\n",
   str% "            8(?:\n",
   str% "              21|\n",
   str% "              4[16]|\n",
   str% "              69|\n",
   str% "              9[12]\n",
   str% "            )\n",
   str% "          )[46]\\d{5}|\n",
   str% "          (?:\n",
   str% "            2(?:\n",
   str% "              2(?:\n",
   str% "                2[59]|\n",
   str% "                44|\n",
   str% "                52\n",
   str% "              )|\n",
   str% "              3(?:\n",
   str% "                26|\n",
   str% "                44\n",
   str% "              )|\n",
   str% "              47[35]|\n",
   str% "              9(?:\n",
   str% "                [07]2|\n",
   str% "                2[26]|\n",
   str% "                34|\n",
   str% "                46\n",
   str% "              )\n",
   str% "            )|\n",
   str% "            3327\n",
   str% "          )[45]\\d{5}|\n",
   str% "          (?:\n",
   str% "            2(?:\n",
   str% "              657|\n",
   str% "              9(?:\n",
   str% "                54|\n",
   str% "                66\n",
   str% "              )\n",
   str% "            )|\n",
   str% "            3(?:\n",
   str% "              48[27]|\n",
   str% "              7(?:\n",
   str% "                55|\n",
   str% "                77\n",
   str% "              )|\n",
   str% "              8(?:\n",
   str% "                65|\n",
   str% "                78\n",
   str% "              )\n",
   str% "            )\n",
   str% "          )[2-8]\\d{5}|\n",
   str% "          (?:\n",
   str% "            2(?:\n",
   str% "              284|\n",
   str% "              3(?:\n",
   str% "                02|\n",
   str% "                23\n",
   str% "              )|\n",
   str% "              477|\n",
   str% "              622|\n",
   str% "              920\n",
   str% "            )|\n",
   str% "            3(?:\n",
   str% "              4(?:\n",
   str% "                46|\n",
   str% "                89|\n",
   str% "                92\n",
   str% "              )|\n",
   str% "              541\n",
   str% "            )\n",
   str% "          )[2-7]\\d{5}|\n",
   str% "          (?:\n",
   str% "            (?:\n",
   str% "              11[1-8]|\n",
   str% "              670\n",
   str% "            )\\d|\n",
   str% "            2(?:\n",
   str% "              2(?:\n",
   str% "                0[45]|\n",
   str% "                1[2-6]|\n",
   str% "                3[3-6]\n",
   str% "              )|\n",
   str% "              3(?:\n",
   str% "                [06]4|\n",
   str% "                7[45]\n",
   str% "              )|\n",
   str% "              494|\n",
   str% "              6(?:\n",
   str% "                04|\n",
   str% "                1[2-8]|\n",
   str% "                [36][45]|\n",
   str% "                4[3-6]\n",
   str% "              )|\n",
   str% "              80[45]|\n",
   str% "              9(?:\n",
   str% "                [17][4-6]|\n",
   str% "                [48][45]|\n",
   str% "                9[3-6]\n",
   str% "              )\n",
   str% "            )|\n",
   str% "            3(?:\n",
   str% "              364|\n",
   str% "              4(?:\n",
   str% "                1[2-8]|\n",
   str% "                [25][4-6]|\n",
   str% "                3[3-6]|\n",
   str% "                84\n",
   str% "              )|\n",
   str% "              5(?:\n",
   str% "                1[2-9]|\n",
   str% "                [38][4-6]\n",
   str% "              )|\n",
   str% "              6(?:\n",
   str% "                2[45]|\n",
   str% "                44\n",
   str% "              )|\n",
   str% "              7[069][45]|\n",
   str% "              8(?:\n",
   str% "                0[45]|\n",
   str% "                1[2-7]|\n",
   str% "                3[4-6]|\n",
   str% "                5[3-6]|\n",
   str% "                7[2-6]|\n",
   str% "                8[3-68]\n",
   str% "              )\n",
   str% "            )\n",
   str% "          )\\d{6}|\n",
   str% "          (?:\n",
   str% "            2(?:\n",
   str% "              2(?:\n",
   str% "                62|\n",
   str% "                81\n",
   str% "              )|\n",
   str% "              320|\n",
   str% "              9(?:\n",
   str% "                42|\n",
   str% "                83\n",
   str% "              )\n",
   str% "            )|\n",
   str% "            3(?:\n",
   str% "              329|\n",
   str% "              4(?:\n",
   str% "                62|\n",
   str% "                7[16]\n",
   str% "              )|\n",
   str% "              5(?:\n",
   str% "                43|\n",
   str% "                64\n",
   str% "              )|\n",
   str% "              7(?:\n",
   str% "                18|\n",
   str% "                5[17]\n",
   str% "              )\n",
   str% "            )\n",
   str% "          )[2-6]\\d{5}|\n",
   str% "          2(?:\n",
   str% "            2(?:\n",
   str% "              21|\n",
   str% "              4[23]|\n",
   str% "              6[145]|\n",
   str% "              7[1-4]|\n",
   str% "              8[356]|\n",
   str% "              9[267]\n",
   str% "            )|\n",
   str% "            3(?:\n",
   str% "              16|\n",
   str% "              3[13-8]|\n",
   str% "              43|\n",
   str% "              5[346-8]|\n",
   str% "              9[3-5]\n",
   str% "            )|\n",
   str% "            6(?:\n",
   str% "              2[46]|\n",
   str% "              4[78]|\n",
   str% "              5[1568]\n",
   str% "            )|\n",
   str% "            9(?:\n",
   str% "              03|\n",
   str% "              2[1457-9]|\n",
   str% "              3[1356]|\n",
   str% "              4[08]|\n",
   str% "              [56][23]|\n",
   str% "              82\n",
   str% "            )\n",
   str% "          )4\\d{5}|\n",
   str% "          (?:\n",
   str% "            2(?:\n",
   str% "              257|\n",
   str% "              3(?:\n",
   str% "                24|\n",
   str% "                46|\n",
   str% "                92\n",
   str% "              )|\n",
   str% "              9(?:\n",
   str% "                01|\n",
   str% "                23|\n",
   str% "                64\n",
   str% "              )\n",
   str% "            )|\n",
   str% "            3(?:\n",
   str% "              4(?:\n",
   str% "                42|\n",
   str% "                64\n",
   str% "              )|\n",
   str% "              5(?:\n",
   str% "                25|\n",
   str% "                37|\n",
   str% "                4[47]|\n",
   str% "                71\n",
   str% "              )|\n",
   str% "              7(?:\n",
   str% "                35|\n",
   str% "                72\n",
   str% "              )|\n",
   str% "              825\n",
   str% "            )\n",
   str% "          )[3-6]\\d{5}|\n",
   str% "          (?:\n",
   str% "            2(?:\n",
   str% "              2(?:\n",
   str% "                02|\n",
   str% "                2[3467]|\n",
   str% "                4[156]|\n",
   str% "                5[45]|\n",
   str% "                6[6-8]|\n",
   str% "                91\n",
   str% "              )|\n",
   str% "              3(?:\n",
   str% "                1[47]|\n",
   str% "                25|\n",
   str% "                [45][25]|\n",
   str% "                96\n",
   str% "              )|\n",
   str% "              47[48]|\n",
   str% "              625|\n",
   str% "              932\n",
   str% "            )|\n",
   str% "            3(?:\n",
   str% "              38[2578]|\n",
   str% "              4(?:\n",
   str% "                0[0-24-9]|\n",
   str% "                3[78]|\n",
   str% "                4[457]|\n",
   str% "                58|\n",
   str% "                6[035-9]|\n",
   str% "                72|\n",
   str% "                83|\n",
   str% "                9[136-8]\n",
   str% "              )|\n",
   str% "              5(?:\n",
   str% "                2[124]|\n",
   str% "                [368][23]|\n",
   str% "                4[2689]|\n",
   str% "                7[2-6]\n",
   str% "              )|\n",
   str% "              7(?:\n",
   str% "                16|\n",
   str% "                2[15]|\n",
   str% "                3[14]|\n",
   str% "                4[13]|\n",
   str% "                5[468]|\n",
   str% "                7[3-5]|\n",
   str% "                8[26]\n",
   str% "              )|\n",
   str% "              8(?:\n",
   str% "                2[67]|\n",
   str% "                3[278]|\n",
   str% "                4[3-5]|\n",
   str% "                5[78]|\n",
   str% "                6[1-378]|\n",
   str% "                [78]7|\n",
   str% "                94\n",
   str% "              )\n",
   str% "            )\n",
   str% "          )[4-6]\\d{5}\n",
   str% "        </nationalNumberPattern>\n",
   str% "      </fixedLine>\n",
   str% "      <!-- Also covers mobile satellite services (675 numbers). -->\n",
   str% "      <mobile>\n",
   str% "        <possibleLengths national=\"10,11\" localOnly=\"[6-8]\"/>\n",
   str% "        <exampleNumber>91123456789</exampleNumber>\n",
   str% "        <nationalNumberPattern>\n",
   str% "          93(?:\n",
   str% "            7(?:\n",
   str% "              1[15]|\n",
   str% "              81\n",
   str% "            )|\n",
   str% "            8(?:\n",
   str% "              21|\n",
   str% "              4[16]|\n",
   str% "              69|\n",
   str% "              9[12]\n",
   str% "            )\n",
   str% "          )[46]\\d{5}|\n",
   str% "          9(?:\n",
   str% "            2(?:\n",
   str% "              2(?:\n",
   str% "                2[59]|\n",
   str% "                44|\n",
   str% "                52\n",
   str% "              )|\n",
   str% "              3(?:\n",
   str% "                26|\n",
   str% "                44\n",
   str% "              )|\n",
   str% "              47[35]|\n",
   str% "              9(?:\n",
   str% "                [07]2|\n",
   str% "                2[26]|\n",
   str% "                34|\n",
   str% "                46\n",
   str% "              )\n",
   str% "            )|\n",
   str% "            3327\n",
   str% "          )[45]\\d{5}|\n",
   str% "          9(?:\n",
   str% "            2(?:\n",
   str% "              657|\n",
   str% "              9(?:\n",
   str% "                54|\n",
   str% "                66\n",
   str% "              )\n",
   str% "            )|\n",
   str% "            3(?:\n",
   str% "              48[27]|\n",
   str% "              7(?:\n",
   str% "                55|\n",
   str% "                77\n",
   str% "              )|\n",
   str% "              8(?:\n",
   str% "                65|\n",
   str% "                78\n",
   str% "              )\n",
   str% "            )\n",
   str% "          )[2-8]\\d{5}|\n",
   str% "          9(?:\n",
   str% "            2(?:\n",
   str% "              284|\n",
   str% "              3(?:\n",
   str% "                02|\n",
   str% "                23\n",
   str% "              )|\n",
   str% "              477|\n",
   str% "              622|\n",
   str% "              920\n",
   str% "            )|\n",
   str% "            3(?:\n",
   str% "              4(?:\n",
   str% "                46|\n",
   str% "                89|\n",
   str% "                92\n",
   str% "              )|\n",
   str% "              541\n",
   str% "            )\n",
   str% "          )[2-7]\\d{5}|\n",
   str% "          (?:\n",
   str% "            675\\d|\n",
   str% "            9(?:\n",
   str% "              11[1-8]\\d|\n",
   str% "              2(?:\n",
   str% "                2(?:\n",
   str% "                  0[45]|\n",
   str% "                  1[2-6]|\n",
   str% "                  3[3-6]\n",
   str% "                )|\n",
   str% "                3(?:\n",
   str% "                  [06]4|\n",
   str% "                  7[45]\n",
   str% "                )|\n",
   str% "                494|\n",
   str% "                6(?:\n",
   str% "                  04|\n",
   str% "                  1[2-8]|\n",
   str% "                  [36][45]|\n",
   str% "                  4[3-6]\n",
   str% "                )|\n",
   str% "                80[45]|\n",
   str% "                9(?:\n",
   str% "                  [17][4-6]|\n",
   str% "                  [48][45]|\n",
   str% "                  9[3-6]\n",
   str% "                )\n",
   str% "              )|\n",
   str% "              3(?:\n",
   str% "                364|\n",
   str% "                4(?:\n",
   str% "                  1[2-8]|\n",
   str% "                  [25][4-6]|\n",
   str% "                  3[3-6]|\n",
   str% "                  84\n",
   str% "                )|\n",
   str% "                5(?:\n",
   str% "                  1[2-9]|\n",
   str% "                  [38][4-6]\n",
   str% "                )|\n",
   str% "                6(?:\n",
   str% "                  2[45]|\n",
   str% "                  44\n",
   str% "                )|\n",
   str% "                7[069][45]|\n",
   str% "                8(?:\n",
   str% "                  0[45]|\n",
   str% "                  1[2-7]|\n",
   str% "                  3[4-6]|\n",
   str% "                  5[3-6]|\n",
   str% "                  7[2-6]|\n",
   str% "                  8[3-68]\n",
   str% "                )\n",
   str% "              )\n",
   str% "            )\n",
   str% "          )\\d{6}|\n",
   str% "          9(?:\n",
   str% "            2(?:\n",
   str% "              2(?:\n",
   str% "                62|\n",
   str% "                81\n",
   str% "              )|\n",
   str% "              320|\n",
   str% "              9(?:\n",
   str% "                42|\n",
   str% "                83\n",
   str% "              )\n",
   str% "            )|\n",
   str% "            3(?:\n",
   str% "              329|\n",
   str% "              4(?:\n",
   str% "                62|\n",
   str% "                7[16]\n",
   str% "              )|\n",
   str% "              5(?:\n",
   str% "                43|\n",
   str% "                64\n",
   str% "              )|\n",
   str% "              7(?:\n",
   str% "                18|\n",
   str% "                5[17]\n",
   str% "              )\n",
   str% "            )\n",
   str% "          )[2-6]\\d{5}|\n",
   str% "          92(?:\n",
   str% "            2(?:\n",
   str% "              21|\n",
   str% "              4[23]|\n",
   str% "              6[145]|\n",
   str% "              7[1-4]|\n",
   str% "              8[356]|\n",
   str% "              9[267]\n",
   str% "            )|\n",
   str% "            3(?:\n",
   str% "              16|\n",
   str% "              3[13-8]|\n",
   str% "              43|\n",
   str% "              5[346-8]|\n",
   str% "              9[3-5]\n",
   str% "            )|\n",
   str% "            6(?:\n",
   str% "              2[46]|\n",
   str% "              4[78]|\n",
   str% "              5[1568]\n",
   str% "            )|\n",
   str% "            9(?:\n",
   str% "              03|\n",
   str% "              2[1457-9]|\n",
   str% "              3[1356]|\n",
   str% "              4[08]|\n",
   str% "              [56][23]|\n",
   str% "              82\n",
   str% "            )\n",
   str% "          )4\\d{5}|\n",
   str% "          9(?:\n",
   str% "            2(?:\n",
   str% "              257|\n",
   str% "              3(?:\n",
   str% "                24|\n",
   str% "                46|\n",
   str% "                92\n",
   str% "              )|\n",
   str% "              9(?:\n",
   str% "                01|\n",
   str% "                23|\n",
   str% "                64\n",
   str% "              )\n",
   str% "            )|\n",
   str% "            3(?:\n",
   str% "              4(?:\n",
   str% "                42|\n",
   str% "                64\n",
   str% "              )|\n",
   str% "              5(?:\n",
   str% "                25|\n",
   str% "                37|\n",
   str% "                4[47]|\n",
   str% "                71\n",
   str% "              )|\n",
   str% "              7(?:\n",
   str% "                35|\n",
   str% "                72\n",
   str% "              )|\n",
   str% "              825\n",
   str% "            )\n",
   str% "          )[3-6]\\d{5}|\n",
   str% "          9(?:\n",
   str% "            2(?:\n",
   str% "              2(?:\n",
   str% "                02|\n",
   str% "                2[3467]|\n",
   str% "                4[156]|\n",
   str% "                5[45]|\n",
   str% "                6[6-8]|\n",
   str% "                91\n",
   str% "              )|\n",
   str% "              3(?:\n",
   str% "                1[47]|\n",
   str% "                25|\n",
   str% "                [45][25]|\n",
   str% "                96\n",
   str% "              )|\n",
   str% "              47[48]|\n",
   str% "              625|\n",
   str% "              932\n",
   str% "            )|\n",
   str% "            3(?:\n",
   str% "              38[2578]|\n",
   str% "              4(?:\n",
   str% "                0[0-24-9]|\n",
   str% "                3[78]|\n",
   str% "                4[457]|\n",
   str% "                58|\n",
   str% "                6[035-9]|\n",
   str% "                72|\n",
   str% "                83|\n",
   str% "                9[136-8]\n",
   str% "              )|\n",
   str% "              5(?:\n",
   str% "                2[124]|\n",
   str% "                [368][23]|\n",
   str% "                4[2689]|\n",
   str% "                7[2-6]\n",
   str% "              )|\n",
   str% "              7(?:\n",
   str% "                16|\n",
   str% "                2[15]|\n",
   str% "                3[14]|\n",
   str% "                4[13]|\n",
   str% "                5[468]|\n",
   str% "                7[3-5]|\n",
   str% "                8[26]\n",
   str% "              )|\n",
   str% "              8(?:\n",
   str% "                2[67]|\n",
   str% "                3[278]|\n",
   str% "                4[3-5]|\n",
   str% "                5[78]|\n",
   str% "                6[1-378]|\n",
   str% "                [78]7|\n",
   str% "                94\n",
   str% "              )\n",
   str% "            )\n",
   str% "          )[4-6]\\d{5}\n",
   str% "        </nationalNumberPattern>\n",
   str% "      </mobile>\n",
   str% "      <tollFree>\n",
   str% "        <possibleLengths national=\"10,11\"/>\n",
   str% "        <exampleNumber>8001234567</exampleNumber>\n",
   str% "        <nationalNumberPattern>800\\d{7,8}</nationalNumberPattern>\n",
   str% "      </tollFree>\n",
   str% "      <premiumRate>\n",
   str% "        <possibleLengths national=\"10\"/>\n",
   str% "        <exampleNumber>6001234567</exampleNumber>\n",
   str% "        <nationalNumberPattern>60[04579]\\d{7}</nationalNumberPattern>\n",
   str% "      </premiumRate>\n",
   str% "      <uan>\n",
   str% "        <possibleLengths national=\"10\"/>\n",
   str% "        <exampleNumber>8101234567</exampleNumber>\n",
   str% "        <nationalNumberPattern>810\\d{7}</nationalNumberPattern>\n",
   str% "      </uan>\n",
   str% "    </territory>"]

/-- the text of this module -/
noncomputable def chunk00 : List (List Str) :=
  [AC, AD, AE, AF, AG, AI, AL, AM, AO, AR]

end Phone.Data.S
