import Verif.Basic.Str
/-! Text of `/repo/assets/PhoneNumberMetadata.xml`, in lines. Generated by `tools/gen_xml.py`; do not edit. -/

set_option maxRecDepth 100000
namespace Phone.Data.S

/-- the text up to the end of territory id=GR countryCode=30 -/
noncomputable def GR : List Str :=
  [str% "\n",
   str% "\n",
   str% "    <!-- Greece (GR) -->\n",
   str% "    <!-- http://www.itu.int/oth/T0202000055/en -->\n",
   str% "    <!-- http://en.wikipedia.org/wiki/%2B30 -->\n",
   str% "    <!-- http://www.eett.gr/opencms/opencms/EETT_EN/Electronic_Communications/Telecoms/Numbering/NumberAssignments.html -->\n",
   str% "    <territory id=\"GR\" countryCode=\"30\" internationalPrefix=\"00\" mobileNumberPortableRegion=\"true\">\n",
   str% "      <availableFormats>\n",
   str% "        <numberFormat pattern=\"(\\d{2})(\\d{4})(\\d{4})\">\n",
   str% "          <leadingDigits>\n",
   str% "            21|\n",
   str% "            7\n",
   str% "          </leadingDigits>\n",
   str% "          <format>$1 $2 $3</format>\n",
   str% "        </numberFormat>\n",
   str% "        <numberFormat pattern=\"(\\d{4})(\\d{6})\">\n",
   str% "          <leadingDigits>\n",
   str% "            2(?:\n",
   str% "              2|\n",
   str% "              3[2-57-9]|\n",
   str% "              4[2-469]|\n",
   str% "              5[2-59]|\n",
   str% "              6[2-9]|\n",
   str% "              7[2-69]|\n",
   str% "              8[2-49]\n",
   str% "            )|\n",
   str% "            5\n",
   str% "          </leadingDigits>\n",
   str% "          <format>$1 $2</format>\n",
   str% "        </numberFormat>\n",
   str% "        <numberFormat pattern=\"(\\d{3})(\\d{3})(\\d{4})\">\n",
   str% "          <leadingDigits>[2689]</leadingDigits>\n",
   str% "          <format>$1 $2 $3</format>\n",
   str% "        </numberFormat>\n",
   str% "        <numberFormat pattern=\"(\\d{3})(\\d{3,4})(\\d{5})\">\n",
   str% "          <leadingDigits>8</leadingDigits>\n",
   str% "          <format>$1 $2 $3</format>\n",
   str% "        </numberFormat>\n",
   str% "      </availableFormats>\n",
   str% "      <generalDesc>\n",
   str% "        <nationalNumberPattern>\n",
   str% "          5005000\\d{3}|\n",
   str% "          8\\d{9,11}|\n",
   str% "          (?:\n",
   str% "            [269]\\d|\n",
   str% "            70\n",
   str% "          )\\d{8}\n",
   str% "        </nationalNumberPattern>\n",
   str% "      </generalDesc>\n",
   str% "      <fixedLine>\n",
   str% "        <possibleLengths national=\"10\"/>\n",
   str% "        <exampleNumber>2123456789</exampleNumber>\n",
   str% "        <nationalNumberPattern>\n",
   str% "          2(?:\n",
   str% "            1\\d\\d|\n",
   str% "            2(?:\n",
   str% "              2[1-46-9]|\n",
   str% "              [36][1-8]|\n",
   str% "              4[1-7]|\n",
   str% "              5[1-4]|\n",
   str% "              7[1-5]|\n",
   str% "              [89][1-9]\n",
   str% "            )|\n",
   str% "            3(?:\n",
   str% "              1\\d|\n",
   str% "              2[1-57]|\n",
   str% "              [35][1-3]|\n",
   str% "              4[13]|\n",
   str% "              7[1-7]|\n",
   str% "              8[124-6]|\n",
   str% "              9[1-79]\n",
   str% "            )|\n",
   str% "            4(?:\n",
   str% "              1\\d|\n",
   str% "              2[1-8]|\n",
   str% "              3[1-4]|\n",
   str% "              4[13-5]|\n",
   str% "              6[1-578]|\n",
   str% "              9[1-5]\n",
   str% "            )|\n",
   str% "            5(?:\n",
   str% "              1\\d|\n",
   str% "              [29][1-4]|\n",
   str% "              3[1-5]|\n",
   str% "              4[124]|\n",
   str% "              5[1-6]\n",
   str% "            )|\n",
   str% "            6(?:\n",
   str% "              1\\d|\n",
   str% "              [269][1-6]|\n",
   str% "              3[1245]|\n",
   str% "              4[1-7]|\n",
   str% "              5[13-9]|\n",
   str% "              7[14]|\n",
   str% "              8[1-5]\n",
   str% "            )|\n",
   str% "            7(?:\n",
   str% "              1\\d|\n",
   str% "              2[1-5]|\n",
   str% "              3[1-6]|\n",
   str% "              4[1-7]|\n",
   str% "              5[1-57]|\n",
   str% "              6[135]|\n",
   str% "              9[125-7]\n",
   str% "            )|\n",
   str% "            8(?:\n",
   str% "              1\\d|\n",
   str% "              2[1-5]|\n",
   str% "              [34][1-4]|\n",
   str% "              9[1-57]\n",
   str% "            )\n",
   str% "          )\\d{6}\n",
   str% "        </nationalNumberPattern>\n",
   str% "      </fixedLine>\n",
   str% "      <mobile>\n",
   str% "        <possibleLengths national=\"10\"/>\n",
   str% "        <exampleNumber>6912345678</exampleNumber>\n",
   str% "        <nationalNumberPattern>\n",
   str% "          68[57-9]\\d{7}|\n",
   str% "          (?:\n",
   str% "            69|\n",
   str% "            94\n",
   str% "          )\\d{8}\n",
   str% "        </nationalNumberPattern>\n",
   str% "      </mobile>\n",
   str% "      <tollFree>\n",
   str% "        <possibleLengths national=\"[10-12]\"/>\n",
   str% "        <exampleNumber>8001234567</exampleNumber>\n",
   str% "        <nationalNumberPattern>800\\d{7,9}</nationalNumberPattern>\n",
   str% "      </tollFree>\n",
   str% "      <premiumRate>\n",
   str% "        <possibleLengths national=\"10\"/>\n",
   str% "        <exampleNumber>9091234567</exampleNumber>\n",
   str% "        <nationalNumberPattern>90[19]\\d{7}</nationalNumberPattern>\n",
   str% "      </premiumRate>\n",
   str% "      <!-- Including calls with maximum charge of 0,25 EUR/minute here instead of under premium\n",
   str% "           rate. -->\n",
   str% "      <sharedCost>\n",
   str% "        <possibleLengths national=\"10\"/>\n",
   str% "        <exampleNumber>8011234567</exampleNumber>\n",
   str% "        <nationalNumberPattern>\n",
   str% "          8(?:\n",
   str% "            0[16]|\n",
   str% "            12|\n",
   str% "            [27]5|\n",
   str% "            50\n",
   str% "          )\\d{7}\n",
   str% "        </nationalNumberPattern>\n",
   str% "      </sharedCost>\n",
   str% "      <personalNumber>\n",
   str% "        <possibleLengths national=\"10\"/>\n",
   str% "        <exampleNumber>7012345678</exampleNumber>\n",
   str% "        <nationalNumberPattern>70\\d{8}</nationalNumberPattern>\n",
   str% "      </personalNumber>\n",
   str% "      <uan>\n",
   str% "        <possibleLengths national=\"10\"/>\n",
   str% "        <exampleNumber>5005000123</exampleNumber>\n",
   str% "        <nationalNumberPattern>5005000\\d{3}</nationalNumberPattern>\n",
   str% "      </uan>\n",
   str% "    </territory>"]

/-- the text up to the end of territory id=GT countryCode=502 -/
noncomputable def GT : List Str :=
  [str% "\n",
   str% "\n",
   str% "    <!-- Guatemala (GT) -->\n",
   str% "    <!-- http://www.itu.int/oth/T020200005A/en -->\n",
   str% "    <!-- http://www.sit.gob.gt/index.php?page=plan-de-numeracion -->\n",
   str% "    <!-- http://en.wikipedia.org/wiki/Telephone_numbers_in_Guatemala -->\n",
   str% "    <territory id=\"GT\" countryCode=\"502\" internationalPrefix=\"00\">\n",
   str% "      <availableFormats>\n",
   str% "        <numberFormat pattern=\"(\\d{4})(\\d{4})\">\n",
   str% "          <leadingDigits>[2-8]</leadingDigits>\n",
   str% "          <format>$1 $2</format>\n",
   str% "        </numberFormat>\n",
   str% "        <numberFormat pattern=\"(\\d{4})(\\d{3})(\\d{4})\">\n",
   str% "          <leadingDigits>1</leadingDigits>\n",
   str% "          <format>$1 $2 $3</format>\n",
   str% "        </numberFormat>\n",
   str% "      </availableFormats>\n",
   str% "      <generalDesc>\n",
   str% "        <nationalNumberPattern>\n",
   str% "          80\\d{6}|\n",
   str% "          (?:\n",
   str% "            1\\d{3}|\n",
   str% "            [2-7]\n",
   str% "          )\\d{7}\n",
   str% "        </nationalNumberPattern>\n",
   str% "      </generalDesc>\n",
   str% "      <fixedLine>\n",
   str% "        <possibleLengths national=\"8\"/>\n",
   str% "        <exampleNumber>22456789</exampleNumber>\n",
   str% "        <nationalNumberPattern>[267][2-9]\\d{6}</nationalNumberPattern>\n",
   str% "      </fixedLine>\n",
   str% "      <mobile>\n",
   str% "        <possibleLengths national=\"8\"/>\n",
   str% "        <exampleNumber>51234567</exampleNumber>\n",
   str% "        <nationalNumberPattern>\n",
   str% "          (?:\n",
   str% "            [3-5]\\d\\d|\n",
   str% "            80[0-4]\n",
   str% "          )\\d{5}\n",
   str% "        </nationalNumberPattern>\n",
   str% "      </mobile>\n",
   str% "      <tollFree>\n",
   str% "        <possibleLengths national=\"11\"/>\n",
   str% "        <exampleNumber>18001112222</exampleNumber>\n",
   str% "        <nationalNumberPattern>18[01]\\d{8}</nationalNumberPattern>\n",
   str% "      </tollFree>\n",
   str% "      <premiumRate>\n",
   str% "        <possibleLengths national=\"11\"/>\n",
   str% "        <exampleNumber>19001112222</exampleNumber>\n",
   str% "        <nationalNumberPattern>19\\d{9}</nationalNumberPattern>\n",
   str% "      </premiumRate>\n",
   str% "    </territory>"]

/-- the text up to the end of territory id=GU countryCode=1 -/
noncomputable def GU : List Str :=
  [str% "\n",
   str% "\n",
   str% "    <!-- Guam (GU) -->\n",
   str% "    <!-- Calling code and formatting shared with 'US' -->\n",
   str% "    <!-- http://www.nationalnanpa.com/nas/public/assigned_code_query_step1.do?method=resetCodeQueryModel -->\n",
   str% "    <territory id=\"GU\" countryCode=\"1\" leadingDigits=\"671\" internationalPrefix=\"011\"\n",
   str% "               nationalPrefix=\"1\" nationalPrefixForParsing=\"([2-9]\\d{6})$|1\"\n",
   str% "               nationalPrefixTransformRule=\"671$1\">\n",
   str% "      <generalDesc>\n",
   str% "        <nationalNumberPattern>\n",
   str% "          (?:\n",
   str% "            [58]\\d\\d|\n",
   str% "            671|\n",
   str% "            900\n",
   str% "          )\\d{7}\n",
   str% "        </nationalNumberPattern>\n",
   str% "      </generalDesc>\n",
   str% "      <!-- Added 671 400/489/555/68[23]/720/721/972 based on information from\n",
   str% "           http://www.area-codes.com/area-code/area-code-671.asp -->\n",
   str% "      <fixedLine>\n",
   str% "        <possibleLengths national=\"10\" localOnly=\"7\"/>\n",
   str% "        <exampleNumber>6713001234</exampleNumber>\n",
   str% "        <nationalNumberPattern>\n",
   str% "          671(?:\n",
   str% "            2\\d\\d|\n",
   str% "            3(?:\n",
   str% "              00|\n",
   str% "              3[39]|\n",
   str% "              4[349]|\n",
   str% "              55|\n",
   str% "              6[26]\n",
   str% "            )|\n",
   str% "            4(?:\n",
   str% "              00|\n",
   str% "              56|\n",
   str% "              7[1-9]|\n",
   str% "              8[02-9]\n",
   str% "            )|\n",
   str% "            5(?:\n",
   str% "              55|\n",
   str% "              6[2-5]|\n",
   str% "              88\n",
   str% "            )|\n",
   str% "            6(?:\n",
   str% "              3[2-578]|\n",
   str% "              4[24-9]|\n",
   str% "              5[34]|\n",
   str% "              78|\n",
   str% "              8[235-9]\n",
   str% "            )|\n",
   str% "            7(?:\n",
   str% "              [0479]7|\n",
   str% "              2[0167]|\n",
   str% "              3[45]|\n",
   str% "              8[7-9]\n",
   str% "            )|\n",
   str% "            8(?:\n",
   str% "              [2-57-9]8|\n",
   str% "              6[478]\n",
   str% "            )|\n",
   str% "            9(?:\n",
   str% "              2[29]|\n",
   str% "              6[79]|\n",
   str% "              7[1279]|\n",
   str% "              8[7-9]|\n",
   str% "              9[16-9]\n",
   str% "            )\n",
   str% "          )\\d{4}\n",
   str% "        </nationalNumberPattern>\n",
   str% "      </fixedLine>\n",
   str% "      <!-- We assume mobile phone numbers to be the same as fixed-line - further info unavailable -->\n",
   str% "      <mobile>\n",
   str% "        <possibleLengths national=\"10\" localOnly=\"7\"/>\n",
   str% "        <exampleNumber>6713001234</exampleNumber>\n",
   str% "        <nationalNumberPattern>\n",
   str% "          671(?:\n",
   str% "            2\\d\\d|\n",
   str% "            3(?:\n",
   str% "              00|\n",
   str% "              3[39]|\n",
   str% "              4[349]|\n",
   str% "              55|\n",
   str% "              6[26]\n",
   str% "            )|\n",
   str% "            4(?:\n",
   str% "              00|\n",
   str% "              56|\n",
   str% "              7[1-9]|\n",
   str% "              8[02-9]\n",
   str% "            )|\n",
   str% "            5(?:\n",
   str% "              55|\n",
   str% "              6[2-5]|\n",
   str% "              88\n",
   str% "            )|\n",
   str% "            6(?:\n",
   str% "              3[2-578]|\n",
   str% "              4[24-9]|\n",
   str% "              5[34]|\n",
   str% "              78|\n",
   str% "              8[235-9]\n",
   str% "            )|\n",
   str% "            7(?:\n",
   str% "              [0479]7|\n",
   str% "              2[0167]|\n",
   str% "              3[45]|\n",
   str% "              8[7-9]\n",
   str% "            )|\n",
   str% "            8(?:\n",
   str% "              [2-57-9]8|\n",
   str% "              6[478]\n",
   str% "            )|\n",
   str% "            9(?:\n",
   str% "              2[29]|\n",
   str% "              6[79]|\n",
   str% "              7[1279]|\n",
   str% "              8[7-9]|\n",
   str% "              9[16-9]\n",
   str% "            )\n",
   str% "          )\\d{4}\n",
   str% "        </nationalNumberPattern>\n",
   str% "      </mobile>\n",
   str% "      <tollFree>\n",
   str% "        <possibleLengths national=\"10\"/>\n",
   str% "        <exampleNumber>8002123456</exampleNumber>\n",
   str% "        <nationalNumberPattern>\n",
   str% "          8(?:\n",
   str% "            00|\n",
   str% "            33|\n",
   str% "            44|\n",
   str% "            55|\n",
   str% "            66|\n",
   str% "            77|\n",
   str% "            88\n",
   str% "          )[2-9]\\d{6}\n",
   str% "        </nationalNumberPattern>\n",
   str% "      </tollFree>\n",
   str% "      <premiumRate>\n",
   str% "        <possibleLengths national=\"10\"/>\n",
   str% "        <exampleNumber>9002123456</exampleNumber>\n",
   str% "        <nationalNumberPattern>900[2-9]\\d{6}</nationalNumberPattern>\n",
   str% "      </premiumRate>\n",
   str% "      <!-- https://www.nationalnanpa.com/number_resource_info/5XX_codes.html -->\n",
   str% "      <personalNumber>\n",
   str% "        <possibleLengths national=\"10\"/>\n",
   str% "        <exampleNumber>5002345678</exampleNumber>\n",
   str% "        <nationalNumberPattern>\n",
   str% "          52(?:\n",
   str% "            3(?:\n",
   str% "              [2-46-9][02-9]\\d|\n",
   str% "              5(?:\n",
   str% "                [02-46-9]\\d|\n",
   str% "                5[0-46-9]\n",
   str% "              )\n",
   str% "            )|\n",
   str% "            4(?:\n",
   str% "              [2-478][02-9]\\d|\n",
   str% "              5(?:\n",
   str% "                [034]\\d|\n",
   str% "                2[024-9]|\n",
   str% "                5[0-46-9]\n",
   str% "              )|\n",
   str% "              6(?:\n",
   str% "                0[1-9]|\n",
   str% "                [2-9]\\d\n",
   str% "              )|\n",
   str% "              9(?:\n",
   str% "                [05-9]\\d|\n",
   str% "                2[0-5]|\n",
   str% "                49\n",
   str% "              )\n",
   str% "            )\n",
   str% "          )\\d{4}|\n",
   str% "          52[34][2-9]1[02-9]\\d{4}|\n",
   str% "          5(?:\n",
   str% "            00|\n",
   str% "            2[125-9]|\n",
   str% "            3[23]|\n",
   str% "            44|\n",
   str% "            66|\n",
   str% "            77|\n",
   str% "            88\n",
   str% "          )[2-9]\\d{6}\n",
   str% "        </nationalNumberPattern>\n",
   str% "      </personalNumber>\n",
   str% "    </territory>"]

/-- the text up to the end of territory id=GW countryCode=245 -/
noncomputable def GW : List Str :=
  [str% "\n",
   str% "\n",
   str% "    <!-- Guinea-Bissau (GW) -->\n",
   str% "    <!-- http://www.itu.int/oth/T020200005C/en -->\n",
   str% "    <territory id=\"GW\" countryCode=\"245\" internationalPrefix=\"00\">\n",
   str% "      <availableFormats>\n",
   str% "        <numberFormat pattern=\"(\\d{3})(\\d{4})\">\n",
   str% "          <leadingDigits>40</leadingDigits>\n",
   str% "          <format>$1 $2</format>\n",
   str% "        </numberFormat>\n",
   str% "        <numberFormat pattern=\"(\\d{3})(\\d{3})(\\d{3})\">\n",
   str% "          <leadingDigits>[49]</leadingDigits>\n",
   str% "          <format>$1 $2 $3</format>\n",
   str% "        </numberFormat>\n",
   str% "      </availableFormats>\n",
   str% "      <generalDesc>\n",
   str% "        <nationalNumberPattern>\n",
   str% "          [49]\\d{8}|\n",
   str% "          4\\d{6}\n",
   str% "        </nationalNumberPattern>\n",
   str% "      </generalDesc>\n",
   str% "      <fixedLine>\n",
   str% "        <possibleLengths national=\"9\"/>\n",
   str% "        <exampleNumber>443201234</exampleNumber>\n",
   str% "        <nationalNumberPattern>443\\d{6}</nationalNumberPattern>\n",
   str% "      </fixedLine>\n",
   str% "      <mobile>\n",
   str% "        <possibleLengths national=\"9\"/>\n",
   str% "        <exampleNumber>955012345</exampleNumber>\n",
   str% "        <nationalNumberPattern>\n",
   str% "          9(?:\n",
   str% "            5\\d|\n",
   str% "            6[569]|\n",
   str% "            77\n",
   str% "          )\\d{6}\n",
   str% "        </nationalNumberPattern>\n",
   str% "      </mobile>\n",
   str% "      <voip>\n",
   str% "        <possibleLengths national=\"7\"/>\n",
   str% "        <exampleNumber>4012345</exampleNumber>\n",
   str% "        <nationalNumberPattern>40\\d{5}</nationalNumberPattern>\n",
   str% "      </voip>\n",
   str% "    </territory>"]

/-- the text up to the end of territory id=GY countryCode=592 -/
noncomputable def GY : List Str :=
  [str% "\n",
   str% "\n",
   str% "    <!-- Guyana (GY) -->\n",
   str% "    <!-- http://www.itu.int/oth/T020200005D/en -->\n",
   str% "    <territory id=\"GY\" countryCode=\"592\" internationalPrefix=\"001\">\n",
   str% "      <availableFormats>\n",
   str% "        <numberFormat pattern=\"(\\d{3})(\\d{4})\">\n",
   str% "          <leadingDigits>[2-9]</leadingDigits>\n",
   str% "          <format>$1 $2</format>\n",
   str% "        </numberFormat>\n",
   str% "      </availableFormats>\n",
   str% "      <generalDesc>\n",
   str% "        <nationalNumberPattern>\n",
   str% "          (?:\n",
   str% "            [2-8]\\d{3}|\n",
   str% "            9008\n",
   str% "          )\\d{3}\n",
   str% "        </nationalNumberPattern>\n",
   str% "      </generalDesc>\n",
   str% "      <fixedLine>\n",
   str% "        <possibleLengths national=\"7\"/>\n",
   str% "        <exampleNumber>2201234</exampleNumber>\n",
   str% "        <nationalNumberPattern>\n",
   str% "          (?:\n",
   str% "            2(?:\n",
   str% "              1[6-9]|\n",
   str% "              2[0-35-9]|\n",
   str% "              3[1-4]|\n",
   str% "              5[3-9]|\n",
   str% "              6\\d|\n",
   str% "              7[0-79]\n",
   str% "            )|\n",
   str% "            3(?:\n",
   str% "              2[25-9]|\n",
   str% "              3\\d\n",
   str% "            )|\n",
   str% "            4(?:\n",
   str% "              4[0-24]|\n",
   str% "              5[56]\n",
   str% "            )|\n",
   str% "            50[0-6]|\n",
   str% "            77[1-57]\n",
   str% "          )\\d{4}\n",
   str% "        </nationalNumberPattern>\n",
   str% "      </fixedLine>\n",
   str% "      <!-- Although the ITU document would allow for a stricter pattern, the country has a track\n",
   str% "           record of underreporting valid mobile ranges and 6XXXXXX is almost fully assigned.\n",
   str% "           A more lenient pattern is better here. -->\n",
   str% "      <mobile>\n",
   str% "        <possibleLengths national=\"7\"/>\n",
   str% "        <exampleNumber>6091234</exampleNumber>\n",
   str% "        <nationalNumberPattern>\n",
   str% "          (?:\n",
   str% "            51[01]|\n",
   str% "            6\\d\\d|\n",
   str% "            7(?:\n",
   str% "              [0-5]\\d|\n",
   str% "              6[0-79]|\n",
   str% "              70\n",
   str% "            )\n",
   str% "          )\\d{4}\n",
   str% "        </nationalNumberPattern>\n",
   str% "      </mobile>\n",
   str% "      <tollFree>\n",
   str% "        <possibleLengths national=\"7\"/>\n",
   str% "        <exampleNumber>2891234</exampleNumber>\n",
   str% "        <nationalNumberPattern>\n",
   str% "          (?:\n",
   str% "            289|\n",
   str% "            8(?:\n",
   str% "              00|\n",
   str% "              6[28]|\n",
   str% "              88|\n",
   str% "              99\n",
   str% "            )\n",
   str% "          )\\d{4}\n",
   str% "        </nationalNumberPattern>\n",
   str% "      </tollFree>\n",
   str% "      <premiumRate>\n",
   str% "        <possibleLengths national=\"7\"/>\n",
   str% "        <exampleNumber>9008123</exampleNumber>\n",
   str% "        <nationalNumberPattern>9008\\d{3}</nationalNumberPattern>\n",
   str% "      </premiumRate>\n",
   str% "      <voip>\n",
   str% "        <possibleLengths national=\"7\"/>\n",
   str% "        <exampleNumber>5151234</exampleNumber>\n",
   str% "        <nationalNumberPattern>515\\d{4}</nationalNumberPattern>\n",
   str% "      </voip>\n",
   str% "    </territory>"]

/-- the text up to the end of territory id=HK countryCode=852 -/
noncomputable def HK : List Str :=
  [str% "\n",
   str% "\n",
   str% "    <!-- Hong Kong (HK) -->\n",
   str% "    <!-- https://www.ofca.gov.hk/en/industry_focus/industry_focus/portability/numbering/index.html -->\n",
   str% "    <territory id=\"HK\" countryCode=\"852\" preferredInternationalPrefix=\"00\"\n",
   str% "               internationalPrefix=\"00(?:30|5[09]|[126-9]?)\" mobileNumberPortableRegion=\"true\">\n",
   str% "      <availableFormats>\n",
   str% "        <numberFormat pattern=\"(\\d{3})(\\d{2,5})\">\n",
   str% "          <leadingDigits>900</leadingDigits>\n",
   str% "          <leadingDigits>9003</leadingDigits>\n",
   str% "          <format>$1 $2</format>\n",
   str% "        </numberFormat>\n",
   str% "        <numberFormat pattern=\"(\\d{4})(\\d{4})\">\n",
   str% "          <leadingDigits>\n",
   str% "            [2-7]|\n",
   str% "            8[1-4]|\n",
   str% "            9(?:\n",
   str% "              0[1-9]|\n",
   str% "              [1-8]\n",
   str% "            )\n",
   str% "          </leadingDigits>\n",
   str% "          <format>$1 $2</format>\n",
   str% "        </numberFormat>\n",
   str% "        <numberFormat pattern=\"(\\d{3})(\\d{3})(\\d{3})\">\n",
   str% "          <leadingDigits>8</leadingDigits>\n",
   str% "          <format>$1 $2 $3</format>\n",
   str% "        </numberFormat>\n",
   str% "        <numberFormat pattern=\"(\\d{3})(\\d{2})(\\d{3})(\\d{3})\">\n",
   str% "          <leadingDigits>9</leadingDigits>\n",
   str% "          <format>$1 $2 $3 $4</format>\n",
   str% "        </numberFormat>\n",
   str% "      </availableFormats>\n",
   str% "      <generalDesc>\n",
   str% "        <nationalNumberPattern>\n",
   str% "          8[0-46-9]\\d{6,7}|\n",
   str% "          9\\d{4,7}|\n",
   str% "          (?:\n",
   str% "            [2-7]|\n",
   str% "            9\\d{3}\n",
   str% "          )\\d{7}\n",
   str% "        </nationalNumberPattern>\n",
   str% "      </generalDesc>\n",
   str% "      <fixedLine>\n",
   str% "        <possibleLengths national=\"8\"/>\n",
   str% "        <exampleNumber>21234567</exampleNumber>\n",
   str% "        <nationalNumberPattern>\n",
   str% "          (?:\n",
   str% "            2(?:\n",
   str% "              [13-9]\\d|\n",
   str% "              2[013-9]\n",
   str% "            )\\d|\n",
   str% "            3(?:\n",
   str% "              (?:\n",
   str% "                [1569][0-24-9]|\n",
   str% "                4[0-246-9]|\n",
   str% "                7[0-24-69]\n",
   str% "              )\\d|\n",
   str% "              8(?:\n",
   str% "                4[0-8]|\n",
   str% "                [579]\\d|\n",
   str% "                6[0-5]\n",
   str% "              )\n",
   str% "            )|\n",
   str% "            58(?:\n",
   str% "              0[1-9]|\n",
   str% "              1[2-9]\n",
   str% "            )\n",
   str% "          )\\d{4}\n",
   str% "        </nationalNumberPattern>\n",
   str% "      </fixedLine>\n",
   str% "      <!-- Prefixes assigned to 'CMMobile Global Communications Ltd' are on hold as per Ofcom\n",
   str% "           24 Nov 2017 update, but we continue to support them as there is no much information\n",
   str% "           when these numbers will be reactivated again. -->\n",
   str% "      <mobile>\n",
   str% "        <possibleLengths national=\"8\"/>\n",
   str% "        <exampleNumber>51234567</exampleNumber>\n",
   str% "        <nationalNumberPattern>\n",
   str% "          (?:\n",
   str% "            4(?:\n",
   str% "              (?:\n",
   str% "                09|\n",
   str% "                24\n",
   str% "              )[3-6]|\n",
   str% "              44[0-35-9]|\n",
   str% "              6(?:\n",
   str% "                4[0-57-9]|\n",
   str% "                6[0-6]\n",
   str% "              )|\n",
   str% "              7(?:\n",
   str% "                4[0-48]|\n",
   str% "                6[0-5]\n",
   str% "              )\n",
   str% "            )|\n",
   str% "            5(?:\n",
   str% "              25[3-7]|\n",
   str% "              35[4-8]|\n",
   str% "              73[0-6]|\n",
   str% "              95[0-8]\n",
   str% "            )|\n",
   str% "            6(?:\n",
   str% "              26[013-8]|\n",
   str% "              (?:\n",
   str% "                66|\n",
   str% "                78\n",
   str% "              )[0-5]\n",
   str% "            )|\n",
   str% "            70(?:\n",
   str% "              7[1-8]|\n",
   str% "              8[0-8]\n",
   str% "            )|\n",
   str% "            84(?:\n",
   str% "              4[0-2]|\n",
   str% "              8[0-35-9]\n",
   str% "            )|\n",
   str% "            9(?:\n",
   str% "              29[013-9]|\n",
   str% "              39[014-9]|\n",
   str% "              59[0-467]|\n",
   str% "              899\n",
   str% "            )\n",
   str% "          )\\d{4}|\n",
   str% "          (?:\n",
   str% "            4(?:\n",
   str% "              4[0-35-9]|\n",
   str% "              6[0-357-9]|\n",
   str% "              7[0-35]\n",
   str% "            )|\n",
   str% "            5(?:\n",
   str% "              [1-59][0-46-9]|\n",
   str% "              6[0-4689]|\n",
   str% "              7[0-246-9]\n",
   str% "            )|\n",
   str% "            6(?:\n",
   str% "              0[1-9]|\n",
   str% "              [13-59]\\d|\n",
   str% "              [268][0-57-9]|\n",
   str% "              7[0-79]\n",
   str% "            )|\n",
   str% "            70[1-59]|\n",
   str% "            84[0-39]|\n",
   str% "            9(?:\n",
   str% "              0[1-9]|\n",
   str% "              1[02-9]|\n",
   str% "              [2358][0-8]|\n",
   str% "              [467]\\d\n",
   str% "            )\n",
   str% "          )\\d{5}\n",
   str% "        </nationalNumberPattern>\n",
   str% "      </mobile>\n",
   str% "      <pager>\n",
   str% "        <possibleLengths national=\"8\"/>\n",
   str% "        <exampleNumber>71123456</exampleNumber>\n",
   str% "        <nationalNumberPattern>\n",
   str% "          7(?:\n",
   str% "            1(?:\n",
   str% "              0[0-38]|\n",
   str% "              1[0-3679]|\n",
   str% "              3[013]|\n",
   str% "              69|\n",
   str% "              9[0136]\n",
   str% "            )|\n",
   str% "            2(?:\n",
   str% "              [02389]\\d|\n",
   str% "              1[18]|\n",
   str% "              7[27-9]\n",
   str% "            )|\n",
   str% "            3(?:\n",
   str% "              [0-38]\\d|\n",
   str% "              7[0-369]|\n",
   str% "              9[2357-9]\n",
   str% "            )|\n",
   str% "            47\\d|\n",
   str% "            5(?:\n",
   str% "              [178]\\d|\n",
   str% "              5[0-5]\n",
   str% "            )|\n",
   str% "            6(?:\n",
   str% "              0[0-7]|\n",
   str% "              2[236-9]|\n",
   str% "              [35]\\d\n",
   str% "            )|\n",
   str% "            7(?:\n",
   str% "              [27]\\d|\n",
   str% "              8[7-9]\n",
   str% "            )|\n",
   str% "            8(?:\n",
   str% "              [23689]\\d|\n",
   str% "              7[1-9]\n",
   str% "            )|\n",
   str% "            9(?:\n",
   str% "              [025]\\d|\n",
   str% "              6[0-246-8]|\n",
   str% "              7[0-36-9]|\n",
   str% "              8[238]\n",
   str% "            )\n",
   str% "          )\\d{4}\n",
   str% "        </nationalNumberPattern>\n",
   str% "      </pager>\n",
   str% "      <tollFree>\n",
   str% "        <possibleLengths national=\"9\"/>\n",
   str% "        <exampleNumber>800123456</exampleNumber>\n",
   str% "        <nationalNumberPattern>800\\d{6}</nationalNumberPattern>\n",
   str% "      </tollFree>\n",
   str% "      <premiumRate>\n",
   str% "        <possibleLengths national=\"[5-8],11\"/>\n",
   str% "        <exampleNumber>90012345678</exampleNumber>\n",
   str% "        <nationalNumberPattern>\n",
   str% "          900(?:\n",
   str% "            [0-24-9]\\d{7}|\n",
   str% "            3\\d{1,4}\n",
   str% "          )\n",
   str% "        </nationalNumberPattern>\n",
   str% "      </premiumRate>\n",
   str% "      <personalNumber>\n",
   str% "        <possibleLengths national=\"8\"/>\n",
   str% "        <exampleNumber>81123456</exampleNumber>\n",
   str% "        <nationalNumberPattern>\n",
   str% "          8(?:\n",
   str% "            1[0-4679]\\d|\n",
   str% "            2(?:\n",
   str% "              [0-36]\\d|\n",
   str% "              7[0-4]\n",
   str% "            )|\n",
   str% "            3(?:\n",
   str% "              [034]\\d|\n",
   str% "              2[09]|\n",
   str% "              70\n",
   str% "            )\n",
   str% "          )\\d{4}\n",
   str% "        </nationalNumberPattern>\n",
   str% "      </personalNumber>\n",
   str% "      <!-- These are mentioned as Access Codes in the ITU doc however UAN seems to be the best\n",
   str% "           since they seem to cost the same as fixed-line based on our correspondence with ofca,\n",
   str% "           and are used by businesses to forward to a local number. -->\n",
   str% "      <uan>\n",
   str% "        <possibleLengths national=\"8\"/>\n",
   str% "        <exampleNumber>30161234</exampleNumber>\n",
   str% "        <nationalNumberPattern>\n",
   str% "          30(?:\n",
   str% "            0[1-9]|\n",
   str% "            [15-7]\\d|\n",
   str% "            2[047]|\n",
   str% "            89\n",
   str% "          )\\d{4}\n",
   str% "        </nationalNumberPattern>\n",
   str% "      </uan>\n",
   str% "    </territory>"]

/-- the text up to the end of territory id=HN countryCode=504 -/
noncomputable def HN : List Str :=
  [str% "\n",
   str% "\n",
   str% "    <!-- Honduras (HN) -->\n",
   str% "    <!-- It seems there is no longer a trunk prefix in use, based on websites like\n",
   str% "         http://www.howtocallabroad.com/codes.html and on seeing how locals write their numbers in\n",
   str% "         national format. -->\n",
   str% "    <!-- http://www.itu.int/oth/T020200005F/en -->\n",
   str% "    <territory id=\"HN\" countryCode=\"504\" internationalPrefix=\"00\">\n",
   str% "      <availableFormats>\n",
   str% "        <numberFormat pattern=\"(\\d{4})(\\d{4})\">\n",
   str% "          <leadingDigits>[237-9]</leadingDigits>\n",
   str% "          <format>$1-$2</format>\n",
   str% "        </numberFormat>\n",
   str% "        <numberFormat pattern=\"(\\d{3})(\\d{4})(\\d{4})\">\n",
   str% "          <leadingDigits>8</leadingDigits>\n",
   str% "          <format>$1 $2 $3</format>\n",
   str% "          <intlFormat>NA</intlFormat>\n",
   str% "        </numberFormat>\n",
   str% "      </availableFormats>\n",
   str% "      <generalDesc>\n",
   str% "        <nationalNumberPattern>\n",
   str% "          8\\d{10}|\n",
   str% "          [237-9]\\d{7}\n",
   str% "        </nationalNumberPattern>\n",
   str% "      </generalDesc>\n",
   str% "      <noInternationalDialling>\n",
   str% "        <possibleLengths national=\"11\"/>\n",
   str% "        <nationalNumberPattern>8002\\d{7}</nationalNumberPattern>\n",
   str% "      </noInternationalDialling>\n",
   str% "      <!-- Extra prefixes 2244, 226[24], 227[0135689], 228X, 2292, 2407, 250[78], 2516, 2540,\n",
   str% "           256[014], 2570, 2580, 260X, 2617, 262[067], 263[04], 2780 and 2791 were added from numbers\n",
   str% "           found online and user reports. -->\n",
   str% "      <fixedLine>\n",
   str% "        <possibleLengths national=\"8\"/>\n",
   str% "        <exampleNumber>22123456</exampleNumber>\n",
   str% "        <nationalNumberPattern>\n",
   str% "          2(?:\n",
   str% "            2(?:\n",
   str% "              0[0-59]|\n",
   str% "              1[1-9]|\n",
   str% "              [23]\\d|\n",
   str% "              4[02-7]|\n",
   str% "              5[57]|\n",
   str% "              6[245]|\n",
   str% "              7[0135689]|\n",
   str% "              8[01346-9]|\n",
   str% "              9[0-2]\n",
   str% "            )|\n",
   str% "            4(?:\n",
   str% "              0[578]|\n",
   str% "              2[3-59]|\n",
   str% "              3[13-9]|\n",
   str% "              4[0-68]|\n",
   str% "              5[1-3589]\n",
   str% "            )|\n",
   str% "            5(?:\n",
   str% "              0[2357-9]|\n",
   str% "              1[1-356]|\n",
   str% "              4[03-5]|\n",
   str% "              5\\d|\n",
   str% "              6[014-69]|\n",
   str% "              7[04]|\n",
   str% "              80\n",
   str% "            )|\n",
   str% "            6(?:\n",
   str% "              [056]\\d|\n",
   str% "              17|\n",
   str% "              2[067]|\n",
   str% "              3[047]|\n",
   str% "              4[0-378]|\n",
   str% "              [78][0-8]|\n",
   str% "              9[01]\n",
   str% "            )|\n",
   str% "            7(?:\n",
   str% "              0[5-79]|\n",
   str% "              6[46-9]|\n",
   str% "              7[02-9]|\n",
   str% "              8[034]|\n",
   str% "              91\n",
   str% "            )|\n",
   str% "            8(?:\n",
   str% "              79|\n",
   str% "              8[0-357-9]|\n",
   str% "              9[1-57-9]\n",
   str% "            )\n",
   str% "          )\\d{4}\n",
   str% "        </nationalNumberPattern>\n",
   str% "      </fixedLine>\n",
   str% "      <mobile>\n",
   str% "        <possibleLengths national=\"8\"/>\n",
   str% "        <exampleNumber>91234567</exampleNumber>\n",
   str% "        <nationalNumberPattern>[37-9]\\d{7}</nationalNumberPattern>\n",
   str% "      </mobile>\n",
   str% "      <tollFree>\n",
   str% "        <possibleLengths national=\"11\"/>\n",
   str% "        <exampleNumber>80021234567</exampleNumber>\n",
   str% "        <nationalNumberPattern>8002\\d{7}</nationalNumberPattern>\n",
   str% "      </tollFree>\n",
   str% "    </territory>"]

/-- the text up to the end of territory id=HR countryCode=385 -/
noncomputable def HR : List Str :=
  [str% "\n",
   str% "\n",
   str% "    <!-- Croatia (HR) -->\n",
   str% "    <!-- http://www.itu.int/oth/T0202000032/en -->\n",
   str% "    <!-- http://en.wikipedia.org/wiki/%2B385 -->\n",
   str% "    <territory id=\"HR\" countryCode=\"385\" internationalPrefix=\"00\" nationalPrefix=\"0\"\n",
   str% "               mobileNumberPortableRegion=\"true\">\n",
   str% "      <availableFormats>\n",
   str% "        <!-- For 7 digit numbers of premium rate. -->\n",
   str% "        <numberFormat pattern=\"(\\d{2})(\\d{2})(\\d{3})\" nationalPrefixFormattingRule=\"$NP$FG\">\n",
   str% "          <leadingDigits>6[01]</leadingDigits>\n",
   str% "          <format>$1 $2 $3</format>\n",
   str% "        </numberFormat>\n",
   str% "        <numberFormat pattern=\"(\\d{3})(\\d{2})(\\d{2,3})\" nationalPrefixFormattingRule=\"$NP$FG\">\n",
   str% "          <leadingDigits>8</leadingDigits>\n",
   str% "          <format>$1 $2 $3</format>\n",
   str% "        </numberFormat>\n",
   str% "        <!-- The plan says 1 XXX XXXX but the government and local telecom websites are formatted 1\n",
   str% "             XXXX XXX, so we prefer that formatting here. These same sources prefer XXX XXX to XX\n",
   str% "             XXXX as well. -->\n",
   str% "        <numberFormat pattern=\"(\\d)(\\d{4})(\\d{3})\" nationalPrefixFormattingRule=\"$NP$FG\">\n",
   str% "          <leadingDigits>1</leadingDigits>\n",
   str% "          <format>$1 $2 $3</format>\n",
   str% "        </numberFormat>\n",
   str% "        <!-- For 8 and 9 digit numbers of premium, personal and UAN numbers. -->\n",
   str% "        <numberFormat pattern=\"(\\d{2})(\\d{3})(\\d{3,4})\" nationalPrefixFormattingRule=\"$NP$FG\">\n",
   str% "          <leadingDigits>\n",
   str% "            6|\n",
   str% "            7[245]\n",
   str% "          </leadingDigits>\n",
   str% "          <format>$1 $2 $3</format>\n",
   str% "        </numberFormat>\n",
   str% "        <!-- For 8 and 9 digit numbers of mobile. -->\n",
   str% "        <numberFormat pattern=\"(\\d{2})(\\d{3})(\\d{3,4})\" nationalPrefixFormattingRule=\"$NP$FG\">\n",
   str% "          <leadingDigits>9</leadingDigits>\n",
   str% "          <format>$1 $2 $3</format>\n",
   str% "        </numberFormat>\n",
   str% "        <numberFormat pattern=\"(\\d{2})(\\d{3})(\\d{3,4})\" nationalPrefixFormattingRule=\"$NP$FG\">\n",
   str% "          <leadingDigits>[2-57]</leadingDigits>\n",
   str% "          <format>$1 $2 $3</format>\n",
   str% "        </numberFormat>\n",
   str% "        <numberFormat pattern=\"(\\d{3})(\\d{3})(\\d{3})\" nationalPrefixFormattingRule=\"$NP$FG\">\n",
   str% "          <leadingDigits>8</leadingDigits>\n",
   str% "          <format>$1 $2 $3</format>\n",
   str% "        </numberFormat>\n",
   str% "      </availableFormats>\n",
   str% "      <generalDesc>\n",
   str% "        <nationalNumberPattern>\n",
   str% "          [2-69]\\d{8}|\n",
   str% "          80\\d{5,7}|\n",
   str% "          [1-79]\\d{7}|\n",
   str% "          6\\d{6}\n",
   str% "        </nationalNumberPattern>\n",
   str% "      </generalDesc>\n",
   str% "      <fixedLine>\n",
   str% "        <possibleLengths national=\"8,9\" localOnly=\"6,7\"/>\n",
   str% "        <exampleNumber>12345678</exampleNumber>\n",
   str% "        <nationalNumberPattern>\n",
   str% "          1\\d{7}|\n",
   str% "          (?:\n",
   str% "            2[0-3]|\n",
   str% "            3[1-5]|\n",
   str% "            4[02-47-9]|\n",
   str% "            5[1-3]\n",
   str% "          )\\d{6,7}\n",
   str% "        </nationalNumberPattern>\n",
   str% "      </fixedLine>\n",
   str% "      <mobile>\n",
   str% "        <possibleLengths national=\"8,9\"/>\n",
   str% "        <exampleNumber>921234567</exampleNumber>\n",
   str% "        <nationalNumberPattern>\n",
   str% "          9(?:\n",
   str% "            (?:\n",
   str% "              0[1-9]|\n",
   str% "              [12589]\\d\n",
   str% "            )\\d\\d|\n",
   str% "            7(?:\n",
   str% "              [0679]\\d\\d|\n",
   str% "              5(?:\n",
   str% "                [01]\\d|\n",
   str% "                44|\n",
   str% "                55|\n",
   str% "                77|\n",
   str% "                9[5-79]\n",
   str% "              )\n",
   str% "            )\n",
   str% "          )\\d{4}|\n",
   str% "          98\\d{6}\n",
   str% "        </nationalNumberPattern>\n",
   str% "      </mobile>\n",
   str% "      <tollFree>\n",
   str% "        <possibleLengths national=\"[7-9]\"/>\n",
   str% "        <exampleNumber>800123456</exampleNumber>\n",
   str% "        <nationalNumberPattern>80\\d{5,7}</nationalNumberPattern>\n",
   str% "      </tollFree>\n",
   str% "      <premiumRate>\n",
   str% "        <possibleLengths national=\"7,8\"/>\n",
   str% "        <exampleNumber>6001234</exampleNumber>\n",
   str% "        <nationalNumberPattern>\n",
   str% "          6[01459]\\d{6}|\n",
   str% "          6[01]\\d{5}\n",
   str% "        </nationalNumberPattern>\n",
   str% "      </premiumRate>\n",
   str% "      <personalNumber>\n",
   str% "        <possibleLengths national=\"8\"/>\n",
   str% "        <exampleNumber>74123456</exampleNumber>\n",
   str% "        <nationalNumberPattern>7[45]\\d{6}</nationalNumberPattern>\n",
   str% "      </personalNumber>\n",
   str% "      <!-- ITU numbering specifies the length of the numbers with prefix 62 as 8, but there\n",
   str% "           are numbers on the internet with 7 digits after the prefix too. -->\n",
   str% "      <uan>\n",
   str% "        <possibleLengths national=\"8,9\"/>\n",
   str% "        <exampleNumber>62123456</exampleNumber>\n",
   str% "        <nationalNumberPattern>\n",
   str% "          62\\d{6,7}|\n",
   str% "          72\\d{6}\n",
   str% "        </nationalNumberPattern>\n",
   str% "      </uan>\n",
   str% "    </territory>"]

/-- the text up to the end of territory id=HT countryCode=509 -/
noncomputable def HT : List Str :=
  [str% "\n",
   str% "\n",
   str% "    <!-- Haiti (HT) -->\n",
   str% "    <!-- http://www.itu.int/oth/T020200005E/en -->\n",
   str% "    <!-- http://www.numberingplans.com/ -->\n",
   str% "    <territory id=\"HT\" countryCode=\"509\" internationalPrefix=\"00\">\n",
   str% "      <availableFormats>\n",
   str% "        <numberFormat pattern=\"(\\d{2})(\\d{2})(\\d{4})\">\n",
   str% "          <leadingDigits>[2-589]</leadingDigits>\n",
   str% "          <format>$1 $2 $3</format>\n",
   str% "        </numberFormat>\n",
   str% "      </availableFormats>\n",
   str% "      <generalDesc>\n",
   str% "        <nationalNumberPattern>[2-589]\\d{7}</nationalNumberPattern>\n",
   str% "      </generalDesc>\n",
   str% "      <!-- Digicel reported 281 and 29[149] belong to them, the more recent ITU doc 20.I.2017\n",
   str% "           agrees and classifies them as fixedLine so we follow that here. -->\n",
   str% "      <fixedLine>\n",
   str% "        <possibleLengths national=\"8\"/>\n",
   str% "        <exampleNumber>22453300</exampleNumber>\n",
   str% "        <nationalNumberPattern>\n",
   str% "          2(?:\n",
   str% "            2\\d|\n",
   str% "            5[1-5]|\n",
   str% "            81|\n",
   str% "            9[149]\n",
   str% "          )\\d{5}\n",
   str% "        </nationalNumberPattern>\n",
   str% "      </fixedLine>\n",
   str% "      <!-- 32, 33, 35 are kept even though they are not in the ITU doc because numbers found\n",
   str% "           online are working. -->\n",
   str% "      <mobile>\n",
   str% "        <possibleLengths national=\"8\"/>\n",
   str% "        <exampleNumber>34101234</exampleNumber>\n",
   str% "        <nationalNumberPattern>\n",
   str% "          (?:\n",
   str% "            [34]\\d|\n",
   str% "            5[568]\n",
   str% "          )\\d{6}\n",
   str% "        </nationalNumberPattern>\n",
   str% "      </mobile>\n",
   str% "      <!-- ITU document says numbers with prefix 8 are \"value-added services and free numbers\n",
   str% "           without making any further distinction. However, http://www.numberingplans.com/ seems\n",
   str% "           to suggest they are free. -->\n",
   str% "      <tollFree>\n",
   str% "        <possibleLengths national=\"8\"/>\n",
   str% "        <exampleNumber>80012345</exampleNumber>\n",
   str% "        <nationalNumberPattern>8\\d{7}</nationalNumberPattern>\n",
   str% "      </tollFree>\n",
   str% "      <!-- ITU document suggests 98\\d{6}, but http://www.numberingplans.com/ restricts it to\n",
   str% "           98[89]\\d{5}. -->\n",
   str% "      <voip>\n",
   str% "        <possibleLengths national=\"8\"/>\n",
   str% "        <exampleNumber>98901234</exampleNumber>\n",
   str% "        <nationalNumberPattern>\n",
   str% "          9(?:\n",
   str% "            [67][0-4]|\n",
   str% "            8[0-3589]|\n",
   str% "            9\\d\n",
   str% "          )\\d{5}\n",
   str% "        </nationalNumberPattern>\n",
   str% "      </voip>\n",
   str% "    </territory>"]

/-- the text up to the end of territory id=HU countryCode=36 -/
noncomputable def HU : List Str :=
  [str% "\n",
   str% "\n",
   str% "    <!-- Hungary (HU) -->\n",
   str% "    <!-- http://www.itu.int/oth/T0202000061/en -->\n",
   str% "    <!-- As per Wikipedia https://en.wikipedia.org/wiki/Telephone_numbers_in_Hungary format\n",
   str% "         for both fixed line and mobile number should be preceded with national prefix \"06\". -->\n",
   str% "    <territory id=\"HU\" countryCode=\"36\" internationalPrefix=\"00\" nationalPrefix=\"06\"\n",
   str% "               mobileNumberPortableRegion=\"true\">\n",
   str% "      <availableFormats>\n",
   str% "        <numberFormat pattern=\"(\\d)(\\d{3})(\\d{4})\" nationalPrefixFormattingRule=\"($NP $FG)\">\n",
   str% "          <leadingDigits>1</leadingDigits>\n",
   str% "          <format>$1 $2 $3</format>\n",
   str% "        </numberFormat>\n",
   str% "        <numberFormat pattern=\"(\\d{2})(\\d{3})(\\d{3})\" nationalPrefixFormattingRule=\"($NP $FG)\">\n",
   str% "          <leadingDigits>\n",
   str% "            [27][2-9]|\n",
   str% "            3[2-7]|\n",
   str% "            4[24-9]|\n",
   str% "            5[2-79]|\n",
   str% "            6|\n",
   str% "            8[2-57-9]|\n",
   str% "            9[2-69]\n",
   str% "          </leadingDigits>\n",
   str% "          <format>$1 $2 $3</format>\n",
   str% "        </numberFormat>\n",
   str% "        <numberFormat pattern=\"(\\d{2})(\\d{3})(\\d{3,4})\" nationalPrefixFormattingRule=\"$NP $FG\">\n",
   str% "          <leadingDigits>[2-9]</leadingDigits>\n",
   str% "          <format>$1 $2 $3</format>\n",
   str% "        </numberFormat>\n",
   str% "      </availableFormats>\n",
   str% "      <generalDesc>\n",
   str% "        <nationalNumberPattern>\n",
   str% "          [235-7]\\d{8}|\n",
   str% "          [1-9]\\d{7}\n",
   str% "        </nationalNumberPattern>\n",
   str% "      </generalDesc>\n",
   str% "      <noInternationalDialling>\n",
   str% "        <possibleLengths national=\"8,9\"/>\n",
   str% "        <nationalNumberPattern>\n",
   str% "          (?:\n",
   str% "            [48]0\\d|\n",
   str% "            680[29]\n",
   str% "          )\\d{5}\n",
   str% "        </nationalNumberPattern>\n",
   str% "      </noInternationalDialling>\n",
   str% "      <fixedLine>\n",
   str% "        <possibleLengths national=\"8\" localOnly=\"6,7\"/>\n",
   str% "        <exampleNumber>12345678</exampleNumber>\n",
   str% "        <nationalNumberPattern>\n",
   str% "          (?:\n",
   str% "            1\\d|\n",
   str% "            [27][2-9]|\n",
   str% "            3[2-7]|\n",
   str% "            4[24-9]|\n",
   str% "            5[2-79]|\n",
   str% "            6[23689]|\n",
   str% "            8[2-57-9]|\n",
   str% "            9[2-69]\n",
   str% "          )\\d{6}\n",
   str% "        </nationalNumberPattern>\n",
   str% "      </fixedLine>\n",
   str% "      <mobile>\n",
   str% "        <possibleLengths national=\"9\"/>\n",
   str% "        <exampleNumber>201234567</exampleNumber>\n",
   str% "        <nationalNumberPattern>\n",
   str% "          (?:\n",
   str% "            [257]0|\n",
   str% "            3[01]\n",
   str% "          )\\d{7}\n",
   str% "        </nationalNumberPattern>\n",
   str% "      </mobile>\n",
   str% "      <!-- The prefix 40 which was earlier sharedcost is changed to toll free as of Jul. 2016.\n",
   str% "           Toll free prefix 6802 supported based on user report. -->\n",
   str% "      <tollFree>\n",
   str% "        <possibleLengths national=\"8,9\"/>\n",
   str% "        <exampleNumber>80123456</exampleNumber>\n",
   str% "        <nationalNumberPattern>\n",
   str% "          (?:\n",
   str% "            [48]0\\d|\n",
   str% "            680[29]\n",
   str% "          )\\d{5}\n",
   str% "        </nationalNumberPattern>\n",
   str% "      </tollFree>\n",
   str% "      <premiumRate>\n",
   str% "        <possibleLengths national=\"8\"/>\n",
   str% "        <exampleNumber>90123456</exampleNumber>\n",
   str% "        <nationalNumberPattern>9[01]\\d{6}</nationalNumberPattern>\n",
   str% "      </premiumRate>\n",
   str% "      <!-- Includes non-geographic nomadic numbers. -->\n",
   str% "      <voip>\n",
   str% "        <possibleLengths national=\"9\"/>\n",
   str% "        <exampleNumber>211234567</exampleNumber>\n",
   str% "        <nationalNumberPattern>21\\d{7}</nationalNumberPattern>\n",
   str% "      </voip>\n",
   str% "      <!-- Includes numbers for corporate networks. -->\n",
   str% "      <uan>\n",
   str% "        <possibleLengths national=\"9\"/>\n",
   str% "        <exampleNumber>381234567</exampleNumber>\n",
   str% "        <nationalNumberPattern>38\\d{7}</nationalNumberPattern>\n",
   str% "      </uan>\n",
   str% "    </territory>"]

/-- the text up to the end of territory id=ID countryCode=62 -/
noncomputable def ID : List Str :=
  [str% "\n",
   str% "\n",
   str% "    <!-- Indonesia (ID) -->\n",
   str% "    <!-- From 2001, very out of date. -->\n",
   str% "    <!-- http://www.itu.int/oth/T0202000064/en -->\n",
   str% "    <!-- http://en.wikipedia.org/wiki/%2B62 -->\n",
   str% "    <territory id=\"ID\" countryCode=\"62\" internationalPrefix=\"00[89]\" nationalPrefix=\"0\">\n",
   str% "      <availableFormats>\n",
   str% "        <!-- Short UAN numbers -->\n",
   str% "        <numberFormat pattern=\"(\\d)(\\d{3})(\\d{3})\">\n",
   str% "          <leadingDigits>15</leadingDigits>\n",
   str% "          <format>$1 $2 $3</format>\n",
   str% "        </numberFormat>\n",
   str% "        <!-- Fixed line 2-digit area codes -->\n",
   str% "        <numberFormat pattern=\"(\\d{2})(\\d{5,9})\" nationalPrefixFormattingRule=\"($NP$FG)\">\n",
   str% "          <leadingDigits>\n",
   str% "            2[124]|\n",
   str% "            [36]1\n",
   str% "          </leadingDigits>\n",
   str% "          <format>$1 $2</format>\n",
   str% "        </numberFormat>\n",
   str% "        <!-- http://en.wikipedia.org/wiki/Toll-free_telephone_number, and examples on the web show\n",
   str% "             that sometimes they are followed by fewer digits -->\n",
   str% "        <numberFormat pattern=\"(\\d{3})(\\d{5,7})\" nationalPrefixFormattingRule=\"$NP$FG\">\n",
   str% "          <leadingDigits>800</leadingDigits>\n",
   str% "          <format>$1 $2</format>\n",
   str% "        </numberFormat>\n",
   str% "        <!-- Fixed line 3-digit area codes -->\n",
   str% "        <numberFormat pattern=\"(\\d{3})(\\d{5,8})\" nationalPrefixFormattingRule=\"($NP$FG)\">\n",
   str% "          <leadingDigits>[2-79]</leadingDigits>\n",
   str% "          <format>$1 $2</format>\n",
   str% "        </numberFormat>\n",
   str% "        <!-- 9-10 digit mobile numbers -->\n",
   str% "        <numberFormat pattern=\"(\\d{3})(\\d{3,4})(\\d{3})\" nationalPrefixFormattingRule=\"$NP$FG\">\n",
   str% "          <leadingDigits>8[1-35-9]</leadingDigits>\n",
   str% "          <format>$1-$2-$3</format>\n",
   str% "        </numberFormat>\n",
   str% "        <!-- Toll free numbers -->\n",
   str% "        <numberFormat pattern=\"(\\d{3})(\\d{6,8})\" nationalPrefixFormattingRule=\"$NP$FG\">\n",
   str% "          <leadingDigits>1</leadingDigits>\n",
   str% "          <format>$1 $2</format>\n",
   str% "        </numberFormat>\n",
   str% "        <!-- Shared cost numbers -->\n",
   str% "        <numberFormat pattern=\"(\\d{3})(\\d{3})(\\d{4})\" nationalPrefixFormattingRule=\"$NP$FG\">\n",
   str% "          <leadingDigits>804</leadingDigits>\n",
   str% "          <format>$1 $2 $3</format>\n",
   str% "        </numberFormat>\n",
   str% "        <!-- UAN and premium rate numbers -->\n",
   str% "        <numberFormat pattern=\"(\\d{3})(\\d)(\\d{3})(\\d{3})\" nationalPrefixFormattingRule=\"$NP$FG\">\n",
   str% "          <leadingDigits>80</leadingDigits>\n",
   str% "          <format>$1 $2 $3 $4</format>\n",
   str% "        </numberFormat>\n",
   str% "        <!-- 11-12 digit mobile numbers -->\n",
   str% "        <numberFormat pattern=\"(\\d{3})(\\d{4})(\\d{4,5})\" nationalPrefixFormattingRule=\"$NP$FG\">\n",
   str% "          <leadingDigits>8</leadingDigits>\n",
   str% "          <format>$1-$2-$3</format>\n",
   str% "        </numberFormat>\n",
   str% "        <!-- Format for 001803 toll free numbers. -->\n",
   str% "        <numberFormat pattern=\"(\\d{3})(\\d{3})(\\d{3})(\\d{2,8})\">\n",
   str% "          <leadingDigits>001</leadingDigits>\n",
   str% "          <format>$1 $2 $3 $4</format>\n",
   str% "          <intlFormat>NA</intlFormat>\n",
   str% "        </numberFormat>\n",
   str% "        <!-- Format for 13 digit ITFS numbers. -->\n",
   str% "        <numberFormat pattern=\"(\\d{2})(\\d{4})(\\d{3})(\\d{4})\">\n",
   str% "          <leadingDigits>0</leadingDigits>\n",
   str% "          <format>$1 $2 $3 $4</format>\n",
   str% "          <intlFormat>NA</intlFormat>\n",
   str% "        </numberFormat>\n",
   str% "      </availableFormats>\n",
   str% "      <generalDesc>\n",
   str% "        <nationalNumberPattern>\n",
   str% "          00[1-9]\\d{9,14}|\n",
   str% "          (?:\n",
   str% "            [1-36]|\n",
   str% "            8\\d{5}\n",
   str% "          )\\d{6}|\n",
   str% "          00\\d{9}|\n",
   str% "          [1-9]\\d{8,10}|\n",
   str% "          [2-9]\\d{7}\n",
   str% "        </nationalNumberPattern>\n",
   str% "      </generalDesc>\n",
   str% "      <!-- 00798 ITFS numbers can't be dialled internationally. Source:\n",
   str% "           https://support.twilio.com/hc/en-us/articles/115007579027-Toll-free-phone-number-restrictions-and-limitations -->\n",
   str% "      <noInternationalDialling>\n",
   str% "        <possibleLengths national=\"[10-17]\"/>\n",
   str% "        <nationalNumberPattern>\n",
   str% "          001803\\d{5,11}|\n",
   str% "          (?:\n",
   str% "            007803\\d|\n",
   str% "            8071\n",
   str% "          )\\d{6}\n",
   str% "        </nationalNumberPattern>\n",
   str% "      </noInternationalDialling>\n",
   str% "      <!-- Area codes taken from wikipedia, with missing ones added from\n",
   str% "           http://www.telkom.co.id/customer-services/area-and-country-code/?type=area.\n",
   str% "           We also added 0770 after user feedback because it seems to be used on Bintan island.\n",
   str% "           Where known, fixed mobile prefixes have been represented as Mobile. -->\n",
   str% "      <!-- Very short (5/6 digit) local numbers in Jakarta seem to be special cases for various\n",
   str% "           well known companies (Mc Donalds, KFC etc...). Some of these are listed in:\n",
   str% "           http://cms.binus.edu/datapage/file/io/Spring2014SE/International_Student_Handbook_BINUS.pdf\n",
   str% "           There seem to be numbers of this length for area code 22 as well based on numbers found\n",
   str% "           online. -->\n",
   str% "      <!-- The ITU doc is outdated (2001), and many numbers of different lengths were supported\n",
   str% "           here based on valid numbers found and user report. -->\n",
   str% "      <fixedLine>\n",
   str% "        <possibleLengths national=\"[7-11]\" localOnly=\"5,6\"/>\n",
   str% "        <exampleNumber>218350123</exampleNumber>\n",
   str% "        <nationalNumberPattern>\n",
   str% "          2[124]\\d{7,8}|\n",
   str% "          619\\d{8}|\n",
   str% "          2(?:\n",
   str% "            1(?:\n",
   str% "              14|\n",
   str% "              500\n",
   str% "            )|\n",
   str% "            2\\d{3}\n",
   str% "          )\\d{3}|\n",
   str% "          61\\d{5,8}|\n",
   str% "          (?:\n",
   str% "            2(?:\n",
   str% "              [35][1-4]|\n",
   str% "              6[0-8]|\n",
   str% "              7[1-6]|\n",
   str% "              8\\d|\n",
   str% "              9[1-8]\n",
   str% "            )|\n",
   str% "            3(?:\n",
   str% "              1|\n",
   str% "              [25][1-8]|\n",
   str% "              3[1-68]|\n",
   str% "              4[1-3]|\n",
   str% "              6[1-3568]|\n",
   str% "              7[0-469]|\n",
   str% "              8\\d\n",
   str% "            )|\n",
   str% "            4(?:\n",
   str% "              0[1-589]|\n",
   str% "              1[01347-9]|\n",
   str% "              2[0-36-8]|\n",
   str% "              3[0-24-68]|\n",
   str% "              43|\n",
   str% "              5[1-378]|\n",
   str% "              6[1-5]|\n",
   str% "              7[134]|\n",
   str% "              8[1245]\n",
   str% "            )|\n",
   str% "            5(?:\n",
   str% "              1[1-35-9]|\n",
   str% "              2[25-8]|\n",
   str% "              3[124-9]|\n",
   str% "              4[1-3589]|\n",
   str% "              5[1-46]|\n",
   str% "              6[1-8]\n",
   str% "            )|\n",
   str% "            6(?:\n",
   str% "              [25]\\d|\n",
   str% "              3[1-69]|\n",
   str% "              4[1-6]\n",
   str% "            )|\n",
   str% "            7(?:\n",
   str% "              02|\n",
   str% "              [125][1-9]|\n",
   str% "              [36]\\d|\n",
   str% "              4[1-8]|\n",
   str% "              7[0-36-9]\n",
   str% "            )|\n",
   str% "            9(?:\n",
   str% "              0[12]|\n",
   str% "              1[013-8]|\n",
   str% "              2[0-479]|\n",
   str% "              5[125-8]|\n",
   str% "              6[23679]|\n",
   str% "              7[159]|\n",
   str% "              8[01346]\n",
   str% "            )\n",
   str% "          )\\d{5,8}\n",
   str% "        </nationalNumberPattern>\n",
   str% "      </fixedLine>\n",
   str% "      <mobile>\n",
   str% "        <possibleLengths national=\"[9-12]\"/>\n",
   str% "        <exampleNumber>812345678</exampleNumber>\n",
   str% "        <nationalNumberPattern>8[1-35-9]\\d{7,10}</nationalNumberPattern>\n",
   str% "      </mobile>\n",
   str% "      <tollFree>\n",
   str% "        <possibleLengths national=\"[8-17]\"/>\n",
   str% "        <exampleNumber>8001234567</exampleNumber>\n",
   str% "        <nationalNumberPattern>\n",
   str% "          00(?:\n",
   str% "            1803\\d{5,11}|\n",
   str% "            7803\\d{7}\n",
   str% "          )|\n",
   str% "          (?:\n",
   str% "            177\\d|\n",
   str% "            800\n",
   str% "          )\\d{5,7}\n",
   str% "        </nationalNumberPattern>\n",
   str% "      </tollFree>\n",
   str% "      <!-- The information below is provided by an Indonesian -->\n",
   str% "      <premiumRate>\n",
   str% "        <possibleLengths national=\"10\"/>\n",
   str% "        <exampleNumber>8091234567</exampleNumber>\n",
   str% "        <nationalNumberPattern>809\\d{7}</nationalNumberPattern>\n",
   str% "      </premiumRate>\n",
   str% "      <sharedCost>\n",
   str% "        <possibleLengths national=\"10\"/>\n",
   str% "        <exampleNumber>8041234567</exampleNumber>\n",
   str% "        <nationalNumberPattern>804\\d{7}</nationalNumberPattern>\n",
   str% "      </sharedCost>\n",
   str% "      <uan>\n",
   str% "        <possibleLengths national=\"7,10\"/>\n",
   str% "        <exampleNumber>8071123456</exampleNumber>\n",
   str% "        <nationalNumberPattern>\n",
   str% "          (?:\n",
   str% "            1500|\n",
   str% "            8071\\d{3}\n",
   str% "          )\\d{3}\n",
   str% "        </nationalNumberPattern>\n",
   str% "      </uan>\n",
   str% "    </territory>"]

/-- the text up to the end of territory id=IE countryCode=353 -/
noncomputable def IE : List Str :=
  [str% "\n",
   str% "\n",
   str% "    <!-- Ireland (IE) -->\n",
   str% "    <!-- http://www.comreg.ie/licensing_and_services/numbering_plan_for_ireland.552.440.html -->\n",
   str% "    <!-- http://www.comreg.ie/_fileupload/publications/ComReg1119.pdf -->\n",
   str% "    <territory id=\"IE\" countryCode=\"353\" internationalPrefix=\"00\" nationalPrefix=\"0\"\n",
   str% "               mobileNumberPortableRegion=\"true\">\n",
   str% "      <availableFormats>\n",
   str% "        <numberFormat pattern=\"(\\d{2})(\\d{5})\" nationalPrefixFormattingRule=\"($NP$FG)\">\n",
   str% "          <leadingDigits>\n",
   str% "            2[24-9]|\n",
   str% "            47|\n",
   str% "            58|\n",
   str% "            6[237-9]|\n",
   str% "            9[35-9]\n",
   str% "          </leadingDigits>\n",
   str% "          <format>$1 $2</format>\n",
   str% "        </numberFormat>\n",
   str% "        <numberFormat pattern=\"(\\d{3})(\\d{5})\" nationalPrefixFormattingRule=\"($NP$FG)\">\n",
   str% "          <leadingDigits>[45]0</leadingDigits>\n",
   str% "          <format>$1 $2</format>\n",
   str% "        </numberFormat>\n",
   str% "        <numberFormat pattern=\"(\\d)(\\d{3,4})(\\d{4})\" nationalPrefixFormattingRule=\"($NP$FG)\">\n",
   str% "          <leadingDigits>1</leadingDigits>\n",
   str% "          <format>$1 $2 $3</format>\n",
   str% "        </numberFormat>\n",
   str% "        <numberFormat pattern=\"(\\d{2})(\\d{3})(\\d{3,4})\" nationalPrefixFormattingRule=\"($NP$FG)\">\n",
   str% "          <leadingDigits>\n",
   str% "            [2569]|\n",
   str% "            4[1-69]|\n",
   str% "            7[14]\n",
   str% "          </leadingDigits>\n",
   str% "          <format>$1 $2 $3</format>\n",
   str% "        </numberFormat>\n",
   str% "        <numberFormat pattern=\"(\\d{3})(\\d{3})(\\d{3})\" nationalPrefixFormattingRule=\"$NP$FG\">\n",
   str% "          <leadingDigits>70</leadingDigits>\n",
   str% "          <format>$1 $2 $3</format>\n",
   str% "        </numberFormat>\n",
   str% "        <numberFormat pattern=\"(\\d{3})(\\d{3})(\\d{3})\" nationalPrefixFormattingRule=\"($NP$FG)\">\n",
   str% "          <leadingDigits>81</leadingDigits>\n",
   str% "          <format>$1 $2 $3</format>\n",
   str% "        </numberFormat>\n",
   str% "        <numberFormat pattern=\"(\\d{2})(\\d{3})(\\d{4})\" nationalPrefixFormattingRule=\"$NP$FG\">\n",
   str% "          <leadingDigits>[78]</leadingDigits>\n",
   str% "          <format>$1 $2 $3</format>\n",
   str% "        </numberFormat>\n",
   str% "        <numberFormat pattern=\"(\\d{4})(\\d{3})(\\d{3})\">\n",
   str% "          <leadingDigits>1</leadingDigits>\n",
   str% "          <format>$1 $2 $3</format>\n",
   str% "        </numberFormat>\n",
   str% "        <numberFormat pattern=\"(\\d{2})(\\d{4})(\\d{4})\" nationalPrefixFormattingRule=\"($NP$FG)\">\n",
   str% "          <leadingDigits>4</leadingDigits>\n",
   str% "          <format>$1 $2 $3</format>\n",
   str% "        </numberFormat>\n",
   str% "        <!-- Voicemail numbers: same as mobile prefixes but the third digit is always 5. Formatting\n",
   str% "             done like this to differentiate from mobile numbers (which are shorter), and based on\n",
   str% "             a couple of examples found online. -->\n",
   str% "        <numberFormat pattern=\"(\\d{2})(\\d)(\\d{3})(\\d{4})\" nationalPrefixFormattingRule=\"$NP$FG\">\n",
   str% "          <leadingDigits>8</leadingDigits>\n",
   str% "          <format>$1 $2 $3 $4</format>\n",
   str% "        </numberFormat>\n",
   str% "      </availableFormats>\n",
   str% "      <generalDesc>\n",
   str% "        <nationalNumberPattern>\n",
   str% "          (?:\n",
   str% "            1\\d|\n",
   str% "            [2569]\n",
   str% "          )\\d{6,8}|\n",
   str% "          4\\d{6,9}|\n",
   str% "          7\\d{8}|\n",
   str% "          8\\d{8,9}\n",
   str% "        </nationalNumberPattern>\n",
   str% "      </generalDesc>\n",
   str% "      <noInternationalDialling>\n",
   str% "        <possibleLengths national=\"10\"/>\n",
   str% "        <nationalNumberPattern>18[59]0\\d{6}</nationalNumberPattern>\n",
   str% "      </noInternationalDialling>\n",
   str% "      <!-- We allow 6-7 digit subscriber numbers for the 021 area code since that seems to be\n",
   str% "           reflected by the numbers in the Yellow Pages. Another peculiarity is that 048 actually\n",
   str% "           replaces 00 44 28 when Irish people dial, allowing them to easily dial Northern\n",
   str% "           Ireland. We support these numbers here, although technically they are numbers for the\n",
   str% "           UK. -->\n",
   str% "      <fixedLine>\n",
   str% "        <possibleLengths national=\"[7-10]\" localOnly=\"5,6\"/>\n",
   str% "        <exampleNumber>2212345</exampleNumber>\n",
   str% "        <nationalNumberPattern>\n",
   str% "          (?:\n",
   str% "            1\\d|\n",
   str% "            21\n",
   str% "          )\\d{6,7}|\n",
   str% "          (?:\n",
   str% "            2[24-9]|\n",
   str% "            4(?:\n",
   str% "              0[24]|\n",
   str% "              5\\d|\n",
   str% "              7\n",
   str% "            )|\n",
   str% "            5(?:\n",
   str% "              0[45]|\n",
   str% "              1\\d|\n",
   str% "              8\n",
   str% "            )|\n",
   str% "            6(?:\n",
   str% "              1\\d|\n",
   str% "              [237-9]\n",
   str% "            )|\n",
   str% "            9(?:\n",
   str% "              1\\d|\n",
   str% "              [35-9]\n",
   str% "            )\n",
   str% "          )\\d{5}|\n",
   str% "          (?:\n",
   str% "            23|\n",
   str% "            4(?:\n",
   str% "              [1-469]|\n",
   str% "              8\\d\n",
   str% "            )|\n",
   str% "            5[23679]|\n",
   str% "            6[4-6]|\n",
   str% "            7[14]|\n",
   str% "            9[04]\n",
   str% "          )\\d{7}\n",
   str% "        </nationalNumberPattern>\n",
   str% "      </fixedLine>\n",
   str% "      <mobile>\n",
   str% "        <possibleLengths national=\"9\"/>\n",
   str% "        <exampleNumber>850123456</exampleNumber>\n",
   str% "        <nationalNumberPattern>\n",
   str% "          8(?:\n",
   str% "            22|\n",
   str% "            [35-9]\\d\n",
   str% "          )\\d{6}\n",
   str% "        </nationalNumberPattern>\n",
   str% "      </mobile>\n",
   str% "      <tollFree>\n",
   str% "        <possibleLengths national=\"10\"/>\n",
   str% "        <exampleNumber>1800123456</exampleNumber>\n",
   str% "        <nationalNumberPattern>1800\\d{6}</nationalNumberPattern>\n",
   str% "      </tollFree>\n",
   str% "      <premiumRate>\n",
   str% "        <possibleLengths national=\"10\"/>\n",
   str% "        <exampleNumber>1520123456</exampleNumber>\n",
   str% "        <nationalNumberPattern>\n",
   str% "          15(?:\n",
   str% "            1[2-8]|\n",
   str% "            [2-8]0|\n",
   str% "            9[089]\n",
   str% "          )\\d{6}\n",
   str% "        </nationalNumberPattern>\n",
   str% "      </premiumRate>\n",
   str% "      <sharedCost>\n",
   str% "        <possibleLengths national=\"10\"/>\n",
   str% "        <exampleNumber>1850123456</exampleNumber>\n",
   str% "        <nationalNumberPattern>18[59]0\\d{6}</nationalNumberPattern>\n",
   str% "      </sharedCost>\n",
   str% "      <personalNumber>\n",
   str% "        <possibleLengths national=\"9\"/>\n",
   str% "        <exampleNumber>700123456</exampleNumber>\n",
   str% "        <nationalNumberPattern>700\\d{6}</nationalNumberPattern>\n",
   str% "      </personalNumber>\n",
   str% "      <voip>\n",
   str% "        <possibleLengths national=\"9\"/>\n",
   str% "        <exampleNumber>761234567</exampleNumber>\n",
   str% "        <nationalNumberPattern>76\\d{7}</nationalNumberPattern>\n",
   str% "      </voip>\n",
   str% "      <uan>\n",
   str% "        <possibleLengths national=\"9\"/>\n",
   str% "        <exampleNumber>818123456</exampleNumber>\n",
   str% "        <nationalNumberPattern>818\\d{6}</nationalNumberPattern>\n",
   str% "      </uan>\n",
   str% "      <!-- These start with mobile prefixes, and then have the digit 5 inserted, before the rest\n",
   str% "           of the number. -->\n",
   str% "      <voicemail>\n",
   str% "        <possibleLengths national=\"10\"/>\n",
   str% "        <exampleNumber>8551234567</exampleNumber>\n",
   str% "        <nationalNumberPattern>\n",
   str% "          88210[1-9]\\d{4}|\n",
   str% "          8(?:\n",
   str% "            [35-79]5\\d\\d|\n",
   str% "            8(?:\n",
   str% "              [013-9]\\d\\d|\n",
   str% "              2(?:\n",
   str% "                [01][1-9]|\n",
   str% "                [2-9]\\d\n",
   str% "              )\n",
   str% "            )\n",
   str% "          )\\d{5}\n",
   str% "        </nationalNumberPattern>\n",
   str% "      </voicemail>\n",
   str% "    </territory>"]

/-- the text up to the end of territory id=IL countryCode=972 -/
noncomputable def IL : List Str :=
  [str% "\n",
   str% "\n",
   str% "    <!-- Israel (IL) -->\n",
   str% "    <!-- Formatting practice following wikipedia, and government sites. -->\n",
   str% "    <!-- in Hebrew -->\n",
   str% "    <!-- http://www.itu.int/oth/T020200006A/en -->\n",
   str% "    <!-- http://en.wikipedia.org/wiki/%2B972 -->\n",
   str% "    <!-- http://he.wikipedia.org/wiki/%D7%A7%D7%99%D7%93%D7%95%D7%9E%D7%AA_%D7%98%D7%9C%D7%A4%D7%95%D7%9F_%D7%91%D7%99%D7%A9%D7%A8%D7%90%D7%9C -->\n",
   str% "    <!-- https://data.gov.il/he/datasets/tikshoret/israel-numbering-plan/74b44725-d8cc-4ae9-ba08-2c40a61ab68e -->\n",
   str% "    <territory id=\"IL\" countryCode=\"972\" internationalPrefix=\"0(?:0|1[2-9])\" nationalPrefix=\"0\"\n",
   str% "               mobileNumberPortableRegion=\"true\">\n",
   str% "      <availableFormats>\n",
   str% "        <!-- Short toll-free numbers (for hospitals). -->\n",
   str% "        <numberFormat pattern=\"(\\d{4})(\\d{3})\">\n",
   str% "          <leadingDigits>125</leadingDigits>\n",
   str% "          <format>$1-$2</format>\n",
   str% "        </numberFormat>\n",
   str% "        <!-- 8-digit premium rate. -->\n",
   str% "        <numberFormat pattern=\"(\\d{4})(\\d{2})(\\d{2})\">\n",
   str% "          <leadingDigits>121</leadingDigits>\n",
   str% "          <format>$1-$2-$3</format>\n",
   str% "        </numberFormat>\n",
   str% "        <!-- Fixed line. -->\n",
   str% "        <numberFormat pattern=\"(\\d)(\\d{3})(\\d{4})\" nationalPrefixFormattingRule=\"$NP$FG\">\n",
   str% "          <leadingDigits>[2-489]</leadingDigits>\n",
   str% "          <format>$1-$2-$3</format>\n",
   str% "        </numberFormat>\n",
   str% "        <!-- Mobile and VOIP. -->\n",
   str% "        <numberFormat pattern=\"(\\d{2})(\\d{3})(\\d{4})\" nationalPrefixFormattingRule=\"$NP$FG\">\n",
   str% "          <leadingDigits>[57]</leadingDigits>\n",
   str% "          <format>$1-$2-$3</format>\n",
   str% "        </numberFormat>\n",
   str% "        <!-- 10-digit premium rate. -->\n",
   str% "        <numberFormat pattern=\"(\\d{4})(\\d{3})(\\d{3})\">\n",
   str% "          <leadingDigits>12</leadingDigits>\n",
   str% "          <format>$1-$2-$3</format>\n",
   str% "        </numberFormat>\n",
   str% "        <!-- Universal access (UAN). -->\n",
   str% "        <numberFormat pattern=\"(\\d{4})(\\d{6})\">\n",
   str% "          <leadingDigits>159</leadingDigits>\n",
   str% "          <format>$1-$2</format>\n",
   str% "        </numberFormat>\n",
   str% "        <!-- Variable cost (premium rate, toll free etc.) -->\n",
   str% "        <numberFormat pattern=\"(\\d)(\\d{3})(\\d{3})(\\d{3})\">\n",
   str% "          <leadingDigits>1[7-9]</leadingDigits>\n",
   str% "          <format>$1-$2-$3-$4</format>\n",
   str% "        </numberFormat>\n",
   str% "        <!-- Format is from http://everything.explained.today/Telephone_numbers_in_Israel/\n",
   str% "             These seem to be \"mailbox\" services where you dial \"service prefix\" + \"personal ID\"\n",
   str% "             (maybe a phone number) which is why they are formatted as two separate numbers.\n",
   str% "             Note that 153 prefix might be an M2M number (it's listed as a \"fax box\" service). -->\n",
   str% "        <numberFormat pattern=\"(\\d{3})(\\d{1,2})(\\d{3})(\\d{4})\">\n",
   str% "          <leadingDigits>15</leadingDigits>\n",
   str% "          <format>$1-$2 $3-$4</format>\n",
   str% "        </numberFormat>\n",
   str% "      </availableFormats>\n",
   str% "      <generalDesc>\n",
   str% "        <nationalNumberPattern>\n",
   str% "          1\\d{6}(?:\n",
   str% "            \\d{3,5}\n",
   str% "          )?|\n",
   str% "          [57]\\d{8}|\n",
   str% "          [1-489]\\d{7}\n",
   str% "        </nationalNumberPattern>\n",
   str% "      </generalDesc>\n",
   str% "      <noInternationalDialling>\n",
   str% "        <possibleLengths national=\"10\"/>\n",
   str% "        <nationalNumberPattern>1700\\d{6}</nationalNumberPattern>\n",
   str% "      </noInternationalDialling>\n",
   str% "      <!-- ITU doc states that 153 + NDC (either mobile or fixed-line) + SN corresponds to fax\n",
   str% "           mail. As we do not have separate a fax category, fixedLine is the closest match and\n",
   str% "           consistent with some other countries. For maintainability, only NDC lengths are\n",
   str% "           mentioned: one digit for fixed-line and two for mobile as per ITU. -->\n",
   str% "      <fixedLine>\n",
   str% "        <possibleLengths national=\"8,11,12\" localOnly=\"7\"/>\n",
   str% "        <exampleNumber>21234567</exampleNumber>\n",
   str% "        <nationalNumberPattern>\n",
   str% "          153\\d{8,9}|\n",
   str% "          29[1-9]\\d{5}|\n",
   str% "          (?:\n",
   str% "            2[0-8]|\n",
   str% "            [3489]\\d\n",
   str% "          )\\d{6}\n",
   str% "        </nationalNumberPattern>\n",
   str% "      </fixedLine>\n",
   str% "      <!-- The ITU document has only some of these prefixes - wikipedia lists more. We are fairly\n",
   str% "           sure wikipedia is accurate based on news coverage of the launch of these numbers. Also\n",
   str% "           added 5570, 5571, and 5594 prefixes based on confirmations from the carriers. 559[23]\n",
   str% "           ranges belong to Telzar carrier as per confirmation from them. Prefix 5527 is added\n",
   str% "           based on user report. -->\n",
   str% "      <mobile>\n",
   str% "        <possibleLengths national=\"9\"/>\n",
   str% "        <exampleNumber>502345678</exampleNumber>\n",
   str% "        <nationalNumberPattern>\n",
   str% "          55(?:\n",
   str% "            4(?:\n",
   str% "              0[0-3]|\n",
   str% "              [16]0\n",
   str% "            )|\n",
   str% "            57[0-289]\n",
   str% "          )\\d{4}|\n",
   str% "          5(?:\n",
   str% "            (?:\n",
   str% "              [0-2][02-9]|\n",
   str% "              [36]\\d|\n",
   str% "              [49][2-9]|\n",
   str% "              8[3-7]\n",
   str% "            )\\d|\n",
   str% "            5(?:\n",
   str% "              01|\n",
   str% "              2\\d|\n",
   str% "              3[0-3]|\n",
   str% "              4[3-5]|\n",
   str% "              5[0-25689]|\n",
   str% "              6[6-8]|\n",
   str% "              7[0-267]|\n",
   str% "              8[7-9]|\n",
   str% "              9[1-9]\n",
   str% "            )\n",
   str% "          )\\d{5}\n",
   str% "        </nationalNumberPattern>\n",
   str% "      </mobile>\n",
   str% "      <!-- Online 1-809 numbers now classify themselves as \"toll-free\". -->\n",
   str% "      <tollFree>\n",
   str% "        <possibleLengths national=\"7,10\"/>\n",
   str% "        <exampleNumber>1800123456</exampleNumber>\n",
   str% "        <nationalNumberPattern>\n",
   str% "          1(?:\n",
   str% "            255|\n",
   str% "            80[019]\\d{3}\n",
   str% "          )\\d{3}\n",
   str% "        </nationalNumberPattern>\n",
   str% "      </tollFree>\n",
   str% "      <!-- Peculiarly, one source states that 1956 and 1957 are the new premium rate prefixes.\n",
   str% "           However, no online numbers starting with these prefixes can be found, and this data\n",
   str% "           is not found in any other source. -->\n",
   str% "      <!-- 1200 and 1212 numbers are for televoting. -->\n",
   str% "      <premiumRate>\n",
   str% "        <possibleLengths national=\"8,10\"/>\n",
   str% "        <exampleNumber>1919123456</exampleNumber>\n",
   str% "        <nationalNumberPattern>\n",
   str% "          1212\\d{4}|\n",
   str% "          1(?:\n",
   str% "            200|\n",
   str% "            9(?:\n",
   str% "              0[0-2]|\n",
   str% "              19|\n",
   str% "              9\\d\n",
   str% "            )\n",
   str% "          )\\d{6}\n",
   str% "        </nationalNumberPattern>\n",
   str% "      </premiumRate>\n",
   str% "      <sharedCost>\n",
   str% "        <possibleLengths national=\"10\"/>\n",
   str% "        <exampleNumber>1700123456</exampleNumber>\n",
   str% "        <nationalNumberPattern>1700\\d{6}</nationalNumberPattern>\n",
   str% "      </sharedCost>\n",
   str% "      <!-- These rules are a union of the wikipedia and ITU document prefixes. They are mostly\n",
   str% "           marked as VoIP on wikipedia, but it seems they may indeed be DID (Direct Inward\n",
   str% "           Dialing) numbers, that most people forward to VoIP numbers. -->\n",
   str% "      <voip>\n",
   str% "        <possibleLengths national=\"9\"/>\n",
   str% "        <exampleNumber>771234567</exampleNumber>\n",
   str% "        <nationalNumberPattern>\n",
   str% "          7(?:\n",
   str% "            38(?:\n",
   str% "              [05]\\d|\n",
   str% "              8[0138]\n",
   str% "            )|\n",
   str% "            8(?:\n",
   str% "              33|\n",
   str% "              55|\n",
   str% "              77|\n",
   str% "              81\n",
   str% "            )\\d\n",
   str% "          )\\d{4}|\n",
   str% "          7(?:\n",
   str% "            18|\n",
   str% "            2[23]|\n",
   str% "            3[237]|\n",
   str% "            47|\n",
   str% "            6[258]|\n",
   str% "            7\\d|\n",
   str% "            82|\n",
   str% "            9[2-9]\n",
   str% "          )\\d{6}\n",
   str% "        </nationalNumberPattern>\n",
   str% "      </voip>\n",
   str% "      <!-- 1-599 numbers are actually labelled \"interactive voicemail\" in the ITU document, but\n",
   str% "           according to reports from businesses in Israel and the Hebrew version of the wikipedia\n",
   str% "           page, these are actually a router for business calls, and incur a normal call cost on\n",
   str% "           account of the caller. -->\n",
   str% "      <uan>\n",
   str% "        <possibleLengths national=\"10\"/>\n",
   str% "        <exampleNumber>1599123456</exampleNumber>\n",
   str% "        <nationalNumberPattern>1599\\d{6}</nationalNumberPattern>\n",
   str% "      </uan>\n",
   str% "      <voicemail>\n",
   str% "        <possibleLengths national=\"11,12\"/>\n",
   str% "        <exampleNumber>15112340000</exampleNumber>\n",
   str% "        <nationalNumberPattern>151\\d{8,9}</nationalNumberPattern>\n",
   str% "      </voicemail>\n",
   str% "    </territory>"]

/-- the text up to the end of territory id=IM countryCode=44 -/
noncomputable def IM : List Str :=
  [str% "\n",
   str% "\n",
   str% "    <!-- Isle of Man (IM) -->\n",
   str% "    <!-- Calling code and formatting shared with 'GB' -->\n",
   str% "    <!-- Note that the numbers are fine-grained where needed in order to disambiguate between the\n",
   str% "         4 regions i.e UK, Isle of Man, Jersey and Guernsey. -->\n",
   str% "    <!-- http://static.ofcom.org.uk/static/numbering/ -->\n",
   str% "    <!-- http://en.wikipedia.org/wiki/Telephone_numbers_in_the_United_Kingdom -->\n",
   str% "    <territory id=\"IM\" countryCode=\"44\" leadingDigits=\"74576|(?:16|7[56])24\"\n",
   str% "               internationalPrefix=\"00\" nationalPrefix=\"0\"\n",
   str% "               nationalPrefixForParsing=\"([25-8]\\d{5})$|0|180020\"\n",
   str% "               nationalPrefixTransformRule=\"1624$1\">\n",
   str% "      <generalDesc>\n",
   str% "        <nationalNumberPattern>\n",
   str% "          1624\\d{6}|\n",
   str% "          (?:\n",
   str% "            [3578]\\d|\n",
   str% "            90\n",
   str% "          )\\d{8}\n",
   str% "        </nationalNumberPattern>\n",
   str% "      </generalDesc>\n",
   str% "      <!-- Specific to IM. -->\n",
   str% "      <!-- 1624 with 10 digits. -->\n",
   str% "      <fixedLine>\n",
   str% "        <possibleLengths national=\"10\" localOnly=\"6\"/>\n",
   str% "        <exampleNumber>1624756789</exampleNumber>\n",
   str% "        <nationalNumberPattern>\n",
   str% "          1624(?:\n",
   str% "            230|\n",
   str% "            [5-8]\\d\\d\n",
   str% "          )\\d{3}\n",
   str% "        </nationalNumberPattern>\n",
   str% "      </fixedLine>\n",
   str% "      <!-- 7624[0-4689] numbers could be mobile or paging. However, more evidence and example\n",
   str% "           numbers show these are mobile in practice. -->\n",
   str% "      <mobile>\n",
   str% "        <possibleLengths national=\"10\"/>\n",
   str% "        <exampleNumber>7924123456</exampleNumber>\n",
   str% "        <nationalNumberPattern>\n",
   str% "          76245[06]\\d{4}|\n",
   str% "          7(?:\n",
   str% "            4576|\n",
   str% "            [59]24\\d|\n",
   str% "            624[0-4689]\n",
   str% "          )\\d{5}\n",
   str% "        </nationalNumberPattern>\n",
   str% "      </mobile>\n",
   str% "      <!-- 808 162 with 10 digits. -->\n",
   str% "      <tollFree>\n",
   str% "        <possibleLengths national=\"10\"/>\n",
   str% "        <exampleNumber>8081624567</exampleNumber>\n",
   str% "        <nationalNumberPattern>808162\\d{4}</nationalNumberPattern>\n",
   str% "      </tollFree>\n",
   str% "      <!-- 844 0[49]0 6, 845 624, 870 624, 872 299, 900 624, 901 624, 906 624, 907 624 with 10\n",
   str% "           digits. -->\n",
   str% "      <premiumRate>\n",
   str% "        <possibleLengths national=\"10\"/>\n",
   str% "        <exampleNumber>9016247890</exampleNumber>\n",
   str% "        <nationalNumberPattern>\n",
   str% "          8(?:\n",
   str% "            440[49]06|\n",
   str% "            72299\\d\n",
   str% "          )\\d{3}|\n",
   str% "          (?:\n",
   str% "            8(?:\n",
   str% "              45|\n",
   str% "              70\n",
   str% "            )|\n",
   str% "            90[0167]\n",
   str% "          )624\\d{4}\n",
   str% "        </nationalNumberPattern>\n",
   str% "      </premiumRate>\n",
   str% "      <!-- Other numbers as per GB. -->\n",
   str% "      <personalNumber>\n",
   str% "        <possibleLengths national=\"10\"/>\n",
   str% "        <exampleNumber>7012345678</exampleNumber>\n",
   str% "        <nationalNumberPattern>70\\d{8}</nationalNumberPattern>\n",
   str% "      </personalNumber>\n",
   str% "      <voip>\n",
   str% "        <possibleLengths national=\"10\"/>\n",
   str% "        <exampleNumber>5612345678</exampleNumber>\n",
   str% "        <nationalNumberPattern>56\\d{8}</nationalNumberPattern>\n",
   str% "      </voip>\n",
   str% "      <!-- 308 162, 33d, 344 040 6, 344 090 6, 345 624, 370 624, 372 299, 55 with 10 digits. -->\n",
   str% "      <uan>\n",
   str% "        <possibleLengths national=\"10\"/>\n",
   str% "        <exampleNumber>5512345678</exampleNumber>\n",
   str% "        <nationalNumberPattern>\n",
   str% "          3440[49]06\\d{3}|\n",
   str% "          (?:\n",
   str% "            3(?:\n",
   str% "              08162|\n",
   str% "              3\\d{4}|\n",
   str% "              45624|\n",
   str% "              7(?:\n",
   str% "                0624|\n",
   str% "                2299\n",
   str% "              )\n",
   str% "            )|\n",
   str% "            55\\d{4}\n",
   str% "          )\\d{4}\n",
   str% "        </nationalNumberPattern>\n",
   str% "      </uan>\n",
   str% "    </territory>"]

/-- the text of this module -/
noncomputable def chunk06 : List (List Str) :=
  [GR, GT, GU, GW, GY, HK, HN, HR, HT, HU, ID, IE, IL, IM]

end Phone.Data.S
