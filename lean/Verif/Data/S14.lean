import Verif.Basic.Str
/-! Text of `/repo/assets/PhoneNumberMetadata.xml`, in lines. Generated by `tools/gen_xml.py`; do not edit. -/

set_option maxRecDepth 100000
namespace Phone.Data.S

/-- the text up to the end of territory id=TM countryCode=993 -/
noncomputable def TM : List Str :=
  [str% "\n",
   str% "\n",
   str% "    <!-- Turkmenistan (TM) -->\n",
   str% "    <!-- No tollFree or premiumRate information can be found. -->\n",
   str% "    <!-- http://www.itu.int/oth/T02020000D7/en -->\n",
   str% "    <!-- http://en.wikipedia.org/wiki/Telephone_numbers_in_Turkmenistan -->\n",
   str% "    <territory id=\"TM\" countryCode=\"993\" preferredInternationalPrefix=\"8~10\"\n",
   str% "               internationalPrefix=\"810\" nationalPrefix=\"8\">\n",
   str% "      <availableFormats>\n",
   str% "        <!-- There doesn't seem to be a standardized format. The format below is based on the\n",
   str% "             Turkmenistan embassy at\n",
   str% "             http://www.turkmenistanembassy.org/turkmen/info/contact.html -->\n",
   str% "        <numberFormat pattern=\"(\\d{2})(\\d{2})(\\d{2})(\\d{2})\"\n",
   str% "                      nationalPrefixFormattingRule=\"($NP $FG)\">\n",
   str% "          <leadingDigits>12</leadingDigits>\n",
   str% "          <format>$1 $2-$3-$4</format>\n",
   str% "        </numberFormat>\n",
   str% "        <numberFormat pattern=\"(\\d{3})(\\d)(\\d{2})(\\d{2})\" nationalPrefixFormattingRule=\"($NP $FG)\">\n",
   str% "          <leadingDigits>[1-5]</leadingDigits>\n",
   str% "          <format>$1 $2-$3-$4</format>\n",
   str% "        </numberFormat>\n",
   str% "        <numberFormat pattern=\"(\\d{2})(\\d{6})\" nationalPrefixFormattingRule=\"$NP $FG\">\n",
   str% "          <leadingDigits>[67]</leadingDigits>\n",
   str% "          <format>$1 $2</format>\n",
   str% "        </numberFormat>\n",
   str% "      </availableFormats>\n",
   str% "      <generalDesc>\n",
   str% "        <nationalNumberPattern>\n",
   str% "          (?:\n",
   str% "            [1-6]\\d|\n",
   str% "            71\n",
   str% "          )\\d{6}\n",
   str% "        </nationalNumberPattern>\n",
   str% "      </generalDesc>\n",
   str% "      <!-- Additional prefixes from the wikipedia page. -->\n",
   str% "      <fixedLine>\n",
   str% "        <possibleLengths national=\"8\"/>\n",
   str% "        <exampleNumber>12345678</exampleNumber>\n",
   str% "        <nationalNumberPattern>\n",
   str% "          (?:\n",
   str% "            1(?:\n",
   str% "              2\\d|\n",
   str% "              3[1-9]\n",
   str% "            )|\n",
   str% "            2(?:\n",
   str% "              22|\n",
   str% "              4[0-35-8]\n",
   str% "            )|\n",
   str% "            3(?:\n",
   str% "              22|\n",
   str% "              4[03-9]\n",
   str% "            )|\n",
   str% "            4(?:\n",
   str% "              22|\n",
   str% "              3[128]|\n",
   str% "              4\\d|\n",
   str% "              6[15]\n",
   str% "            )|\n",
   str% "            5(?:\n",
   str% "              22|\n",
   str% "              5[7-9]|\n",
   str% "              6[014-689]\n",
   str% "            )\n",
   str% "          )\\d{5}\n",
   str% "        </nationalNumberPattern>\n",
   str% "      </fixedLine>\n",
   str% "      <!-- According to feedback from users, the carrier Altyn Asyr is the only one currently\n",
   str% "           operating, with the numbers 6[3-5]\\d{6}. MTS used to operate the ranges 6[6-8] but this\n",
   str% "           has been suspended. It is unclear whether it will resume. We support both ranges in the\n",
   str% "           meantime. The range 62 seems also now to be in use, according to numbers found online.\n",
   str% "           MTS Turkmenistan have recently launched their NDC(69). So added range 69 after getting\n",
   str% "           confirmation from the carriers who own them. -->\n",
   str% "      <mobile>\n",
   str% "        <possibleLengths national=\"8\"/>\n",
   str% "        <exampleNumber>66123456</exampleNumber>\n",
   str% "        <nationalNumberPattern>\n",
   str% "          (?:\n",
   str% "            6\\d|\n",
   str% "            71\n",
   str% "          )\\d{6}\n",
   str% "        </nationalNumberPattern>\n",
   str% "      </mobile>\n",
   str% "    </territory>"]

/-- the text up to the end of territory id=TN countryCode=216 -/
noncomputable def TN : List Str :=
  [str% "\n",
   str% "\n",
   str% "    <!-- Tunisia (TN) -->\n",
   str% "    <!-- http://www.itu.int/oth/T02020000D5/en -->\n",
   str% "    <!-- http://www.tunisietelecom.tn/tt/wcm/connect/?MOD=PDMProxy&TYPE=personalization&ID=NONE&KEY=NONE&LIBRARY=%2FcontentRoot%2Ficm%3Alibraries%5B16%5D&FOLDER=%2F&DOC_NAME=%2FcontentRoot%2Ficm%3Alibraries%5B16%5D%2FOTTI+2011.pdf -->\n",
   str% "    <!-- http://www.tunisietelecom.tn/tt/internet/fr/pme/fixe/numeros_acceuil -->\n",
   str% "    <territory id=\"TN\" countryCode=\"216\" internationalPrefix=\"00\">\n",
   str% "      <availableFormats>\n",
   str% "        <numberFormat pattern=\"(\\d{2})(\\d{3})(\\d{3})\">\n",
   str% "          <leadingDigits>[2-57-9]</leadingDigits>\n",
   str% "          <format>$1 $2 $3</format>\n",
   str% "        </numberFormat>\n",
   str% "      </availableFormats>\n",
   str% "      <generalDesc>\n",
   str% "        <nationalNumberPattern>[2-57-9]\\d{7}</nationalNumberPattern>\n",
   str% "      </generalDesc>\n",
   str% "      <!-- All 3[0-2] range numbers are mentioned as fixed-line in 20.II.2012 ITU doc. Few of\n",
   str% "           these are supported in mobile also as 28.IX.2015 ITU doc mentions these as \"Restricted\n",
   str% "           Mobility\" numbers. -->\n",
   str% "      <fixedLine>\n",
   str% "        <possibleLengths national=\"8\"/>\n",
   str% "        <exampleNumber>30010123</exampleNumber>\n",
   str% "        <nationalNumberPattern>\n",
   str% "          81200\\d{3}|\n",
   str% "          (?:\n",
   str% "            3[0-2]|\n",
   str% "            7\\d\n",
   str% "          )\\d{6}\n",
   str% "        </nationalNumberPattern>\n",
   str% "      </fixedLine>\n",
   str% "      <!-- All Restricted Mobility numbers mentioned in ITU doc are supported as mobile based on\n",
   str% "           user report. -->\n",
   str% "      <mobile>\n",
   str% "        <possibleLengths national=\"8\"/>\n",
   str% "        <exampleNumber>20123456</exampleNumber>\n",
   str% "        <nationalNumberPattern>\n",
   str% "          3(?:\n",
   str% "            001|\n",
   str% "            [12]40\n",
   str% "          )\\d{4}|\n",
   str% "          (?:\n",
   str% "            (?:\n",
   str% "              [259]\\d|\n",
   str% "              4[0-8]\n",
   str% "            )\\d|\n",
   str% "            3(?:\n",
   str% "              1[1-35]|\n",
   str% "              6[0-4]|\n",
   str% "              91\n",
   str% "            )\n",
   str% "          )\\d{5}\n",
   str% "        </nationalNumberPattern>\n",
   str% "      </mobile>\n",
   str% "      <!-- ITU lists 80 xx xx xx, but the document published by Tunisie Telecom has more specific\n",
   str% "           information which is followed here. -->\n",
   str% "      <tollFree>\n",
   str% "        <possibleLengths national=\"8\"/>\n",
   str% "        <exampleNumber>80101234</exampleNumber>\n",
   str% "        <nationalNumberPattern>8010\\d{4}</nationalNumberPattern>\n",
   str% "      </tollFree>\n",
   str% "      <premiumRate>\n",
   str% "        <possibleLengths national=\"8\"/>\n",
   str% "        <exampleNumber>88123456</exampleNumber>\n",
   str% "        <nationalNumberPattern>88\\d{6}</nationalNumberPattern>\n",
   str% "      </premiumRate>\n",
   str% "      <!-- 8110xxxx numbers are listed as being \"discounted non-geographical numbers\" and are put\n",
   str% "           here for now. In the future we might consider them as UAN.\n",
   str% "           ITU lists 82 xx xx xx, but the document published by Tunisie Telecom has more specific\n",
   str% "           information which is followed here. -->\n",
   str% "      <sharedCost>\n",
   str% "        <possibleLengths national=\"8\"/>\n",
   str% "        <exampleNumber>81101234</exampleNumber>\n",
   str% "        <nationalNumberPattern>8[12]10\\d{4}</nationalNumberPattern>\n",
   str% "      </sharedCost>\n",
   str% "    </territory>"]

/-- the text up to the end of territory id=TO countryCode=676 -/
noncomputable def TO : List Str :=
  [str% "\n",
   str% "\n",
   str% "    <!-- Tonga (TO) -->\n",
   str% "    <!-- http://www.itu.int/oth/T02020000D3/en -->\n",
   str% "    <!-- http://www.wtng.info/wtng-676-to.html -->\n",
   str% "    <territory id=\"TO\" countryCode=\"676\" internationalPrefix=\"00\">\n",
   str% "      <availableFormats>\n",
   str% "        <numberFormat pattern=\"(\\d{2})(\\d{3})\">\n",
   str% "          <leadingDigits>\n",
   str% "            [2-4]|\n",
   str% "            50|\n",
   str% "            6[09]|\n",
   str% "            7[0-24-69]|\n",
   str% "            8[05]\n",
   str% "          </leadingDigits>\n",
   str% "          <format>$1-$2</format>\n",
   str% "        </numberFormat>\n",
   str% "        <numberFormat pattern=\"(\\d{4})(\\d{3})\">\n",
   str% "          <leadingDigits>0</leadingDigits>\n",
   str% "          <format>$1 $2</format>\n",
   str% "        </numberFormat>\n",
   str% "        <!-- Format for mobile and premium rate numbers. -->\n",
   str% "        <numberFormat pattern=\"(\\d{3})(\\d{4})\">\n",
   str% "          <leadingDigits>[5-9]</leadingDigits>\n",
   str% "          <format>$1 $2</format>\n",
   str% "        </numberFormat>\n",
   str% "      </availableFormats>\n",
   str% "      <generalDesc>\n",
   str% "        <nationalNumberPattern>\n",
   str% "          (?:\n",
   str% "            0800|\n",
   str% "            (?:\n",
   str% "              [5-8]\\d\\d|\n",
   str% "              999\n",
   str% "            )\\d\n",
   str% "          )\\d{3}|\n",
   str% "          [2-8]\\d{4}\n",
   str% "        </nationalNumberPattern>\n",
   str% "      </generalDesc>\n",
   str% "      <fixedLine>\n",
   str% "        <possibleLengths national=\"5\"/>\n",
   str% "        <exampleNumber>20123</exampleNumber>\n",
   str% "        <nationalNumberPattern>\n",
   str% "          (?:\n",
   str% "            2\\d|\n",
   str% "            3[0-8]|\n",
   str% "            4[0-4]|\n",
   str% "            50|\n",
   str% "            6[09]|\n",
   str% "            7[0-24-69]|\n",
   str% "            8[05]\n",
   str% "          )\\d{3}\n",
   str% "        </nationalNumberPattern>\n",
   str% "      </fixedLine>\n",
   str% "      <!-- TCC mobile numbers were given a prefix of \"77\" in 2009, although this is not mentioned\n",
   str% "           in their ITU document. Numbers with a prefix of 75, 84 and 86 have also been found. -->\n",
   str% "      <mobile>\n",
   str% "        <possibleLengths national=\"7\"/>\n",
   str% "        <exampleNumber>7715123</exampleNumber>\n",
   str% "        <nationalNumberPattern>\n",
   str% "          (?:\n",
   str% "            5(?:\n",
   str% "              4[0-5]|\n",
   str% "              5[4-6]\n",
   str% "            )|\n",
   str% "            6(?:\n",
   str% "              [09]\\d|\n",
   str% "              3[02]|\n",
   str% "              8[15-9]\n",
   str% "            )|\n",
   str% "            (?:\n",
   str% "              7\\d|\n",
   str% "              8[46-9]\n",
   str% "            )\\d|\n",
   str% "            999\n",
   str% "          )\\d{4}\n",
   str% "        </nationalNumberPattern>\n",
   str% "      </mobile>\n",
   str% "      <tollFree>\n",
   str% "        <possibleLengths national=\"7\"/>\n",
   str% "        <exampleNumber>0800222</exampleNumber>\n",
   str% "        <nationalNumberPattern>0800\\d{3}</nationalNumberPattern>\n",
   str% "      </tollFree>\n",
   str% "      <voip>\n",
   str% "        <possibleLengths national=\"7\"/>\n",
   str% "        <exampleNumber>5510123</exampleNumber>\n",
   str% "        <nationalNumberPattern>55[0-37-9]\\d{4}</nationalNumberPattern>\n",
   str% "      </voip>\n",
   str% "    </territory>"]

/-- the text up to the end of territory id=TR countryCode=90 -/
noncomputable def TR : List Str :=
  [str% "\n",
   str% "\n",
   str% "    <!-- T\u00FCrkiye (TR) -->\n",
   str% "    <!-- http://en.wikipedia.org/wiki/%2B90 -->\n",
   str% "    <!-- http://www.itu.int/oth/T02020000D6/en -->\n",
   str% "    <!-- https://www.btk.gov.tr/genel-numaralandirma-plani -->\n",
   str% "    <!-- https://www.btk.gov.tr/tr-TR/Sayfalar/Isletmecilere-Tahsisli-Numaralar -->\n",
   str% "    <territory id=\"TR\" countryCode=\"90\" internationalPrefix=\"00\" nationalPrefix=\"0\"\n",
   str% "               mobileNumberPortableRegion=\"true\">\n",
   str% "      <availableFormats>\n",
   str% "        <!-- 7-digit UAN. -->\n",
   str% "        <numberFormat pattern=\"(\\d{3})(\\d)(\\d{3})\" nationalPrefixOptionalWhenFormatting=\"true\">\n",
   str% "          <leadingDigits>444</leadingDigits>\n",
   str% "          <format>$1 $2 $3</format>\n",
   str% "          <intlFormat>NA</intlFormat>\n",
   str% "        </numberFormat>\n",
   str% "        <!-- Fixed line, UAN, pager. -->\n",
   str% "        <numberFormat pattern=\"(\\d{3})(\\d{3})(\\d{4})\" nationalPrefixFormattingRule=\"$NP$FG\"\n",
   str% "                      nationalPrefixOptionalWhenFormatting=\"true\">\n",
   str% "          <leadingDigits>\n",
   str% "            512|\n",
   str% "            8[01589]|\n",
   str% "            90\n",
   str% "          </leadingDigits>\n",
   str% "          <format>$1 $2 $3</format>\n",
   str% "        </numberFormat>\n",
   str% "        <!-- Mobile and personal numbers. -->\n",
   str% "        <numberFormat pattern=\"(\\d{3})(\\d{3})(\\d{2})(\\d{2})\" nationalPrefixFormattingRule=\"$NP$FG\"\n",
   str% "                      nationalPrefixOptionalWhenFormatting=\"true\">\n",
   str% "          <leadingDigits>5[0-79]</leadingDigits>\n",
   str% "          <format>$1 $2 $3 $4</format>\n",
   str% "        </numberFormat>\n",
   str% "        <!-- In online references we see both these formats for mobile and fixed-line numbers:\n",
   str% "             (\\d{3})(\\d{3})(\\d{2})(\\d{2}) and (\\d{3})(\\d{3})(\\d{4}). However the former seems to be\n",
   str% "             more common. -->\n",
   str% "        <numberFormat pattern=\"(\\d{3})(\\d{3})(\\d{2})(\\d{2})\" nationalPrefixFormattingRule=\"($NP$FG)\"\n",
   str% "                      nationalPrefixOptionalWhenFormatting=\"true\">\n",
   str% "          <leadingDigits>\n",
   str% "            [24][1-8]|\n",
   str% "            3[1-9]\n",
   str% "          </leadingDigits>\n",
   str% "          <format>$1 $2 $3 $4</format>\n",
   str% "        </numberFormat>\n",
   str% "        <!-- 12 -13 digit toll free numbers -->\n",
   str% "        <numberFormat pattern=\"(\\d{3})(\\d{3})(\\d{6,7})\" nationalPrefixFormattingRule=\"$NP$FG\"\n",
   str% "                      nationalPrefixOptionalWhenFormatting=\"true\">\n",
   str% "          <leadingDigits>80</leadingDigits>\n",
   str% "          <format>$1 $2 $3</format>\n",
   str% "        </numberFormat>\n",
   str% "      </availableFormats>\n",
   str% "      <generalDesc>\n",
   str% "        <nationalNumberPattern>\n",
   str% "          4\\d{6}|\n",
   str% "          8\\d{11,12}|\n",
   str% "          (?:\n",
   str% "            [2-58]\\d\\d|\n",
   str% "            900\n",
   str% "          )\\d{7}\n",
   str% "        </nationalNumberPattern>\n",
   str% "      </generalDesc>\n",
   str% "      <noInternationalDialling>\n",
   str% "        <possibleLengths national=\"7,10\"/>\n",
   str% "        <nationalNumberPattern>\n",
   str% "          (?:\n",
   str% "            444|\n",
   str% "            811\\d{3}\n",
   str% "          )\\d{4}\n",
   str% "        </nationalNumberPattern>\n",
   str% "      </noInternationalDialling>\n",
   str% "      <!-- Includes numbers starting with 392 for Northern Cyprus. Not supporting additionally\n",
   str% "           allocated area codes that are mentioned in ITU doc dated 7.VII.2009 as these are not\n",
   str% "           mentioned in new ITU doc dated 2.III.2018. -->\n",
   str% "      <fixedLine>\n",
   str% "        <possibleLengths national=\"10\"/>\n",
   str% "        <exampleNumber>2123456789</exampleNumber>\n",
   str% "        <nationalNumberPattern>\n",
   str% "          (?:\n",
   str% "            2(?:\n",
   str% "              1[26]|\n",
   str% "              [28][2468]|\n",
   str% "              [3-5][268]|\n",
   str% "              [67][246]\n",
   str% "            )|\n",
   str% "            3(?:\n",
   str% "              [13][28]|\n",
   str% "              [24-6][2468]|\n",
   str% "              [78][02468]|\n",
   str% "              92\n",
   str% "            )|\n",
   str% "            4(?:\n",
   str% "              [16][246]|\n",
   str% "              [23578][2468]|\n",
   str% "              4[26]\n",
   str% "            )\n",
   str% "          )\\d{7}\n",
   str% "        </nationalNumberPattern>\n",
   str% "      </fixedLine>\n",
   str% "      <!-- There are some differences between the Turkish and English wikipedia pages here, and\n",
   str% "           some number prefixes do not seem to be able to be found online. Omitting 500, 508 and\n",
   str% "           509 from the English page because of this. -->\n",
   str% "      <mobile>\n",
   str% "        <possibleLengths national=\"10\"/>\n",
   str% "        <exampleNumber>5012345678</exampleNumber>\n",
   str% "        <nationalNumberPattern>\n",
   str% "          561(?:\n",
   str% "            011|\n",
   str% "            61\\d\n",
   str% "          )\\d{4}|\n",
   str% "          5(?:\n",
   str% "            [03-5]\\d|\n",
   str% "            1[06]|\n",
   str% "            24|\n",
   str% "            6[24]|\n",
   str% "            7[245]|\n",
   str% "            9[46]\n",
   str% "          )\\d{7}\n",
   str% "        </nationalNumberPattern>\n",
   str% "      </mobile>\n",
   str% "      <!-- 512 range is mentioned as call services number in eng.btk.gov.tr's doc. As we not sure\n",
   str% "           of the category, supporting them as pager based on Wikipedia. -->\n",
   str% "      <pager>\n",
   str% "        <possibleLengths national=\"10\"/>\n",
   str% "        <exampleNumber>5123456789</exampleNumber>\n",
   str% "        <nationalNumberPattern>512\\d{7}</nationalNumberPattern>\n",
   str% "      </pager>\n",
   str% "      <!-- Toll free range 800 of length 13 digits and 811 of length 10 digits are supported based\n",
   str% "           on user report. -->\n",
   str% "      <tollFree>\n",
   str% "        <possibleLengths national=\"10,12,13\"/>\n",
   str% "        <exampleNumber>8001234567</exampleNumber>\n",
   str% "        <nationalNumberPattern>\n",
   str% "          8(?:\n",
   str% "            00\\d{7}(?:\n",
   str% "              \\d{2,3}\n",
   str% "            )?|\n",
   str% "            11\\d{7}\n",
   str% "          )\n",
   str% "        </nationalNumberPattern>\n",
   str% "      </tollFree>\n",
   str% "      <premiumRate>\n",
   str% "        <possibleLengths national=\"10\"/>\n",
   str% "        <exampleNumber>9001234567</exampleNumber>\n",
   str% "        <nationalNumberPattern>\n",
   str% "          (?:\n",
   str% "            8[89]8|\n",
   str% "            900\n",
   str% "          )\\d{7}\n",
   str% "        </nationalNumberPattern>\n",
   str% "      </premiumRate>\n",
   str% "      <!-- All 592 numbers are GMPCS numbers (personal satellite numbers) as per ITU doc. We do\n",
   str% "           support only the ranges that are assigned (max 6 digit granularity) based on\n",
   str% "           eng.btk.gov.tr's doc. -->\n",
   str% "      <personalNumber>\n",
   str% "        <possibleLengths national=\"10\"/>\n",
   str% "        <exampleNumber>5922121234</exampleNumber>\n",
   str% "        <nationalNumberPattern>\n",
   str% "          592(?:\n",
   str% "            21[12]|\n",
   str% "            461\n",
   str% "          )\\d{4}\n",
   str% "        </nationalNumberPattern>\n",
   str% "      </personalNumber>\n",
   str% "      <!-- Prefix 850 was earlier supported as UAN but after user report and other sources, found\n",
   str% "           that they belong to VOIP. -->\n",
   str% "      <voip>\n",
   str% "        <possibleLengths national=\"10\"/>\n",
   str% "        <exampleNumber>8500123456</exampleNumber>\n",
   str% "        <nationalNumberPattern>850\\d{7}</nationalNumberPattern>\n",
   str% "      </voip>\n",
   str% "      <!-- http://www.turktelekom.com.tr/tt/portal/News/Archive/7-digit-special-service-number-starting-with-444 -->\n",
   str% "      <uan>\n",
   str% "        <possibleLengths national=\"7\"/>\n",
   str% "        <exampleNumber>4441444</exampleNumber>\n",
   str% "        <nationalNumberPattern>444\\d{4}</nationalNumberPattern>\n",
   str% "      </uan>\n",
   str% "    </territory>"]

/-- the text up to the end of territory id=TT countryCode=1 -/
noncomputable def TT : List Str :=
  [str% "\n",
   str% "\n",
   str% "    <!-- Trinidad & Tobago (TT) -->\n",
   str% "    <!-- Calling code and formatting shared with 'US' -->\n",
   str% "    <!-- http://www.itu.int/oth/T02020000D4/en -->\n",
   str% "    <territory id=\"TT\" countryCode=\"1\" leadingDigits=\"868\" internationalPrefix=\"011\"\n",
   str% "               nationalPrefix=\"1\" nationalPrefixForParsing=\"([2-46-8]\\d{6})$|1\"\n",
   str% "               nationalPrefixTransformRule=\"868$1\" mobileNumberPortableRegion=\"true\">\n",
   str% "      <generalDesc>\n",
   str% "        <nationalNumberPattern>\n",
   str% "          (?:\n",
   str% "            [58]\\d\\d|\n",
   str% "            900\n",
   str% "          )\\d{7}\n",
   str% "        </nationalNumberPattern>\n",
   str% "      </generalDesc>\n",
   str% "      <!-- Added support to 609, 61[0278], 699 and 824 fixed-line ranges based on official doc\n",
   str% "           from TATT. -->\n",
   str% "      <fixedLine>\n",
   str% "        <possibleLengths national=\"10\" localOnly=\"7\"/>\n",
   str% "        <exampleNumber>8682211234</exampleNumber>\n",
   str% "        <nationalNumberPattern>\n",
   str% "          868(?:\n",
   str% "            2(?:\n",
   str% "              01|\n",
   str% "              1[5-9]|\n",
   str% "              [23]\\d|\n",
   str% "              4[0-2]\n",
   str% "            )|\n",
   str% "            6(?:\n",
   str% "              0[7-9]|\n",
   str% "              1[02-8]|\n",
   str% "              2[1-9]|\n",
   str% "              [3-69]\\d|\n",
   str% "              7[0-79]\n",
   str% "            )|\n",
   str% "            82[124]\n",
   str% "          )\\d{4}\n",
   str% "        </nationalNumberPattern>\n",
   str% "      </fixedLine>\n",
   str% "      <!-- We support below mobile ranges additionally which are not listed in ITU doc.\n",
   str% "           - 270: Found valid numbers online.\n",
   str% "           - 26[6-9] and 48[5-9]: Evidence from bmobile.\n",
   str% "           - 70[1-9]: Official TATT doc. -->\n",
   str% "      <mobile>\n",
   str% "        <possibleLengths national=\"10\" localOnly=\"7\"/>\n",
   str% "        <exampleNumber>8682911234</exampleNumber>\n",
   str% "        <nationalNumberPattern>\n",
   str% "          868(?:\n",
   str% "            (?:\n",
   str% "              2[5-9]|\n",
   str% "              3\\d\n",
   str% "            )\\d|\n",
   str% "            4(?:\n",
   str% "              3[0-6]|\n",
   str% "              [6-9]\\d\n",
   str% "            )|\n",
   str% "            6(?:\n",
   str% "              20|\n",
   str% "              78|\n",
   str% "              8\\d\n",
   str% "            )|\n",
   str% "            7(?:\n",
   str% "              0[1-9]|\n",
   str% "              1[02-9]|\n",
   str% "              [2-9]\\d\n",
   str% "            )\n",
   str% "          )\\d{4}\n",
   str% "        </nationalNumberPattern>\n",
   str% "      </mobile>\n",
   str% "      <tollFree>\n",
   str% "        <possibleLengths national=\"10\"/>\n",
   str% "        <exampleNumber>8002345678</exampleNumber>\n",
   str% "        <nationalNumberPattern>\n",
   str% "          868800\\d{4}|\n",
   str% "          8(?:\n",
   str% "            00|\n",
   str% "            33|\n",
   str% "            44|\n",
   str% "            55|\n",
   str% "            66|\n",
   str% "            77|\n",
   str% "            88\n",
   str% "          )[2-9]\\d{6}\n",
   str% "        </nationalNumberPattern>\n",
   str% "      </tollFree>\n",
   str% "      <premiumRate>\n",
   str% "        <possibleLengths national=\"10\"/>\n",
   str% "        <exampleNumber>9002345678</exampleNumber>\n",
   str% "        <nationalNumberPattern>900[2-9]\\d{6}</nationalNumberPattern>\n",
   str% "      </premiumRate>\n",
   str% "      <!-- https://www.nationalnanpa.com/number_resource_info/5XX_codes.html -->\n",
   str% "      <personalNumber>\n",
   str% "        <possibleLengths national=\"10\"/>\n",
   str% "        <exampleNumber>5002345678</exampleNumber>\n",
   str% "        <nationalNumberPattern>\n",
   str% "          52(?:\n",
   str% "            3(?:\n",
   str% "              [2-46-9][02-9]\\d|\n",
   str% "              5(?:\n",
   str% "                [02-46-9]\\d|\n",
   str% "                5[0-46-9]\n",
   str% "              )\n",
   str% "            )|\n",
   str% "            4(?:\n",
   str% "              [2-478][02-9]\\d|\n",
   str% "              5(?:\n",
   str% "                [034]\\d|\n",
   str% "                2[024-9]|\n",
   str% "                5[0-46-9]\n",
   str% "              )|\n",
   str% "              6(?:\n",
   str% "                0[1-9]|\n",
   str% "                [2-9]\\d\n",
   str% "              )|\n",
   str% "              9(?:\n",
   str% "                [05-9]\\d|\n",
   str% "                2[0-5]|\n",
   str% "                49\n",
   str% "              )\n",
   str% "            )\n",
   str% "          )\\d{4}|\n",
   str% "          52[34][2-9]1[02-9]\\d{4}|\n",
   str% "          5(?:\n",
   str% "            00|\n",
   str% "            2[125-9]|\n",
   str% "            3[23]|\n",
   str% "            44|\n",
   str% "            66|\n",
   str% "            77|\n",
   str% "            88\n",
   str% "          )[2-9]\\d{6}\n",
   str% "        </nationalNumberPattern>\n",
   str% "      </personalNumber>\n",
   str% "      <voicemail>\n",
   str% "        <possibleLengths national=\"10\" localOnly=\"7\"/>\n",
   str% "        <exampleNumber>8686191234</exampleNumber>\n",
   str% "        <nationalNumberPattern>868619\\d{4}</nationalNumberPattern>\n",
   str% "      </voicemail>\n",
   str% "    </territory>"]

/-- the text up to the end of territory id=TV countryCode=688 -/
noncomputable def TV : List Str :=
  [str% "\n",
   str% "\n",
   str% "    <!-- Tuvalu (TV) -->\n",
   str% "    <!-- http://www.itu.int/oth/T02020000D9/en -->\n",
   str% "    <!-- http://en.wikipedia.org/wiki/Telephone_numbers_in_Tuvalu -->\n",
   str% "    <territory id=\"TV\" countryCode=\"688\" internationalPrefix=\"00\">\n",
   str% "      <availableFormats>\n",
   str% "        <numberFormat pattern=\"(\\d{2})(\\d{3})\">\n",
   str% "          <leadingDigits>2</leadingDigits>\n",
   str% "          <format>$1 $2</format>\n",
   str% "        </numberFormat>\n",
   str% "        <numberFormat pattern=\"(\\d{2})(\\d{4})\">\n",
   str% "          <leadingDigits>90</leadingDigits>\n",
   str% "          <format>$1 $2</format>\n",
   str% "        </numberFormat>\n",
   str% "        <numberFormat pattern=\"(\\d{2})(\\d{5})\">\n",
   str% "          <leadingDigits>7</leadingDigits>\n",
   str% "          <format>$1 $2</format>\n",
   str% "        </numberFormat>\n",
   str% "      </availableFormats>\n",
   str% "      <generalDesc>\n",
   str% "        <nationalNumberPattern>\n",
   str% "          (?:\n",
   str% "            2|\n",
   str% "            7\\d\\d|\n",
   str% "            90\n",
   str% "          )\\d{4}\n",
   str% "        </nationalNumberPattern>\n",
   str% "      </generalDesc>\n",
   str% "      <fixedLine>\n",
   str% "        <possibleLengths national=\"5\"/>\n",
   str% "        <exampleNumber>20123</exampleNumber>\n",
   str% "        <nationalNumberPattern>2[02-9]\\d{3}</nationalNumberPattern>\n",
   str% "      </fixedLine>\n",
   str% "      <!-- Some numbers online can be found that are 5-digits long, and start with 90 or 91. We\n",
   str% "           don't know if these are valid or not - the ITU document excludes them - so are not\n",
   str% "           covering these for now. -->\n",
   str% "      <mobile>\n",
   str% "        <possibleLengths national=\"6,7\"/>\n",
   str% "        <exampleNumber>901234</exampleNumber>\n",
   str% "        <nationalNumberPattern>\n",
   str% "          (?:\n",
   str% "            7[01]\\d|\n",
   str% "            90\n",
   str% "          )\\d{4}\n",
   str% "        </nationalNumberPattern>\n",
   str% "      </mobile>\n",
   str% "    </territory>"]

/-- the text up to the end of territory id=TW countryCode=886 -/
noncomputable def TW : List Str :=
  [str% "\n",
   str% "\n",
   str% "    <!-- Taiwan (TW) -->\n",
   str% "    <!-- Extension symbols found on the internet so far have been #, X and Ext - so # has been\n",
   str% "         chosen as the preferred extension prefix. -->\n",
   str% "    <!-- http://www.itu.int/oth/T02020000EB/en -->\n",
   str% "    <!-- https://www.ncc.gov.tw/chinese/files/07080/265_1037_070808_1.doc -->\n",
   str% "    <territory id=\"TW\" countryCode=\"886\" internationalPrefix=\"0(?:0[25-79]|19)\" nationalPrefix=\"0\"\n",
   str% "               preferredExtnPrefix=\"#\" mobileNumberPortableRegion=\"true\">\n",
   str% "      <availableFormats>\n",
   str% "        <!-- Premium rate. -->\n",
   str% "        <numberFormat pattern=\"(\\d{2})(\\d)(\\d{4})\" nationalPrefixFormattingRule=\"$NP$FG\">\n",
   str% "          <leadingDigits>202</leadingDigits>\n",
   str% "          <format>$1 $2 $3</format>\n",
   str% "        </numberFormat>\n",
   str% "        <numberFormat pattern=\"(\\d{3})(\\d{5})\" nationalPrefixFormattingRule=\"$NP$FG\">\n",
   str% "          <leadingDigits>826</leadingDigits>\n",
   str% "          <format>$1 $2</format>\n",
   str% "        </numberFormat>\n",
   str% "        <numberFormat pattern=\"(\\d{3})(\\d{2})(\\d{3})\" nationalPrefixFormattingRule=\"$NP$FG\">\n",
   str% "          <leadingDigits>83</leadingDigits>\n",
   str% "          <format>$1 $2 $3</format>\n",
   str% "        </numberFormat>\n",
   str% "        <numberFormat pattern=\"(\\d{2})(\\d{2})(\\d{4})\" nationalPrefixFormattingRule=\"$NP$FG\">\n",
   str% "          <leadingDigits>82</leadingDigits>\n",
   str% "          <format>$1 $2 $3</format>\n",
   str% "        </numberFormat>\n",
   str% "        <!-- Fixed line and UAN. -->\n",
   str% "        <numberFormat pattern=\"(\\d{2})(\\d{3})(\\d{3,4})\" nationalPrefixFormattingRule=\"$NP$FG\">\n",
   str% "          <leadingDigits>\n",
   str% "            [25]0|\n",
   str% "            37|\n",
   str% "            49|\n",
   str% "            8[09]\n",
   str% "          </leadingDigits>\n",
   str% "          <format>$1 $2 $3</format>\n",
   str% "        </numberFormat>\n",
   str% "        <!-- Fixed line. -->\n",
   str% "        <numberFormat pattern=\"(\\d)(\\d{3,4})(\\d{4})\" nationalPrefixFormattingRule=\"$NP$FG\">\n",
   str% "          <leadingDigits>\n",
   str% "            [23568]|\n",
   str% "            4(?:\n",
   str% "              0[02-48]|\n",
   str% "              [1-478]\n",
   str% "            )|\n",
   str% "            7[1-9]\n",
   str% "          </leadingDigits>\n",
   str% "          <leadingDigits>\n",
   str% "            [23568]|\n",
   str% "            4(?:\n",
   str% "              0[2-48]|\n",
   str% "              [1-478]\n",
   str% "            )|\n",
   str% "            (?:\n",
   str% "              400|\n",
   str% "              7\n",
   str% "            )[1-9]\n",
   str% "          </leadingDigits>\n",
   str% "          <format>$1 $2 $3</format>\n",
   str% "        </numberFormat>\n",
   str% "        <!-- Mobile and personal numbers. -->\n",
   str% "        <numberFormat pattern=\"(\\d{3})(\\d{3})(\\d{3})\" nationalPrefixFormattingRule=\"$NP$FG\">\n",
   str% "          <leadingDigits>[49]</leadingDigits>\n",
   str% "          <format>$1 $2 $3</format>\n",
   str% "        </numberFormat>\n",
   str% "        <!-- VOIP. -->\n",
   str% "        <numberFormat pattern=\"(\\d{2})(\\d{4})(\\d{4,5})\" nationalPrefixFormattingRule=\"$NP$FG\">\n",
   str% "          <leadingDigits>7</leadingDigits>\n",
   str% "          <format>$1 $2 $3</format>\n",
   str% "        </numberFormat>\n",
   str% "      </availableFormats>\n",
   str% "      <generalDesc>\n",
   str% "        <nationalNumberPattern>\n",
   str% "          [2-689]\\d{8}|\n",
   str% "          7\\d{9,10}|\n",
   str% "          [2-8]\\d{7}|\n",
   str% "          2\\d{6}\n",
   str% "        </nationalNumberPattern>\n",
   str% "      </generalDesc>\n",
   str% "      <!-- Prefix 24 added due to numbers found online for two major commercial companies; it\n",
   str% "           is possible they aren't fixed-line, but adding them here since we don't have better\n",
   str% "           information for now. Prefix 90 is mentioned as reserved in http://www.ncc.gov.tw/\n",
   str% "           and wikipedea states it as M2M, but we still support in Mobile as we were able to\n",
   str% "           find working online number. Prefix 64 is added on the basis of user report. -->\n",
   str% "      <fixedLine>\n",
   str% "        <possibleLengths national=\"8,9\"/>\n",
   str% "        <exampleNumber>221234567</exampleNumber>\n",
   str% "        <nationalNumberPattern>\n",
   str% "          (?:\n",
   str% "            2[2-8]\\d|\n",
   str% "            370|\n",
   str% "            55[01]|\n",
   str% "            7[1-9]\n",
   str% "          )\\d{6}|\n",
   str% "          4(?:\n",
   str% "            (?:\n",
   str% "              0(?:\n",
   str% "                0[1-9]|\n",
   str% "                [2-48]\\d\n",
   str% "              )|\n",
   str% "              1[023]\\d\n",
   str% "            )\\d{4,5}|\n",
   str% "            (?:\n",
   str% "              [239]\\d\\d|\n",
   str% "              4(?:\n",
   str% "                0[56]|\n",
   str% "                12|\n",
   str% "                49\n",
   str% "              )\n",
   str% "            )\\d{5}\n",
   str% "          )|\n",
   str% "          6(?:\n",
   str% "            [01]\\d{7}|\n",
   str% "            4(?:\n",
   str% "              0[56]|\n",
   str% "              12|\n",
   str% "              24|\n",
   str% "              4[09]\n",
   str% "            )\\d{4,5}\n",
   str% "          )|\n",
   str% "          8(?:\n",
   str% "            (?:\n",
   str% "              2(?:\n",
   str% "                3\\d|\n",
   str% "                4[0-269]|\n",
   str% "                [578]0|\n",
   str% "                66\n",
   str% "              )|\n",
   str% "              36[24-9]|\n",
   str% "              90\\d\\d\n",
   str% "            )\\d{4}|\n",
   str% "            4(?:\n",
   str% "              0[56]|\n",
   str% "              12|\n",
   str% "              24|\n",
   str% "              4[09]\n",
   str% "            )\\d{4,5}\n",
   str% "          )|\n",
   str% "          (?:\n",
   str% "            2(?:\n",
   str% "              2(?:\n",
   str% "                0\\d\\d|\n",
   str% "                4(?:\n",
   str% "                  0[68]|\n",
   str% "                  [249]0|\n",
   str% "                  3[0-467]|\n",
   str% "                  5[0-25-9]|\n",
   str% "                  6[0235689]\n",
   str% "                )\n",
   str% "              )|\n",
   str% "              (?:\n",
   str% "                3(?:\n",
   str% "                  [09]\\d|\n",
   str% "                  1[0-4]\n",
   str% "                )|\n",
   str% "                (?:\n",
   str% "                  4\\d|\n",
   str% "                  5[0-49]|\n",
   str% "                  6[0-29]|\n",
   str% "                  7[0-5]\n",
   str% "                )\\d\n",
   str% "              )\\d\n",
   str% "            )|\n",
   str% "            (?:\n",
   str% "              (?:\n",
   str% "                3[2-9]|\n",
   str% "                5[2-8]|\n",
   str% "                6[0-35-79]|\n",
   str% "                8[7-9]\n",
   str% "              )\\d\\d|\n",
   str% "              4(?:\n",
   str% "                2(?:\n",
   str% "                  [089]\\d|\n",
   str% "                  7[1-9]\n",
   str% "                )|\n",
   str% "                (?:\n",
   str% "                  3[0-4]|\n",
   str% "                  [78]\\d|\n",
   str% "                  9[01]\n",
   str% "                )\\d\n",
   str% "              )\n",
   str% "            )\\d\n",
   str% "          )\\d{3}\n",
   str% "        </nationalNumberPattern>\n",
   str% "      </fixedLine>\n",
   str% "      <mobile>\n",
   str% "        <possibleLengths national=\"9\"/>\n",
   str% "        <exampleNumber>912345678</exampleNumber>\n",
   str% "        <nationalNumberPattern>\n",
   str% "          (?:\n",
   str% "            40001[0-2]|\n",
   str% "            9[0-8]\\d{4}\n",
   str% "          )\\d{3}\n",
   str% "        </nationalNumberPattern>\n",
   str% "      </mobile>\n",
   str% "      <tollFree>\n",
   str% "        <possibleLengths national=\"8,9\"/>\n",
   str% "        <exampleNumber>800123456</exampleNumber>\n",
   str% "        <nationalNumberPattern>\n",
   str% "          80[0-79]\\d{6}|\n",
   str% "          800\\d{5}\n",
   str% "        </nationalNumberPattern>\n",
   str% "      </tollFree>\n",
   str% "      <premiumRate>\n",
   str% "        <possibleLengths national=\"7,9\"/>\n",
   str% "        <exampleNumber>203123456</exampleNumber>\n",
   str% "        <nationalNumberPattern>\n",
   str% "          20(?:\n",
   str% "            [013-9]\\d\\d|\n",
   str% "            2\n",
   str% "          )\\d{4}\n",
   str% "        </nationalNumberPattern>\n",
   str% "      </premiumRate>\n",
   str% "      <personalNumber>\n",
   str% "        <possibleLengths national=\"9\"/>\n",
   str% "        <exampleNumber>990123456</exampleNumber>\n",
   str% "        <nationalNumberPattern>99\\d{7}</nationalNumberPattern>\n",
   str% "      </personalNumber>\n",
   str% "      <!-- http://www.chief.com.tw/telecom_eng/front/bin/ptlist.phtml?Category=107 -->\n",
   str% "      <voip>\n",
   str% "        <possibleLengths national=\"10,11\"/>\n",
   str% "        <exampleNumber>7012345678</exampleNumber>\n",
   str% "        <nationalNumberPattern>\n",
   str% "          7010(?:\n",
   str% "            [0-2679]\\d|\n",
   str% "            3[0-7]|\n",
   str% "            8[0-5]\n",
   str% "          )\\d{5}|\n",
   str% "          70\\d{8}\n",
   str% "        </nationalNumberPattern>\n",
   str% "      </voip>\n",
   str% "      <uan>\n",
   str% "        <possibleLengths national=\"9\"/>\n",
   str% "        <exampleNumber>500123456</exampleNumber>\n",
   str% "        <nationalNumberPattern>50[0-46-9]\\d{6}</nationalNumberPattern>\n",
   str% "      </uan>\n",
   str% "    </territory>"]

/-- the text up to the end of territory id=TZ countryCode=255 -/
noncomputable def TZ : List Str :=
  [str% "\n",
   str% "\n",
   str% "    <!-- Tanzania (TZ) -->\n",
   str% "    <!-- http://www.itu.int/oth/T02020000CB/en -->\n",
   str% "    <territory id=\"TZ\" countryCode=\"255\" internationalPrefix=\"00[056]\" nationalPrefix=\"0\">\n",
   str% "      <availableFormats>\n",
   str% "        <!-- Formatting for special numbers from http://www.tcra.go.tz -->\n",
   str% "        <numberFormat pattern=\"(\\d{3})(\\d{2})(\\d{4})\" nationalPrefixFormattingRule=\"$NP$FG\">\n",
   str% "          <leadingDigits>[89]</leadingDigits>\n",
   str% "          <format>$1 $2 $3</format>\n",
   str% "        </numberFormat>\n",
   str% "        <numberFormat pattern=\"(\\d{2})(\\d{3})(\\d{4})\" nationalPrefixFormattingRule=\"$NP$FG\">\n",
   str% "          <leadingDigits>[24]</leadingDigits>\n",
   str% "          <format>$1 $2 $3</format>\n",
   str% "        </numberFormat>\n",
   str% "        <!-- ITU format: +255 5X XXXXXXX -->\n",
   str% "        <numberFormat pattern=\"(\\d{2})(\\d{7})\">\n",
   str% "          <leadingDigits>5</leadingDigits>\n",
   str% "          <format>$1 $2</format>\n",
   str% "        </numberFormat>\n",
   str% "        <numberFormat pattern=\"(\\d{3})(\\d{3})(\\d{3})\" nationalPrefixFormattingRule=\"$NP$FG\">\n",
   str% "          <leadingDigits>[67]</leadingDigits>\n",
   str% "          <format>$1 $2 $3</format>\n",
   str% "        </numberFormat>\n",
   str% "      </availableFormats>\n",
   str% "      <generalDesc>\n",
   str% "        <nationalNumberPattern>\n",
   str% "          (?:\n",
   str% "            [25-8]\\d|\n",
   str% "            41|\n",
   str% "            90\n",
   str% "          )\\d{7}\n",
   str% "        </nationalNumberPattern>\n",
   str% "      </generalDesc>\n",
   str% "      <noInternationalDialling>\n",
   str% "        <possibleLengths national=\"9\"/>\n",
   str% "        <nationalNumberPattern>\n",
   str% "          (?:\n",
   str% "            8(?:\n",
   str% "              [04]0|\n",
   str% "              6[01]\n",
   str% "            )|\n",
   str% "            90\\d\n",
   str% "          )\\d{6}\n",
   str% "        </nationalNumberPattern>\n",
   str% "      </noInternationalDialling>\n",
   str% "      <fixedLine>\n",
   str% "        <possibleLengths national=\"9\"/>\n",
   str% "        <exampleNumber>222345678</exampleNumber>\n",
   str% "        <nationalNumberPattern>2[2-8]\\d{7}</nationalNumberPattern>\n",
   str% "      </fixedLine>\n",
   str% "      <mobile>\n",
   str% "        <possibleLengths national=\"9\"/>\n",
   str% "        <exampleNumber>621234567</exampleNumber>\n",
   str% "        <nationalNumberPattern>\n",
   str% "          (?:\n",
   str% "            6[1-35-9]|\n",
   str% "            7[013-9]\n",
   str% "          )\\d{7}\n",
   str% "        </nationalNumberPattern>\n",
   str% "      </mobile>\n",
   str% "      <tollFree>\n",
   str% "        <possibleLengths national=\"9\"/>\n",
   str% "        <exampleNumber>800123456</exampleNumber>\n",
   str% "        <nationalNumberPattern>80[08]\\d{6}</nationalNumberPattern>\n",
   str% "      </tollFree>\n",
   str% "      <premiumRate>\n",
   str% "        <possibleLengths national=\"9\"/>\n",
   str% "        <exampleNumber>900123456</exampleNumber>\n",
   str% "        <nationalNumberPattern>90\\d{7}</nationalNumberPattern>\n",
   str% "      </premiumRate>\n",
   str% "      <sharedCost>\n",
   str% "        <possibleLengths national=\"9\"/>\n",
   str% "        <exampleNumber>840123456</exampleNumber>\n",
   str% "        <nationalNumberPattern>\n",
   str% "          8(?:\n",
   str% "            40|\n",
   str% "            6[01]\n",
   str% "          )\\d{6}\n",
   str% "        </nationalNumberPattern>\n",
   str% "      </sharedCost>\n",
   str% "      <voip>\n",
   str% "        <possibleLengths national=\"9\"/>\n",
   str% "        <exampleNumber>412345678</exampleNumber>\n",
   str% "        <nationalNumberPattern>41\\d{7}</nationalNumberPattern>\n",
   str% "      </voip>\n",
   str% "    </territory>"]

/-- the text up to the end of territory id=UA countryCode=380 -/
noncomputable def UA : List Str :=
  [str% "\n",
   str% "\n",
   str% "    <!-- Ukraine (UA) -->\n",
   str% "    <!-- http://www.itu.int/oth/T02020000DB/en -->\n",
   str% "    <!-- http://en.wikipedia.org/wiki/%2B380 -->\n",
   str% "    <!-- No definitive list has been found of what constitutes the area code for formatting.\n",
   str% "         http://www.ua.all-biz.info/guide/phonecodes is useful but not error-free.\n",
   str% "         Have used local yellow pages guidelines, Google searches, regression tests\n",
   str% "         and bugs to reverse-engineer the formatting rules. -->\n",
   str% "    <territory id=\"UA\" countryCode=\"380\" preferredInternationalPrefix=\"0~0\" internationalPrefix=\"00\"\n",
   str% "               nationalPrefix=\"0\">\n",
   str% "      <availableFormats>\n",
   str% "        <!-- Fixed line -->\n",
   str% "        <numberFormat pattern=\"(\\d{3})(\\d{3})(\\d{3})\" nationalPrefixFormattingRule=\"$NP$FG\">\n",
   str% "          <leadingDigits>\n",
   str% "            6[12][29]|\n",
   str% "            (?:\n",
   str% "              3[1-8]|\n",
   str% "              4[136-8]|\n",
   str% "              5[12457]|\n",
   str% "              6[49]\n",
   str% "            )2|\n",
   str% "            (?:\n",
   str% "              56|\n",
   str% "              65\n",
   str% "            )[24]\n",
   str% "          </leadingDigits>\n",
   str% "          <leadingDigits>\n",
   str% "            6[12][29]|\n",
   str% "            (?:\n",
   str% "              35|\n",
   str% "              4[1378]|\n",
   str% "              5[12457]|\n",
   str% "              6[49]\n",
   str% "            )2|\n",
   str% "            (?:\n",
   str% "              56|\n",
   str% "              65\n",
   str% "            )[24]|\n",
   str% "            (?:\n",
   str% "              3[1-46-8]|\n",
   str% "              46\n",
   str% "            )2[013-9]\n",
   str% "          </leadingDigits>\n",
   str% "          <format>$1 $2 $3</format>\n",
   str% "        </numberFormat>\n",
   str% "        <!-- Fixed line (4-digit area code). -->\n",
   str% "        <numberFormat pattern=\"(\\d{4})(\\d{5})\" nationalPrefixFormattingRule=\"$NP$FG\">\n",
   str% "          <leadingDigits>\n",
   str% "            3[1-8]|\n",
   str% "            4(?:\n",
   str% "              [1367]|\n",
   str% "              [45][6-9]|\n",
   str% "              8[4-6]\n",
   str% "            )|\n",
   str% "            5(?:\n",
   str% "              [1-5]|\n",
   str% "              6[0135689]|\n",
   str% "              7[4-6]\n",
   str% "            )|\n",
   str% "            6(?:\n",
   str% "              [12][3-7]|\n",
   str% "              [459]\n",
   str% "            )\n",
   str% "          </leadingDigits>\n",
   str% "          <leadingDigits>\n",
   str% "            3[1-8]|\n",
   str% "            4(?:\n",
   str% "              [1367]|\n",
   str% "              [45][6-9]|\n",
   str% "              8[4-6]\n",
   str% "            )|\n",
   str% "            5(?:\n",
   str% "              [1-5]|\n",
   str% "              6(?:\n",
   str% "                [015689]|\n",
   str% "                3[02389]\n",
   str% "              )|\n",
   str% "              7[4-6]\n",
   str% "            )|\n",
   str% "            6(?:\n",
   str% "              [12][3-7]|\n",
   str% "              [459]\n",
   str% "            )\n",
   str% "          </leadingDigits>\n",
   str% "          <format>$1 $2</format>\n",
   str% "        </numberFormat>\n",
   str% "        <!-- General format (fixed line, mobile, voip etc.) -->\n",
   str% "        <numberFormat pattern=\"(\\d{2})(\\d{3})(\\d{4})\" nationalPrefixFormattingRule=\"$NP$FG\">\n",
   str% "          <leadingDigits>\n",
   str% "            [3-7]|\n",
   str% "            89|\n",
   str% "            9[1-9]\n",
   str% "          </leadingDigits>\n",
   str% "          <format>$1 $2 $3</format>\n",
   str% "        </numberFormat>\n",
   str% "        <!-- Premium Rate and Toll Free -->\n",
   str% "        <numberFormat pattern=\"(\\d{3})(\\d{3})(\\d{3,4})\" nationalPrefixFormattingRule=\"$NP$FG\">\n",
   str% "          <leadingDigits>[89]</leadingDigits>\n",
   str% "          <format>$1 $2 $3</format>\n",
   str% "        </numberFormat>\n",
   str% "      </availableFormats>\n",
   str% "      <generalDesc>\n",
   str% "        <nationalNumberPattern>\n",
   str% "          [89]\\d{9}|\n",
   str% "          [3-9]\\d{8}\n",
   str% "        </nationalNumberPattern>\n",
   str% "      </generalDesc>\n",
   str% "      <!-- Official numbering plan https://regulation.gov.ua/documents/id89506 (Dated: 23.11.2006)\n",
   str% "           mentions that xx[018] (xx represents valid area code) fixed-line numbers as invalid and\n",
   str% "           we are also unable to find valid numbers online. This doc is already outdated and\n",
   str% "           contradicted (Eg: length of NSN) by some more recent evidence. Considering the impact\n",
   str% "           we choose not to mark those ranges as invalid. -->\n",
   str% "      <fixedLine>\n",
   str% "        <possibleLengths national=\"9\" localOnly=\"[5-7]\"/>\n",
   str% "        <exampleNumber>311234567</exampleNumber>\n",
   str% "        <nationalNumberPattern>\n",
   str% "          (?:\n",
   str% "            3[1-8]|\n",
   str% "            4[13-8]|\n",
   str% "            5[1-7]|\n",
   str% "            6[12459]\n",
   str% "          )\\d{7}\n",
   str% "        </nationalNumberPattern>\n",
   str% "      </fixedLine>\n",
   str% "      <!-- Added 71 prefix based on user report and 72 based on online numbers.  -->\n",
   str% "      <mobile>\n",
   str% "        <possibleLengths national=\"9\"/>\n",
   str% "        <exampleNumber>501234567</exampleNumber>\n",
   str% "        <nationalNumberPattern>\n",
   str% "          790\\d{6}|\n",
   str% "          (?:\n",
   str% "            39|\n",
   str% "            50|\n",
   str% "            6[36-8]|\n",
   str% "            7[1-357]|\n",
   str% "            9[1-9]\n",
   str% "          )\\d{7}\n",
   str% "        </nationalNumberPattern>\n",
   str% "      </mobile>\n",
   str% "      <tollFree>\n",
   str% "        <possibleLengths national=\"9,10\"/>\n",
   str% "        <exampleNumber>800123456</exampleNumber>\n",
   str% "        <nationalNumberPattern>800[1-8]\\d{5,6}</nationalNumberPattern>\n",
   str% "      </tollFree>\n",
   str% "      <!-- 4th digit added based on\n",
   str% "           http://www.mts.ua/ru/support/services/200-tarify-na-nomera-0-800-0-900-0-703/ -->\n",
   str% "      <premiumRate>\n",
   str% "        <possibleLengths national=\"9,10\"/>\n",
   str% "        <exampleNumber>900212345</exampleNumber>\n",
   str% "        <nationalNumberPattern>900[239]\\d{5,6}</nationalNumberPattern>\n",
   str% "      </premiumRate>\n",
   str% "      <!-- 89[1-579] ranges are mentioned as \"Non-geographic number \u2013 mobile services assigned\" in\n",
   str% "           the ITU doc. All the 89X phone numbers found online are listed as conference calls and\n",
   str% "           skype calls which are actually VOIP. And also the companies to which these ranges are\n",
   str% "           assigned (as per ITU doc) are more of VOIP service providers. So supporting them under\n",
   str% "           VOIP. -->\n",
   str% "      <voip>\n",
   str% "        <possibleLengths national=\"9\"/>\n",
   str% "        <exampleNumber>891234567</exampleNumber>\n",
   str% "        <nationalNumberPattern>89[1-579]\\d{6}</nationalNumberPattern>\n",
   str% "      </voip>\n",
   str% "    </territory>"]

/-- the text up to the end of territory id=UG countryCode=256 -/
noncomputable def UG : List Str :=
  [str% "\n",
   str% "\n",
   str% "    <!-- Uganda (UG) -->\n",
   str% "    <!-- http://www.itu.int/oth/T02020000F1/en -->\n",
   str% "    <territory id=\"UG\" countryCode=\"256\" internationalPrefix=\"00[057]\" nationalPrefix=\"0\">\n",
   str% "      <availableFormats>\n",
   str% "        <!-- 4-digit area codes -->\n",
   str% "        <numberFormat pattern=\"(\\d{4})(\\d{5})\" nationalPrefixFormattingRule=\"$NP$FG\">\n",
   str% "          <leadingDigits>202</leadingDigits>\n",
   str% "          <leadingDigits>2024</leadingDigits>\n",
   str% "          <format>$1 $2</format>\n",
   str% "        </numberFormat>\n",
   str% "        <!-- Fixed and mobile format. -->\n",
   str% "        <numberFormat pattern=\"(\\d{3})(\\d{6})\" nationalPrefixFormattingRule=\"$NP$FG\">\n",
   str% "          <leadingDigits>\n",
   str% "            [27-9]|\n",
   str% "            4(?:\n",
   str% "              6[45]|\n",
   str% "              [7-9]\n",
   str% "            )\n",
   str% "          </leadingDigits>\n",
   str% "          <format>$1 $2</format>\n",
   str% "        </numberFormat>\n",
   str% "        <!-- 2-digit area codes -->\n",
   str% "        <numberFormat pattern=\"(\\d{2})(\\d{7})\" nationalPrefixFormattingRule=\"$NP$FG\">\n",
   str% "          <leadingDigits>[34]</leadingDigits>\n",
   str% "          <format>$1 $2</format>\n",
   str% "        </numberFormat>\n",
   str% "      </availableFormats>\n",
   str% "      <generalDesc>\n",
   str% "        <nationalNumberPattern>\n",
   str% "          800\\d{6}|\n",
   str% "          (?:\n",
   str% "            [29]0|\n",
   str% "            [347]\\d\n",
   str% "          )\\d{7}\n",
   str% "        </nationalNumberPattern>\n",
   str% "      </generalDesc>\n",
   str% "      <!-- The ITU plan calls for all numbers to be exactly 9 digits. However, it's not clear if\n",
   str% "           local dialing is still possible. We assume it is for now. -->\n",
   str% "      <!-- The prefix 202[5-9] was added as per the ITU update on Oct. 2011. It is not\n",
   str% "           mentioned in the new ITU docs but they are still valid based on online\n",
   str% "           evidence. -->\n",
   str% "      <fixedLine>\n",
   str% "        <possibleLengths national=\"9\" localOnly=\"[5-7]\"/>\n",
   str% "        <exampleNumber>312345678</exampleNumber>\n",
   str% "        <nationalNumberPattern>\n",
   str% "          20(?:\n",
   str% "            (?:\n",
   str% "              240|\n",
   str% "              30[67]\n",
   str% "            )\\d|\n",
   str% "            6(?:\n",
   str% "              00[0-2]|\n",
   str% "              30[0-4]\n",
   str% "            )\n",
   str% "          )\\d{3}|\n",
   str% "          (?:\n",
   str% "            20(?:\n",
   str% "              [017]\\d|\n",
   str% "              2[5-9]|\n",
   str% "              3[1-4]|\n",
   str% "              5[0-4]|\n",
   str% "              6[15-9]\n",
   str% "            )|\n",
   str% "            [34]\\d{3}\n",
   str% "          )\\d{5}\n",
   str% "        </nationalNumberPattern>\n",
   str% "      </fixedLine>\n",
   str% "      <!-- Supporting 7[09][89] based on carrier docs. -->\n",
   str% "      <mobile>\n",
   str% "        <possibleLengths national=\"9\"/>\n",
   str% "        <exampleNumber>712345678</exampleNumber>\n",
   str% "        <nationalNumberPattern>\n",
   str% "          7280\\d{5}|\n",
   str% "          7(?:\n",
   str% "            [014-8]\\d|\n",
   str% "            2[01467]|\n",
   str% "            3[016]|\n",
   str% "            9[0-589]\n",
   str% "          )\\d{6}\n",
   str% "        </nationalNumberPattern>\n",
   str% "      </mobile>\n",
   str% "      <tollFree>\n",
   str% "        <possibleLengths national=\"9\"/>\n",
   str% "        <exampleNumber>800123456</exampleNumber>\n",
   str% "        <nationalNumberPattern>800[1-3]\\d{5}</nationalNumberPattern>\n",
   str% "      </tollFree>\n",
   str% "      <premiumRate>\n",
   str% "        <possibleLengths national=\"9\"/>\n",
   str% "        <exampleNumber>901123456</exampleNumber>\n",
   str% "        <nationalNumberPattern>90[1-3]\\d{6}</nationalNumberPattern>\n",
   str% "      </premiumRate>\n",
   str% "    </territory>"]

/-- the text up to the end of territory id=US countryCode=1 -/
noncomputable def US : List Str :=
  [str% "\n",
   str% "\n",
   str% "    <!-- United States (US) -->\n",
   str% "    <!-- Main region for 'AG,AI,AS,BB,BM,BS,CA,DM,DO,GD,GU,JM,KN,KY,LC,MP,MS,PR,SX,TC,TT,VC,VG,VI' -->\n",
   str% "    <!-- Note the national prefix of US is the same as its country code, and when formatting phone\n",
   str% "         numbers in the national format, it is not included. Therefore, we omit it here to make\n",
   str% "         formatting consistent with the rest of the world. The same applies to all the\n",
   str% "         countries/regions under NANPA -->\n",
   str% "    <!-- The national prefix of \"1\" here is the same as the country code. It is not used by default\n",
   str% "         when formatting, but is set here so that users who are calling formatByPattern can specify\n",
   str% "         NationalPrefixFormattingRule if they want to. -->\n",
   str% "    <!-- http://www.nanpa.com/reports/reports_npa.html -->\n",
   str% "    <!-- http://en.wikipedia.org/wiki/North_American_Numbering_Plan -->\n",
   str% "    <territory id=\"US\" mainCountryForCode=\"true\" countryCode=\"1\" internationalPrefix=\"011\"\n",
   str% "               nationalPrefix=\"1\" mobileNumberPortableRegion=\"true\">\n",
   str% "      <availableFormats>\n",
   str% "        <!-- 310-xxxx (7 digit) UAN numbers . -->\n",
   str% "        <numberFormat pattern=\"(\\d{3})(\\d{4})\" nationalPrefixOptionalWhenFormatting=\"true\">\n",
   str% "          <leadingDigits>310</leadingDigits>\n",
   str% "          <format>$1-$2</format>\n",
   str% "        </numberFormat>\n",
   str% "        <numberFormat pattern=\"(\\d{3})(\\d{4})\">\n",
   str% "          <leadingDigits>\n",
   str% "            [24-9]|\n",
   str% "            3(?:\n",
   str% "              [02-9]|\n",
   str% "              1[1-9]\n",
   str% "            )\n",
   str% "          </leadingDigits>\n",
   str% "          <format>$1-$2</format>\n",
   str% "          <intlFormat>NA</intlFormat>\n",
   str% "        </numberFormat>\n",
   str% "        <!-- A different pattern is used when formatting internationally, as the area code is no\n",
   str% "             longer optional and should not be in brackets. -->\n",
   str% "        <numberFormat pattern=\"(\\d{3})(\\d{3})(\\d{4})\" nationalPrefixOptionalWhenFormatting=\"true\">\n",
   str% "          <leadingDigits>[2-9]</leadingDigits>\n",
   str% "          <format>($1) $2-$3</format>\n",
   str% "          <intlFormat>$1-$2-$3</intlFormat>\n",
   str% "        </numberFormat>\n",
   str% "      </availableFormats>\n",
   str% "      <generalDesc>\n",
   str% "        <nationalNumberPattern>\n",
   str% "          [2-9]\\d{9}|\n",
   str% "          3\\d{6}\n",
   str% "        </nationalNumberPattern>\n",
   str% "      </generalDesc>\n",
   str% "      <fixedLine>\n",
   str% "        <possibleLengths national=\"10\" localOnly=\"7\"/>\n",
   str% "        <exampleNumber>2015550123</exampleNumber>\n",
   str% "        <nationalNumberPattern>\n",
   str% "          (?:\n",
   str% "            274[27]|\n",
   str% "            (?:\n",
   str% "              472|\n",
   str% "              983\n",
   str% "            )[2-47-9]\n",
   str% "          )\\d{6}|\n",
   str% "          (?:\n",
   str% "            2(?:\n",
   str% "              0[1-35-9]|\n",
   str% "              1[02-9]|\n",
   str% "              2[03-57-9]|\n",
   str% "              3[1459]|\n",
   str% "              4[08]|\n",
   str% "              5[1-46]|\n",
   str% "              6[0279]|\n",
   str% "              7[0269]|\n",
   str% "              8[13]\n",
   str% "            )|\n",
   str% "            3(?:\n",
   str% "              0[1-57-9]|\n",
   str% "              1[02-9]|\n",
   str% "              2[013-79]|\n",
   str% "              3[0-24679]|\n",
   str% "              4[167]|\n",
   str% "              5[0-3]|\n",
   str% "              6[01349]|\n",
   str% "              8[056]\n",
   str% "            )|\n",
   str% "            4(?:\n",
   str% "              0[124-9]|\n",
   str% "              1[02-579]|\n",
   str% "              2[3-5]|\n",
   str% "              3[0245]|\n",
   str% "              4[023578]|\n",
   str% "              58|\n",
   str% "              6[349]|\n",
   str% "              7[0589]|\n",
   str% "              8[04]\n",
   str% "            )|\n",
   str% "            5(?:\n",
   str% "              0[1-57-9]|\n",
   str% "              1[0235-8]|\n",
   str% "              20|\n",
   str% "              3[0149]|\n",
   str% "              4[01]|\n",
   str% "              5[179]|\n",
   str% "              6[1-47]|\n",
   str% "              7[0-5]|\n",
   str% "              8[0256]\n",
   str% "            )|\n",
   str% "            6(?:\n",
   str% "              0[1-35-9]|\n",
   str% "              1[024-9]|\n",
   str% "              2[03689]|\n",
   str% "              3[016]|\n",
   str% "              4[0156]|\n",
   str% "              5[01679]|\n",
   str% "              6[0-279]|\n",
   str% "              78|\n",
   str% "              8[0-269]\n",
   str% "            )|\n",
   str% "            7(?:\n",
   str% "              0[1-46-8]|\n",
   str% "              1[2-9]|\n",
   str% "              2[04-8]|\n",
   str% "              3[0-2478]|\n",
   str% "              4[0378]|\n",
   str% "              5[47]|\n",
   str% "              6[02359]|\n",
   str% "              7[0-59]|\n",
   str% "              8[156]\n",
   str% "            )|\n",
   str% "            8(?:\n",
   str% "              0[1-68]|\n",
   str% "              1[02-8]|\n",
   str% "              2[0168]|\n",
   str% "              3[0-2589]|\n",
   str% "              4[03578]|\n",
   str% "              5[046-9]|\n",
   str% "              6[02-5]|\n",
   str% "              7[028]\n",
   str% "            )|\n",
   str% "            9(?:\n",
   str% "              0[1346-9]|\n",
   str% "              1[02-9]|\n",
   str% "              2[0589]|\n",
   str% "              3[0146-8]|\n",
   str% "              4[01357-9]|\n",
   str% "              5[12469]|\n",
   str% "              7[0-3589]|\n",
   str% "              8[04-69]\n",
   str% "            )\n",
   str% "          )[2-9]\\d{6}\n",
   str% "        </nationalNumberPattern>\n",
   str% "      </fixedLine>\n",
   str% "      <mobile>\n",
   str% "        <possibleLengths national=\"10\" localOnly=\"7\"/>\n",
   str% "        <exampleNumber>2015550123</exampleNumber>\n",
   str% "        <nationalNumberPattern>\n",
   str% "          (?:\n",
   str% "            274[27]|\n",
   str% "            (?:\n",
   str% "              472|\n",
   str% "              983\n",
   str% "            )[2-47-9]\n",
   str% "          )\\d{6}|\n",
   str% "          (?:\n",
   str% "            2(?:\n",
   str% "              0[1-35-9]|\n",
   str% "              1[02-9]|\n",
   str% "              2[03-57-9]|\n",
   str% "              3[1459]|\n",
   str% "              4[08]|\n",
   str% "              5[1-46]|\n",
   str% "              6[0279]|\n",
   str% "              7[0269]|\n",
   str% "              8[13]\n",
   str% "            )|\n",
   str% "            3(?:\n",
   str% "              0[1-57-9]|\n",
   str% "              1[02-9]|\n",
   str% "              2[013-79]|\n",
   str% "              3[0-24679]|\n",
   str% "              4[167]|\n",
   str% "              5[0-3]|\n",
   str% "              6[01349]|\n",
   str% "              8[056]\n",
   str% "            )|\n",
   str% "            4(?:\n",
   str% "              0[124-9]|\n",
   str% "              1[02-579]|\n",
   str% "              2[3-5]|\n",
   str% "              3[0245]|\n",
   str% "              4[023578]|\n",
   str% "              58|\n",
   str% "              6[349]|\n",
   str% "              7[0589]|\n",
   str% "              8[04]\n",
   str% "            )|\n",
   str% "            5(?:\n",
   str% "              0[1-57-9]|\n",
   str% "              1[0235-8]|\n",
   str% "              20|\n",
   str% "              3[0149]|\n",
   str% "              4[01]|\n",
   str% "              5[179]|\n",
   str% "              6[1-47]|\n",
   str% "              7[0-5]|\n",
   str% "              8[0256]\n",
   str% "            )|\n",
   str% "            6(?:\n",
   str% "              0[1-35-9]|\n",
   str% "              1[024-9]|\n",
   str% "              2[03689]|\n",
   str% "              3[016]|\n",
   str% "              4[0156]|\n",
   str% "              5[01679]|\n",
   str% "              6[0-279]|\n",
   str% "              78|\n",
   str% "              8[0-269]\n",
   str% "            )|\n",
   str% "            7(?:\n",
   str% "              0[1-46-8]|\n",
   str% "              1[2-9]|\n",
   str% "              2[04-8]|\n",
   str% "              3[0-2478]|\n",
   str% "              4[0378]|\n",
   str% "              5[47]|\n",
   str% "              6[02359]|\n",
   str% "              7[0-59]|\n",
   str% "              8[156]\n",
   str% "            )|\n",
   str% "            8(?:\n",
   str% "              0[1-68]|\n",
   str% "              1[02-8]|\n",
   str% "              2[0168]|\n",
   str% "              3[0-2589]|\n",
   str% "              4[03578]|\n",
   str% "              5[046-9]|\n",
   str% "              6[02-5]|\n",
   str% "              7[028]\n",
   str% "            )|\n",
   str% "            9(?:\n",
   str% "              0[1346-9]|\n",
   str% "              1[02-9]|\n",
   str% "              2[0589]|\n",
   str% "              3[0146-8]|\n",
   str% "              4[01357-9]|\n",
   str% "              5[12469]|\n",
   str% "              7[0-3589]|\n",
   str% "              8[04-69]\n",
   str% "            )\n",
   str% "          )[2-9]\\d{6}\n",
   str% "        </nationalNumberPattern>\n",
   str% "      </mobile>\n",
   str% "      <tollFree>\n",
   str% "        <possibleLengths national=\"10\"/>\n",
   str% "        <exampleNumber>8002345678</exampleNumber>\n",
   str% "        <nationalNumberPattern>\n",
   str% "          8(?:\n",
   str% "            00|\n",
   str% "            33|\n",
   str% "            44|\n",
   str% "            55|\n",
   str% "            66|\n",
   str% "            77|\n",
   str% "            88\n",
   str% "          )[2-9]\\d{6}\n",
   str% "        </nationalNumberPattern>\n",
   str% "      </tollFree>\n",
   str% "      <premiumRate>\n",
   str% "        <possibleLengths national=\"10\"/>\n",
   str% "        <exampleNumber>9002345678</exampleNumber>\n",
   str% "        <nationalNumberPattern>900[2-9]\\d{6}</nationalNumberPattern>\n",
   str% "      </premiumRate>\n",
   str% "      <!-- https://www.nationalnanpa.com/number_resource_info/5XX_codes.html -->\n",
   str% "      <personalNumber>\n",
   str% "        <possibleLengths national=\"10\"/>\n",
   str% "        <exampleNumber>5002345678</exampleNumber>\n",
   str% "        <nationalNumberPattern>\n",
   str% "          52(?:\n",
   str% "            3(?:\n",
   str% "              [2-46-9][02-9]\\d|\n",
   str% "              5(?:\n",
   str% "                [02-46-9]\\d|\n",
   str% "                5[0-46-9]\n",
   str% "              )\n",
   str% "            )|\n",
   str% "            4(?:\n",
   str% "              [2-478][02-9]\\d|\n",
   str% "              5(?:\n",
   str% "                [034]\\d|\n",
   str% "                2[024-9]|\n",
   str% "                5[0-46-9]\n",
   str% "              )|\n",
   str% "              6(?:\n",
   str% "                0[1-9]|\n",
   str% "                [2-9]\\d\n",
   str% "              )|\n",
   str% "              9(?:\n",
   str% "                [05-9]\\d|\n",
   str% "                2[0-5]|\n",
   str% "                49\n",
   str% "              )\n",
   str% "            )\n",
   str% "          )\\d{4}|\n",
   str% "          52[34][2-9]1[02-9]\\d{4}|\n",
   str% "          5(?:\n",
   str% "            00|\n",
   str% "            2[125-9]|\n",
   str% "            3[23]|\n",
   str% "            44|\n",
   str% "            66|\n",
   str% "            77|\n",
   str% "            88\n",
   str% "          )[2-9]\\d{6}\n",
   str% "        </nationalNumberPattern>\n",
   str% "      </personalNumber>\n",
   str% "    </territory>"]

/-- the text up to the end of territory id=UY countryCode=598 -/
noncomputable def UY : List Str :=
  [str% "\n",
   str% "\n",
   str% "    <!-- Uruguay (UY) -->\n",
   str% "    <!-- International long-distance providers can be dialled by dialling 01 followed by a carrier\n",
   str% "         code JK, where J = [3-9] and K is any digit. -->\n",
   str% "    <!-- http://www.itu.int/oth/T02020000E0/en -->\n",
   str% "    <!-- http://www.ursec.gub.uy -->\n",
   str% "    <!-- http://en.wikipedia.org/wiki/Telephone_numbers_in_Uruguay -->\n",
   str% "    <territory id=\"UY\" countryCode=\"598\" preferredInternationalPrefix=\"00\"\n",
   str% "               internationalPrefix=\"0(?:0|1[3-9]\\d)\" nationalPrefix=\"0\" preferredExtnPrefix=\" int. \">\n",
   str% "      <availableFormats>\n",
   str% "        <numberFormat pattern=\"(\\d{4,5})\">\n",
   str% "          <leadingDigits>21</leadingDigits>\n",
   str% "          <format>$1</format>\n",
   str% "        </numberFormat>\n",
   str% "        <!-- 6-7 digit toll free numbers -->\n",
   str% "        <numberFormat pattern=\"(\\d{3})(\\d{3,4})\">\n",
   str% "          <leadingDigits>0</leadingDigits>\n",
   str% "          <format>$1 $2</format>\n",
   str% "        </numberFormat>\n",
   str% "        <numberFormat pattern=\"(\\d{3})(\\d{4})\" nationalPrefixFormattingRule=\"$NP$FG\">\n",
   str% "          <leadingDigits>\n",
   str% "            [49]0|\n",
   str% "            8\n",
   str% "          </leadingDigits>\n",
   str% "          <format>$1 $2</format>\n",
   str% "        </numberFormat>\n",
   str% "        <!-- Including the national prefix here since URSEC does when formatting these. -->\n",
   str% "        <numberFormat pattern=\"(\\d{2})(\\d{3})(\\d{3})\" nationalPrefixFormattingRule=\"$NP$FG\">\n",
   str% "          <leadingDigits>9</leadingDigits>\n",
   str% "          <format>$1 $2 $3</format>\n",
   str% "        </numberFormat>\n",
   str% "        <!-- Following paginasamarillas.com.uy formatting. -->\n",
   str% "        <numberFormat pattern=\"(\\d{4})(\\d{4})\">\n",
   str% "          <leadingDigits>[124]</leadingDigits>\n",
   str% "          <format>$1 $2</format>\n",
   str% "        </numberFormat>\n",
   str% "        <!-- 8-10 digit toll free numbers -->\n",
   str% "        <numberFormat pattern=\"(\\d{3})(\\d{3})(\\d{2,4})\">\n",
   str% "          <leadingDigits>0</leadingDigits>\n",
   str% "          <format>$1 $2 $3</format>\n",
   str% "        </numberFormat>\n",
   str% "        <!-- 11-13 digit toll free numbers -->\n",
   str% "        <numberFormat pattern=\"(\\d{3})(\\d{3})(\\d{3})(\\d{2,4})\">\n",
   str% "          <leadingDigits>0</leadingDigits>\n",
   str% "          <format>$1 $2 $3 $4</format>\n",
   str% "        </numberFormat>\n",
   str% "      </availableFormats>\n",
   str% "      <generalDesc>\n",
   str% "        <nationalNumberPattern>\n",
   str% "          0004\\d{2,9}|\n",
   str% "          [1249]\\d{7}|\n",
   str% "          2\\d{3,4}|\n",
   str% "          (?:\n",
   str% "            [49]\\d|\n",
   str% "            80\n",
   str% "          )\\d{5}\n",
   str% "        </nationalNumberPattern>\n",
   str% "      </generalDesc>\n",
   str% "      <!-- Prefix 1770 and 1987 are added based on online numbers. -->\n",
   str% "      <fixedLine>\n",
   str% "        <possibleLengths national=\"8\" localOnly=\"7\"/>\n",
   str% "        <exampleNumber>21231234</exampleNumber>\n",
   str% "        <nationalNumberPattern>\n",
   str% "          (?:\n",
   str% "            1(?:\n",
   str% "              770|\n",
   str% "              9(?:\n",
   str% "                20|\n",
   str% "                [89]7\n",
   str% "              )\n",
   str% "            )|\n",
   str% "            (?:\n",
   str% "              2\\d|\n",
   str% "              4[2-7]\n",
   str% "            )\\d\\d\n",
   str% "          )\\d{4}\n",
   str% "        </nationalNumberPattern>\n",
   str% "      </fixedLine>\n",
   str% "      <mobile>\n",
   str% "        <possibleLengths national=\"8\"/>\n",
   str% "        <exampleNumber>94231234</exampleNumber>\n",
   str% "        <nationalNumberPattern>9[1-9]\\d{6}</nationalNumberPattern>\n",
   str% "      </mobile>\n",
   str% "      <tollFree>\n",
   str% "        <possibleLengths national=\"[6-13]\"/>\n",
   str% "        <exampleNumber>8001234</exampleNumber>\n",
   str% "        <nationalNumberPattern>\n",
   str% "          0004\\d{2,9}|\n",
   str% "          (?:\n",
   str% "            405|\n",
   str% "            80[05]\n",
   str% "          )\\d{4}\n",
   str% "        </nationalNumberPattern>\n",
   str% "      </tollFree>\n",
   str% "      <premiumRate>\n",
   str% "        <possibleLengths national=\"7\"/>\n",
   str% "        <exampleNumber>9001234</exampleNumber>\n",
   str% "        <nationalNumberPattern>90[0-8]\\d{4}</nationalNumberPattern>\n",
   str% "      </premiumRate>\n",
   str% "      <uan>\n",
   str% "        <possibleLengths national=\"4,5\"/>\n",
   str% "        <exampleNumber>21123</exampleNumber>\n",
   str% "        <nationalNumberPattern>21\\d{2,3}</nationalNumberPattern>\n",
   str% "      </uan>\n",
   str% "    </territory>"]

/-- the text up to the end of territory id=UZ countryCode=998 -/
noncomputable def UZ : List Str :=
  [str% "\n",
   str% "\n",
   str% "    <!-- Uzbekistan (UZ) -->\n",
   str% "    <!-- No tollFree or premiumRate information can be found. -->\n",
   str% "    <!-- http://www.ttts.uz/eng/telephone_codes/codes_uzb_eng -->\n",
   str% "    <!-- http://www.itu.int/oth/T02020000E1/en -->\n",
   str% "    <!-- The Trunk / National Prefix '0' or '8' is no longer used.  -->\n",
   str% "    <!-- The International Prefix / IDD is changed to '00' from '8~10' -->\n",
   str% "    <territory id=\"UZ\" countryCode=\"998\" internationalPrefix=\"00\">\n",
   str% "      <availableFormats>\n",
   str% "        <numberFormat pattern=\"(\\d{2})(\\d{3})(\\d{2})(\\d{2})\">\n",
   str% "          <leadingDigits>[235-9]</leadingDigits>\n",
   str% "          <format>$1 $2 $3 $4</format>\n",
   str% "        </numberFormat>\n",
   str% "      </availableFormats>\n",
   str% "      <generalDesc>\n",
   str% "        <nationalNumberPattern>\n",
   str% "          (?:\n",
   str% "            20|\n",
   str% "            33|\n",
   str% "            [5-9]\\d\n",
   str% "          )\\d{7}\n",
   str% "        </nationalNumberPattern>\n",
   str% "      </generalDesc>\n",
   str% "      <!-- Adding 711 from numbers found online, such as the US embassy, and 6922, which seems to\n",
   str% "           be used in Namangan. -->\n",
   str% "      <fixedLine>\n",
   str% "        <possibleLengths national=\"9\"/>\n",
   str% "        <exampleNumber>669050123</exampleNumber>\n",
   str% "        <nationalNumberPattern>\n",
   str% "          (?:\n",
   str% "            55\\d\\d|\n",
   str% "            6(?:\n",
   str% "              1(?:\n",
   str% "                22|\n",
   str% "                3[124]|\n",
   str% "                4[1-4]|\n",
   str% "                5[1-3578]|\n",
   str% "                64\n",
   str% "              )|\n",
   str% "              2(?:\n",
   str% "                22|\n",
   str% "                3[0-57-9]|\n",
   str% "                41\n",
   str% "              )|\n",
   str% "              5(?:\n",
   str% "                22|\n",
   str% "                3[3-7]|\n",
   str% "                5[024-8]\n",
   str% "              )|\n",
   str% "              [69]\\d\\d|\n",
   str% "              7(?:\n",
   str% "                [23]\\d|\n",
   str% "                7[69]\n",
   str% "              )\n",
   str% "            )|\n",
   str% "            7(?:\n",
   str% "              0(?:\n",
   str% "                5[4-9]|\n",
   str% "                6[0146]|\n",
   str% "                7[124-6]|\n",
   str% "                9[135-8]\n",
   str% "              )|\n",
   str% "              [168]\\d\\d|\n",
   str% "              2(?:\n",
   str% "                22|\n",
   str% "                3[13-57-9]|\n",
   str% "                4[1-3579]|\n",
   str% "                5[14]\n",
   str% "              )|\n",
   str% "              3(?:\n",
   str% "                2\\d|\n",
   str% "                3[1578]|\n",
   str% "                4[1-35-7]|\n",
   str% "                5[1-57]|\n",
   str% "                61\n",
   str% "              )|\n",
   str% "              4(?:\n",
   str% "                2\\d|\n",
   str% "                3[1-579]|\n",
   str% "                7[1-79]\n",
   str% "              )|\n",
   str% "              5(?:\n",
   str% "                22|\n",
   str% "                5[1-9]|\n",
   str% "                6[1457]\n",
   str% "              )|\n",
   str% "              9(?:\n",
   str% "                22|\n",
   str% "                5[1-9]\n",
   str% "              )\n",
   str% "            )\n",
   str% "          )\\d{5}\n",
   str% "        </nationalNumberPattern>\n",
   str% "      </fixedLine>\n",
   str% "      <!-- Adding 9[45] as suggested by http://www.ucell.uz/en/for_subscribers/how_to_call.html\n",
   str% "           Adding other prefixes from http://www.weltvorwahlen.de/99861353.html, and any other\n",
   str% "           prefixes Tyntec has a carrier mapped to. Adding 5550[013] & 5590 based on user report. -->\n",
   str% "      <mobile>\n",
   str% "        <possibleLengths national=\"9\"/>\n",
   str% "        <exampleNumber>912345678</exampleNumber>\n",
   str% "        <nationalNumberPattern>\n",
   str% "          (?:\n",
   str% "            (?:\n",
   str% "              [25]0|\n",
   str% "              33|\n",
   str% "              8[078]|\n",
   str% "              9[0-57-9]\n",
   str% "            )\\d{3}|\n",
   str% "            6(?:\n",
   str% "              1(?:\n",
   str% "                2(?:\n",
   str% "                  2[01]|\n",
   str% "                  98\n",
   str% "                )|\n",
   str% "                35[0-4]|\n",
   str% "                50\\d|\n",
   str% "                61[23]|\n",
   str% "                7(?:\n",
   str% "                  [01][017]|\n",
   str% "                  4\\d|\n",
   str% "                  55|\n",
   str% "                  9[5-9]\n",
   str% "                )\n",
   str% "              )|\n",
   str% "              2(?:\n",
   str% "                (?:\n",
   str% "                  11|\n",
   str% "                  7\\d\n",
   str% "                )\\d|\n",
   str% "                2(?:\n",
   str% "                  [12]1|\n",
   str% "                  9[01379]\n",
   str% "                )|\n",
   str% "                5(?:\n",
   str% "                  [126]\\d|\n",
   str% "                  3[0-4]\n",
   str% "                )\n",
   str% "              )|\n",
   str% "              5(?:\n",
   str% "                19[01]|\n",
   str% "                2(?:\n",
   str% "                  27|\n",
   str% "                  9[26]\n",
   str% "                )|\n",
   str% "                (?:\n",
   str% "                  30|\n",
   str% "                  59|\n",
   str% "                  7\\d\n",
   str% "                )\\d\n",
   str% "              )|\n",
   str% "              6(?:\n",
   str% "                2(?:\n",
   str% "                  1[5-9]|\n",
   str% "                  2[0367]|\n",
   str% "                  38|\n",
   str% "                  41|\n",
   str% "                  52|\n",
   str% "                  60\n",
   str% "                )|\n",
   str% "                (?:\n",
   str% "                  3[79]|\n",
   str% "                  9[0-3]\n",
   str% "                )\\d|\n",
   str% "                4(?:\n",
   str% "                  56|\n",
   str% "                  83\n",
   str% "                )|\n",
   str% "                7(?:\n",
   str% "                  [07]\\d|\n",
   str% "                  1[017]|\n",
   str% "                  3[07]|\n",
   str% "                  4[047]|\n",
   str% "                  5[057]|\n",
   str% "                  67|\n",
   str% "                  8[0178]|\n",
   str% "                  9[79]\n",
   str% "                )\n",
   str% "              )|\n",
   str% "              7(?:\n",
   str% "                2(?:\n",
   str% "                  24|\n",
   str% "                  3[237]|\n",
   str% "                  4[5-9]|\n",
   str% "                  7[15-8]\n",
   str% "                )|\n",
   str% "                5(?:\n",
   str% "                  7[12]|\n",
   str% "                  8[0589]\n",
   str% "                )|\n",
   str% "                7(?:\n",
   str% "                  0\\d|\n",
   str% "                  [39][07]\n",
   str% "                )|\n",
   str% "                9(?:\n",
   str% "                  0\\d|\n",
   str% "                  7[079]\n",
   str% "                )\n",
   str% "              )\n",
   str% "            )|\n",
   str% "            7(?:\n",
   str% "              [07]\\d{3}|\n",
   str% "              2(?:\n",
   str% "                2(?:\n",
   str% "                  2[79]|\n",
   str% "                  95\n",
   str% "                )|\n",
   str% "                3(?:\n",
   str% "                  2[5-9]|\n",
   str% "                  6[0-6]\n",
   str% "                )|\n",
   str% "                57\\d|\n",
   str% "                7(?:\n",
   str% "                  0\\d|\n",
   str% "                  1[17]|\n",
   str% "                  2[27]|\n",
   str% "                  3[37]|\n",
   str% "                  44|\n",
   str% "                  5[057]|\n",
   str% "                  66|\n",
   str% "                  88\n",
   str% "                )\n",
   str% "              )|\n",
   str% "              3(?:\n",
   str% "                2(?:\n",
   str% "                  1[0-6]|\n",
   str% "                  21|\n",
   str% "                  3[469]|\n",
   str% "                  7[159]\n",
   str% "                )|\n",
   str% "                (?:\n",
   str% "                  33|\n",
   str% "                  9[4-6]\n",
   str% "                )\\d|\n",
   str% "                5(?:\n",
   str% "                  0[0-4]|\n",
   str% "                  5[579]|\n",
   str% "                  9\\d\n",
   str% "                )|\n",
   str% "                7(?:\n",
   str% "                  [0-3579]\\d|\n",
   str% "                  4[0467]|\n",
   str% "                  6[67]|\n",
   str% "                  8[078]\n",
   str% "                )\n",
   str% "              )|\n",
   str% "              4(?:\n",
   str% "                2(?:\n",
   str% "                  29|\n",
   str% "                  5[0257]|\n",
   str% "                  6[0-7]|\n",
   str% "                  7[1-57]\n",
   str% "                )|\n",
   str% "                5(?:\n",
   str% "                  1[0-4]|\n",
   str% "                  8\\d|\n",
   str% "                  9[5-9]\n",
   str% "                )|\n",
   str% "                7(?:\n",
   str% "                  0\\d|\n",
   str% "                  1[024589]|\n",
   str% "                  2[0-27]|\n",
   str% "                  3[0137]|\n",
   str% "                  [46][07]|\n",
   str% "                  5[01]|\n",
   str% "                  7[5-9]|\n",
   str% "                  9[079]\n",
   str% "                )|\n",
   str% "                9(?:\n",
   str% "                  7[015-9]|\n",
   str% "                  [89]\\d\n",
   str% "                )\n",
   str% "              )|\n",
   str% "              5(?:\n",
   str% "                112|\n",
   str% "                2(?:\n",
   str% "                  0\\d|\n",
   str% "                  2[29]|\n",
   str% "                  [49]4\n",
   str% "                )|\n",
   str% "                3[1568]\\d|\n",
   str% "                52[6-9]|\n",
   str% "                7(?:\n",
   str% "                  0[01578]|\n",
   str% "                  1[017]|\n",
   str% "                  [23]7|\n",
   str% "                  4[047]|\n",
   str% "                  [5-7]\\d|\n",
   str% "                  8[78]|\n",
   str% "                  9[079]\n",
   str% "                )\n",
   str% "              )|\n",
   str% "              9(?:\n",
   str% "                22[128]|\n",
   str% "                3(?:\n",
   str% "                  2[0-4]|\n",
   str% "                  7\\d\n",
   str% "                )|\n",
   str% "                57[02569]|\n",
   str% "                7(?:\n",
   str% "                  2[05-9]|\n",
   str% "                  3[37]|\n",
   str% "                  4\\d|\n",
   str% "                  60|\n",
   str% "                  7[2579]|\n",
   str% "                  87|\n",
   str% "                  9[07]\n",
   str% "                )\n",
   str% "              )\n",
   str% "            )\n",
   str% "          )\\d{4}\n",
   str% "        </nationalNumberPattern>\n",
   str% "      </mobile>\n",
   str% "    </territory>"]

/-- the text up to the end of territory id=VA countryCode=39 -/
noncomputable def VA : List Str :=
  [str% "\n",
   str% "\n",
   str% "    <!-- Vatican City (VA) -->\n",
   str% "    <!-- Calling code and formatting shared with 'IT' -->\n",
   str% "    <!-- Vatican City is assigned country code 379. However, Vatican City is still reached\n",
   str% "         via the Italian numbering plan. Telephone numbers in Vatican City are integrated into\n",
   str% "         the Italian telephone numbering plan. Telephone numbers in the Vatican City are similar\n",
   str% "         to telephone numbers in Rome, with \"698\" following the \"06\" for Rome.\n",
   str% "         A Vatican telephone number is in the form of 06 698x xxxx. -->\n",
   str% "    <!-- http://en.wikipedia.org/wiki/Telephone_numbers_in_Vatican_City -->\n",
   str% "    <territory id=\"VA\" countryCode=\"39\" leadingDigits=\"06698\" internationalPrefix=\"00\"\n",
   str% "               mobileNumberPortableRegion=\"true\">\n",
   str% "      <generalDesc>\n",
   str% "        <nationalNumberPattern>\n",
   str% "          0\\d{5,10}|\n",
   str% "          3[0-8]\\d{7,10}|\n",
   str% "          55\\d{8}|\n",
   str% "          8\\d{5}(?:\n",
   str% "            \\d{2,4}\n",
   str% "          )?|\n",
   str% "          (?:\n",
   str% "            1\\d|\n",
   str% "            39\n",
   str% "          )\\d{7,8}\n",
   str% "        </nationalNumberPattern>\n",
   str% "      </generalDesc>\n",
   str% "      <!-- As per Wikipedia only 10 digit 06 698 is assigned to Vatican City. However in reality we\n",
   str% "           were able to dial lesser length number that belongs to Vatican City. So added all the\n",
   str% "           lengths as mentioned in ITU Doc. -->\n",
   str% "      <fixedLine>\n",
   str% "        <possibleLengths national=\"[6-11]\"/>\n",
   str% "        <exampleNumber>0669812345</exampleNumber>\n",
   str% "        <nationalNumberPattern>06698\\d{1,6}</nationalNumberPattern>\n",
   str% "      </fixedLine>\n",
   str% "      <!-- Mobile, toll free, premium rate, shared cost, personal number and VOIP copied from Italy. -->\n",
   str% "      <!-- According to wikipedia, TIM mobile numbers can be 9 digits long, but all others are 10\n",
   str% "           digits long. However, a user reported the existence of new 11 digit long numbers for\n",
   str% "           TIM with the prefix 33X, so this is supported also. -->\n",
   str% "      <mobile>\n",
   str% "        <possibleLengths national=\"9,10\"/>\n",
   str% "        <exampleNumber>3123456789</exampleNumber>\n",
   str% "        <nationalNumberPattern>\n",
   str% "          3[1-9]\\d{8}|\n",
   str% "          3[2-9]\\d{7}\n",
   str% "        </nationalNumberPattern>\n",
   str% "      </mobile>\n",
   str% "      <tollFree>\n",
   str% "        <possibleLengths national=\"6,9\"/>\n",
   str% "        <exampleNumber>800123456</exampleNumber>\n",
   str% "        <nationalNumberPattern>\n",
   str% "          80(?:\n",
   str% "            0\\d{3}|\n",
   str% "            3\n",
   str% "          )\\d{3}\n",
   str% "        </nationalNumberPattern>\n",
   str% "      </tollFree>\n",
   str% "      <!-- Adding 0878 numbers, as per\n",
   str% "           http://www.aduc.it/notizia/polizia+mette+allerta+sul+numero+0878_73136.php. Other\n",
   str% "           premium prefixes are mentioned here:\n",
   str% "           http://www.dirittodellinformatica.it/news/telefonia/agcom-blocco-permanente-prefissi-144-166-892-899-20080520241.html -->\n",
   str% "      <premiumRate>\n",
   str% "        <possibleLengths national=\"6,[8-10]\"/>\n",
   str% "        <exampleNumber>899123456</exampleNumber>\n",
   str% "        <nationalNumberPattern>\n",
   str% "          (?:\n",
   str% "            0878\\d{3}|\n",
   str% "            89(?:\n",
   str% "              2\\d|\n",
   str% "              3[04]|\n",
   str% "              4(?:\n",
   str% "                [0-4]|\n",
   str% "                [5-9]\\d\\d\n",
   str% "              )|\n",
   str% "              5[0-4]\n",
   str% "            )\n",
   str% "          )\\d\\d|\n",
   str% "          (?:\n",
   str% "            1(?:\n",
   str% "              44|\n",
   str% "              6[346]\n",
   str% "            )|\n",
   str% "            89(?:\n",
   str% "              38|\n",
   str% "              5[5-9]|\n",
   str% "              9\n",
   str% "            )\n",
   str% "          )\\d{6}\n",
   str% "        </nationalNumberPattern>\n",
   str% "      </premiumRate>\n",
   str% "      <sharedCost>\n",
   str% "        <possibleLengths national=\"6,9\"/>\n",
   str% "        <exampleNumber>848123456</exampleNumber>\n",
   str% "        <nationalNumberPattern>\n",
   str% "          84(?:\n",
   str% "            [08]\\d{3}|\n",
   str% "            [17]\n",
   str% "          )\\d{3}\n",
   str% "        </nationalNumberPattern>\n",
   str% "      </sharedCost>\n",
   str% "      <personalNumber>\n",
   str% "        <possibleLengths national=\"9,10\"/>\n",
   str% "        <exampleNumber>1781234567</exampleNumber>\n",
   str% "        <nationalNumberPattern>\n",
   str% "          1(?:\n",
   str% "            78\\d|\n",
   str% "            99\n",
   str% "          )\\d{6}\n",
   str% "        </nationalNumberPattern>\n",
   str% "      </personalNumber>\n",
   str% "      <voip>\n",
   str% "        <possibleLengths national=\"10\"/>\n",
   str% "        <exampleNumber>5512345678</exampleNumber>\n",
   str% "        <nationalNumberPattern>55\\d{8}</nationalNumberPattern>\n",
   str% "      </voip>\n",
   str% "      <voicemail>\n",
   str% "        <possibleLengths national=\"11,12\"/>\n",
   str% "        <exampleNumber>33101234501</exampleNumber>\n",
   str% "        <nationalNumberPattern>3[2-8]\\d{9,10}</nationalNumberPattern>\n",
   str% "      </voicemail>\n",
   str% "    </territory>"]

/-- the text up to the end of territory id=VC countryCode=1 -/
noncomputable def VC : List Str :=
  [str% "\n",
   str% "\n",
   str% "    <!-- St. Vincent & Grenadines (VC) -->\n",
   str% "    <!-- Calling code and formatting shared with 'US' -->\n",
   str% "    <!-- http://www.itu.int/oth/T02020000B3/en -->\n",
   str% "    <territory id=\"VC\" countryCode=\"1\" leadingDigits=\"784\" internationalPrefix=\"011\"\n",
   str% "               nationalPrefix=\"1\" nationalPrefixForParsing=\"([2-7]\\d{6})$|1\"\n",
   str% "               nationalPrefixTransformRule=\"784$1\" mobileNumberPortableRegion=\"true\">\n",
   str% "      <generalDesc>\n",
   str% "        <nationalNumberPattern>\n",
   str% "          (?:\n",
   str% "            [58]\\d\\d|\n",
   str% "            784|\n",
   str% "            900\n",
   str% "          )\\d{7}\n",
   str% "        </nationalNumberPattern>\n",
   str% "      </generalDesc>\n",
   str% "      <!-- For 570, 571 and 572 prefixes, we believe the ITU doc incorrectly listed them to be under\n",
   str% "           area code 758, which should be 784. -->\n",
   str% "      <fixedLine>\n",
   str% "        <possibleLengths national=\"10\" localOnly=\"7\"/>\n",
   str% "        <exampleNumber>7842661234</exampleNumber>\n",
   str% "        <nationalNumberPattern>\n",
   str% "          784(?:\n",
   str% "            266|\n",
   str% "            3(?:\n",
   str% "              6[6-9]|\n",
   str% "              7\\d|\n",
   str% "              8[0-6]\n",
   str% "            )|\n",
   str% "            4(?:\n",
   str% "              38|\n",
   str% "              5[0-36-8]|\n",
   str% "              8[0-8]\n",
   str% "            )|\n",
   str% "            5(?:\n",
   str% "              55|\n",
   str% "              7[0-2]|\n",
   str% "              93\n",
   str% "            )|\n",
   str% "            638|\n",
   str% "            784\n",
   str% "          )\\d{4}\n",
   str% "        </nationalNumberPattern>\n",
   str% "      </fixedLine>\n",
   str% "      <!-- Supported 49[67] XXXX mobile ranges based on user report. -->\n",
   str% "      <mobile>\n",
   str% "        <possibleLengths national=\"10\" localOnly=\"7\"/>\n",
   str% "        <exampleNumber>7844301234</exampleNumber>\n",
   str% "        <nationalNumberPattern>\n",
   str% "          784(?:\n",
   str% "            4(?:\n",
   str% "              3[0-5]|\n",
   str% "              5[45]|\n",
   str% "              89|\n",
   str% "              9[0-8]\n",
   str% "            )|\n",
   str% "            5(?:\n",
   str% "              2[6-9]|\n",
   str% "              3[0-4]\n",
   str% "            )|\n",
   str% "            720\n",
   str% "          )\\d{4}\n",
   str% "        </nationalNumberPattern>\n",
   str% "      </mobile>\n",
   str% "      <tollFree>\n",
   str% "        <possibleLengths national=\"10\"/>\n",
   str% "        <exampleNumber>8002345678</exampleNumber>\n",
   str% "        <nationalNumberPattern>\n",
   str% "          8(?:\n",
   str% "            00|\n",
   str% "            33|\n",
   str% "            44|\n",
   str% "            55|\n",
   str% "            66|\n",
   str% "            77|\n",
   str% "            88\n",
   str% "          )[2-9]\\d{6}\n",
   str% "        </nationalNumberPattern>\n",
   str% "      </tollFree>\n",
   str% "      <premiumRate>\n",
   str% "        <possibleLengths national=\"10\"/>\n",
   str% "        <exampleNumber>9002345678</exampleNumber>\n",
   str% "        <nationalNumberPattern>900[2-9]\\d{6}</nationalNumberPattern>\n",
   str% "      </premiumRate>\n",
   str% "      <!-- https://www.nationalnanpa.com/number_resource_info/5XX_codes.html -->\n",
   str% "      <personalNumber>\n",
   str% "        <possibleLengths national=\"10\"/>\n",
   str% "        <exampleNumber>5002345678</exampleNumber>\n",
   str% "        <nationalNumberPattern>\n",
   str% "          52(?:\n",
   str% "            3(?:\n",
   str% "              [2-46-9][02-9]\\d|\n",
   str% "              5(?:\n",
   str% "                [02-46-9]\\d|\n",
   str% "                5[0-46-9]\n",
   str% "              )\n",
   str% "            )|\n",
   str% "            4(?:\n",
   str% "              [2-478][02-9]\\d|\n",
   str% "              5(?:\n",
   str% "                [034]\\d|\n",
   str% "                2[024-9]|\n",
   str% "                5[0-46-9]\n",
   str% "              )|\n",
   str% "              6(?:\n",
   str% "                0[1-9]|\n",
   str% "                [2-9]\\d\n",
   str% "              )|\n",
   str% "              9(?:\n",
   str% "                [05-9]\\d|\n",
   str% "                2[0-5]|\n",
   str% "                49\n",
   str% "              )\n",
   str% "            )\n",
   str% "          )\\d{4}|\n",
   str% "          52[34][2-9]1[02-9]\\d{4}|\n",
   str% "          5(?:\n",
   str% "            00|\n",
   str% "            2[125-9]|\n",
   str% "            3[23]|\n",
   str% "            44|\n",
   str% "            66|\n",
   str% "            77|\n",
   str% "            88\n",
   str% "          )[2-9]\\d{6}\n",
   str% "        </nationalNumberPattern>\n",
   str% "      </personalNumber>\n",
   str% "      <voip>\n",
   str% "        <possibleLengths national=\"10\" localOnly=\"7\"/>\n",
   str% "        <exampleNumber>7845101234</exampleNumber>\n",
   str% "        <nationalNumberPattern>78451[0-2]\\d{4}</nationalNumberPattern>\n",
   str% "      </voip>\n",
   str% "    </territory>"]

/-- the text up to the end of territory id=VE countryCode=58 -/
noncomputable def VE : List Str :=
  [str% "\n",
   str% "\n",
   str% "    <!-- Venezuela (VE) -->\n",
   str% "    <!-- 1XX specifies a particular carrier to route a call to, but none of these have been\n",
   str% "         implemented. -->\n",
   str% "    <!-- http://www.itu.int/oth/T02020000E3/en -->\n",
   str% "    <!-- http://en.wikipedia.org/wiki/+58 -->\n",
   str% "    <territory id=\"VE\" countryCode=\"58\" internationalPrefix=\"00\" nationalPrefix=\"0\">\n",
   str% "      <availableFormats>\n",
   str% "        <numberFormat pattern=\"(\\d{3})(\\d{7})\" nationalPrefixFormattingRule=\"$NP$FG\"\n",
   str% "                      carrierCodeFormattingRule=\"$CC $FG\">\n",
   str% "          <leadingDigits>[24-689]</leadingDigits>\n",
   str% "          <format>$1-$2</format>\n",
   str% "        </numberFormat>\n",
   str% "      </availableFormats>\n",
   str% "      <generalDesc>\n",
   str% "        <nationalNumberPattern>\n",
   str% "          [68]00\\d{7}|\n",
   str% "          (?:\n",
   str% "            [24]\\d|\n",
   str% "            [59]0\n",
   str% "          )\\d{8}\n",
   str% "        </nationalNumberPattern>\n",
   str% "      </generalDesc>\n",
   str% "      <!-- Including region-free 500 calls here, since these are treated as local calls. Wikipedia\n",
   str% "           mentions these as 5XX, but online examples that can be found are seemingly restricted\n",
   str% "           to 50[01]. -->\n",
   str% "      <fixedLine>\n",
   str% "        <possibleLengths national=\"10\" localOnly=\"7\"/>\n",
   str% "        <exampleNumber>2121234567</exampleNumber>\n",
   str% "        <nationalNumberPattern>\n",
   str% "          (?:\n",
   str% "            2(?:\n",
   str% "              12|\n",
   str% "              3[457-9]|\n",
   str% "              [467]\\d|\n",
   str% "              [58][1-9]|\n",
   str% "              9[1-6]\n",
   str% "            )|\n",
   str% "            [4-6]00\n",
   str% "          )\\d{7}\n",
   str% "        </nationalNumberPattern>\n",
   str% "      </fixedLine>\n",
   str% "      <mobile>\n",
   str% "        <possibleLengths national=\"10\"/>\n",
   str% "        <exampleNumber>4121234567</exampleNumber>\n",
   str% "        <nationalNumberPattern>\n",
   str% "          4(?:\n",
   str% "            1[24-8]|\n",
   str% "            2[246]\n",
   str% "          )\\d{7}\n",
   str% "        </nationalNumberPattern>\n",
   str% "      </mobile>\n",
   str% "      <tollFree>\n",
   str% "        <possibleLengths national=\"10\"/>\n",
   str% "        <exampleNumber>8001234567</exampleNumber>\n",
   str% "        <nationalNumberPattern>800\\d{7}</nationalNumberPattern>\n",
   str% "      </tollFree>\n",
   str% "      <premiumRate>\n",
   str% "        <possibleLengths national=\"10\"/>\n",
   str% "        <exampleNumber>9001234567</exampleNumber>\n",
   str% "        <nationalNumberPattern>90[01]\\d{7}</nationalNumberPattern>\n",
   str% "      </premiumRate>\n",
   str% "      <uan>\n",
   str% "        <possibleLengths national=\"10\" localOnly=\"7\"/>\n",
   str% "        <exampleNumber>5010123456</exampleNumber>\n",
   str% "        <nationalNumberPattern>501\\d{7}</nationalNumberPattern>\n",
   str% "      </uan>\n",
   str% "    </territory>"]

/-- the text of this module -/
noncomputable def chunk14 : List (List Str) :=
  [TM, TN, TO, TR, TT, TV, TW, TZ, UA, UG, US, UY, UZ, VA, VC, VE]

end Phone.Data.S
