import Verif.Basic.Str
/-! Text of `/repo/assets/PhoneNumberMetadata.xml`, in lines. Generated by `tools/gen_xml.py`; do not edit. -/

set_option maxRecDepth 100000
namespace Phone.Data.S

/-- the text up to the end of territory id=VG countryCode=1 -/
noncomputable def VG : List Str :=
  [str% "\n",
   str% "\n",
   str% "    <!-- British Virgin Islands (VG) -->\n",
   str% "    <!-- Calling code and formatting shared with 'US' -->\n",
   str% "    <!-- http://www.itu.int/oth/T020200001E/en -->\n",
   str% "    <territory id=\"VG\" countryCode=\"1\" leadingDigits=\"284\" internationalPrefix=\"011\"\n",
   str% "               nationalPrefix=\"1\" nationalPrefixForParsing=\"([2-578]\\d{6})$|1\"\n",
   str% "               nationalPrefixTransformRule=\"284$1\" mobileNumberPortableRegion=\"true\">\n",
   str% "      <generalDesc>\n",
   str% "        <nationalNumberPattern>\n",
   str% "          (?:\n",
   str% "            284|\n",
   str% "            [58]\\d\\d|\n",
   str% "            900\n",
   str% "          )\\d{7}\n",
   str% "        </nationalNumberPattern>\n",
   str% "      </generalDesc>\n",
   str% "      <!-- No data on central office codes can be found on the nanpa.com website. The codes 422\n",
   str% "           and 774 have been added from numbers found in the white pages. -->\n",
   str% "      <fixedLine>\n",
   str% "        <possibleLengths national=\"10\" localOnly=\"7\"/>\n",
   str% "        <exampleNumber>2842291234</exampleNumber>\n",
   str% "        <nationalNumberPattern>\n",
   str% "          284(?:\n",
   str% "            229|\n",
   str% "            4(?:\n",
   str% "              22|\n",
   str% "              9[45]\n",
   str% "            )|\n",
   str% "            774|\n",
   str% "            8(?:\n",
   str% "              52|\n",
   str% "              6[459]\n",
   str% "            )\n",
   str% "          )\\d{4}\n",
   str% "        </nationalNumberPattern>\n",
   str% "      </fixedLine>\n",
   str% "      <!-- No data on central office codes can be found on the nanpa.com website. The codes 446\n",
   str% "           and 54[57] have been added from numbers found in the white pages. -->\n",
   str% "      <mobile>\n",
   str% "        <possibleLengths national=\"10\" localOnly=\"7\"/>\n",
   str% "        <exampleNumber>2843001234</exampleNumber>\n",
   str% "        <nationalNumberPattern>\n",
   str% "          284(?:\n",
   str% "            245|\n",
   str% "            3(?:\n",
   str% "              0[0-3]|\n",
   str% "              4[0-7]|\n",
   str% "              68|\n",
   str% "              9[34]\n",
   str% "            )|\n",
   str% "            4(?:\n",
   str% "              4[0-6]|\n",
   str% "              68|\n",
   str% "              9[69]\n",
   str% "            )|\n",
   str% "            5(?:\n",
   str% "              4[0-7]|\n",
   str% "              68|\n",
   str% "              9[69]\n",
   str% "            )\n",
   str% "          )\\d{4}\n",
   str% "        </nationalNumberPattern>\n",
   str% "      </mobile>\n",
   str% "      <tollFree>\n",
   str% "        <possibleLengths national=\"10\"/>\n",
   str% "        <exampleNumber>8002345678</exampleNumber>\n",
   str% "        <nationalNumberPattern>\n",
   str% "          8(?:\n",
   str% "            00|\n",
   str% "            33|\n",
   str% "            44|\n",
   str% "            55|\n",
   str% "            66|\n",
   str% "            77|\n",
   str% "            88\n",
   str% "          )[2-9]\\d{6}\n",
   str% "        </nationalNumberPattern>\n",
   str% "      </tollFree>\n",
   str% "      <premiumRate>\n",
   str% "        <possibleLengths national=\"10\"/>\n",
   str% "        <exampleNumber>9002345678</exampleNumber>\n",
   str% "        <nationalNumberPattern>900[2-9]\\d{6}</nationalNumberPattern>\n",
   str% "      </premiumRate>\n",
   str% "      <!-- https://www.nationalnanpa.com/number_resource_info/5XX_codes.html -->\n",
   str% "      <personalNumber>\n",
   str% "        <possibleLengths national=\"10\"/>\n",
   str% "        <exampleNumber>5002345678</exampleNumber>\n",
   str% "        <nationalNumberPattern>\n",
   str% "          52(?:\n",
   str% "            3(?:\n",
   str% "              [2-46-9][02-9]\\d|\n",
   str% "              5(?:\n",
   str% "                [02-46-9]\\d|\n",
   str% "                5[0-46-9]\n",
   str% "              )\n",
   str% "            )|\n",
   str% "            4(?:\n",
   str% "              [2-478][02-9]\\d|\n",
   str% "              5(?:\n",
   str% "                [034]\\d|\n",
   str% "                2[024-9]|\n",
   str% "                5[0-46-9]\n",
   str% "              )|\n",
   str% "              6(?:\n",
   str% "                0[1-9]|\n",
   str% "                [2-9]\\d\n",
   str% "              )|\n",
   str% "              9(?:\n",
   str% "                [05-9]\\d|\n",
   str% "                2[0-5]|\n",
   str% "                49\n",
   str% "              )\n",
   str% "            )\n",
   str% "          )\\d{4}|\n",
   str% "          52[34][2-9]1[02-9]\\d{4}|\n",
   str% "          5(?:\n",
   str% "            00|\n",
   str% "            2[125-9]|\n",
   str% "            3[23]|\n",
   str% "            44|\n",
   str% "            66|\n",
   str% "            77|\n",
   str% "            88\n",
   str% "          )[2-9]\\d{6}\n",
   str% "        </nationalNumberPattern>\n",
   str% "      </personalNumber>\n",
   str% "    </territory>"]

/-- the text up to the end of territory id=VI countryCode=1 -/
noncomputable def VI : List Str :=
  [str% "\n",
   str% "\n",
   str% "    <!-- U.S. Virgin Islands (VI) -->\n",
   str% "    <!-- Calling code and formatting shared with 'US' -->\n",
   str% "    <!-- http://www.itu.int/oth/T02020000DF/en -->\n",
   str% "    <territory id=\"VI\" countryCode=\"1\" leadingDigits=\"340\" internationalPrefix=\"011\"\n",
   str% "               nationalPrefix=\"1\" nationalPrefixForParsing=\"([2-9]\\d{6})$|1\"\n",
   str% "               nationalPrefixTransformRule=\"340$1\">\n",
   str% "      <generalDesc>\n",
   str% "        <nationalNumberPattern>\n",
   str% "          [58]\\d{9}|\n",
   str% "          (?:\n",
   str% "            34|\n",
   str% "            90\n",
   str% "          )0\\d{7}\n",
   str% "        </nationalNumberPattern>\n",
   str% "      </generalDesc>\n",
   str% "      <!-- The ITU document seems a bit out-of-date so extra prefixes based on numbers in the\n",
   str% "           yellow pages have been added, and the list of exchanges found on\n",
   str% "           http://www.allareacodes.com/340 -->\n",
   str% "      <fixedLine>\n",
   str% "        <possibleLengths national=\"10\" localOnly=\"7\"/>\n",
   str% "        <exampleNumber>3406421234</exampleNumber>\n",
   str% "        <nationalNumberPattern>\n",
   str% "          340(?:\n",
   str% "            2(?:\n",
   str% "              0\\d|\n",
   str% "              10|\n",
   str% "              2[06-8]|\n",
   str% "              4[49]|\n",
   str% "              77\n",
   str% "            )|\n",
   str% "            3(?:\n",
   str% "              32|\n",
   str% "              44\n",
   str% "            )|\n",
   str% "            4(?:\n",
   str% "              2[23]|\n",
   str% "              44|\n",
   str% "              7[34]|\n",
   str% "              89\n",
   str% "            )|\n",
   str% "            5(?:\n",
   str% "              1[34]|\n",
   str% "              55\n",
   str% "            )|\n",
   str% "            6(?:\n",
   str% "              2[56]|\n",
   str% "              4[23]|\n",
   str% "              77|\n",
   str% "              9[023]\n",
   str% "            )|\n",
   str% "            7(?:\n",
   str% "              1[2-57-9]|\n",
   str% "              2[57]|\n",
   str% "              7\\d\n",
   str% "            )|\n",
   str% "            884|\n",
   str% "            998\n",
   str% "          )\\d{4}\n",
   str% "        </nationalNumberPattern>\n",
   str% "      </fixedLine>\n",
   str% "      <mobile>\n",
   str% "        <possibleLengths national=\"10\" localOnly=\"7\"/>\n",
   str% "        <exampleNumber>3406421234</exampleNumber>\n",
   str% "        <nationalNumberPattern>\n",
   str% "          340(?:\n",
   str% "            2(?:\n",
   str% "              0\\d|\n",
   str% "              10|\n",
   str% "              2[06-8]|\n",
   str% "              4[49]|\n",
   str% "              77\n",
   str% "            )|\n",
   str% "            3(?:\n",
   str% "              32|\n",
   str% "              44\n",
   str% "            )|\n",
   str% "            4(?:\n",
   str% "              2[23]|\n",
   str% "              44|\n",
   str% "              7[34]|\n",
   str% "              89\n",
   str% "            )|\n",
   str% "            5(?:\n",
   str% "              1[34]|\n",
   str% "              55\n",
   str% "            )|\n",
   str% "            6(?:\n",
   str% "              2[56]|\n",
   str% "              4[23]|\n",
   str% "              77|\n",
   str% "              9[023]\n",
   str% "            )|\n",
   str% "            7(?:\n",
   str% "              1[2-57-9]|\n",
   str% "              2[57]|\n",
   str% "              7\\d\n",
   str% "            )|\n",
   str% "            884|\n",
   str% "            998\n",
   str% "          )\\d{4}\n",
   str% "        </nationalNumberPattern>\n",
   str% "      </mobile>\n",
   str% "      <tollFree>\n",
   str% "        <possibleLengths national=\"10\"/>\n",
   str% "        <exampleNumber>8002345678</exampleNumber>\n",
   str% "        <nationalNumberPattern>\n",
   str% "          8(?:\n",
   str% "            00|\n",
   str% "            33|\n",
   str% "            44|\n",
   str% "            55|\n",
   str% "            66|\n",
   str% "            77|\n",
   str% "            88\n",
   str% "          )[2-9]\\d{6}\n",
   str% "        </nationalNumberPattern>\n",
   str% "      </tollFree>\n",
   str% "      <premiumRate>\n",
   str% "        <possibleLengths national=\"10\"/>\n",
   str% "        <exampleNumber>9002345678</exampleNumber>\n",
   str% "        <nationalNumberPattern>900[2-9]\\d{6}</nationalNumberPattern>\n",
   str% "      </premiumRate>\n",
   str% "      <!-- https://www.nationalnanpa.com/number_resource_info/5XX_codes.html -->\n",
   str% "      <personalNumber>\n",
   str% "        <possibleLengths national=\"10\"/>\n",
   str% "        <exampleNumber>5002345678</exampleNumber>\n",
   str% "        <nationalNumberPattern>\n",
   str% "          52(?:\n",
   str% "            3(?:\n",
   str% "              [2-46-9][02-9]\\d|\n",
   str% "              5(?:\n",
   str% "                [02-46-9]\\d|\n",
   str% "                5[0-46-9]\n",
   str% "              )\n",
   str% "            )|\n",
   str% "            4(?:\n",
   str% "              [2-478][02-9]\\d|\n",
   str% "              5(?:\n",
   str% "                [034]\\d|\n",
   str% "                2[024-9]|\n",
   str% "                5[0-46-9]\n",
   str% "              )|\n",
   str% "              6(?:\n",
   str% "                0[1-9]|\n",
   str% "                [2-9]\\d\n",
   str% "              )|\n",
   str% "              9(?:\n",
   str% "                [05-9]\\d|\n",
   str% "                2[0-5]|\n",
   str% "                49\n",
   str% "              )\n",
   str% "            )\n",
   str% "          )\\d{4}|\n",
   str% "          52[34][2-9]1[02-9]\\d{4}|\n",
   str% "          5(?:\n",
   str% "            00|\n",
   str% "            2[125-9]|\n",
   str% "            3[23]|\n",
   str% "            44|\n",
   str% "            66|\n",
   str% "            77|\n",
   str% "            88\n",
   str% "          )[2-9]\\d{6}\n",
   str% "        </nationalNumberPattern>\n",
   str% "      </personalNumber>\n",
   str% "    </territory>"]

/-- the text up to the end of territory id=VN countryCode=84 -/
noncomputable def VN : List Str :=
  [str% "\n",
   str% "\n",
   str% "    <!-- Vietnam (VN) -->\n",
   str% "    <!-- http://www.itu.int/oth/T02020000E4/en -->\n",
   str% "    <!-- http://en.wikipedia.org/wiki/%2B84 -->\n",
   str% "    <territory id=\"VN\" countryCode=\"84\" internationalPrefix=\"00\" nationalPrefix=\"0\">\n",
   str% "      <availableFormats>\n",
   str% "        <!-- National only UAN -->\n",
   str% "        <numberFormat pattern=\"(\\d{3})(\\d{4})\" nationalPrefixFormattingRule=\"$NP$FG\"\n",
   str% "                      nationalPrefixOptionalWhenFormatting=\"true\">\n",
   str% "          <leadingDigits>[17]99</leadingDigits>\n",
   str% "          <format>$1 $2</format>\n",
   str% "          <intlFormat>NA</intlFormat>\n",
   str% "        </numberFormat>\n",
   str% "        <!-- National only UAN -->\n",
   str% "        <numberFormat pattern=\"(\\d{3})(\\d{4,5})\" nationalPrefixFormattingRule=\"$NP$FG\"\n",
   str% "                      nationalPrefixOptionalWhenFormatting=\"true\">\n",
   str% "          <leadingDigits>69</leadingDigits>\n",
   str% "          <format>$1 $2</format>\n",
   str% "          <intlFormat>NA</intlFormat>\n",
   str% "        </numberFormat>\n",
   str% "        <!-- Non-geographic fixed line (toll free / standard rate) -->\n",
   str% "        <numberFormat pattern=\"(\\d{4})(\\d{4,6})\" nationalPrefixOptionalWhenFormatting=\"true\">\n",
   str% "          <leadingDigits>\n",
   str% "            1(?:\n",
   str% "              2[02]|\n",
   str% "              [89]\n",
   str% "            )\n",
   str% "          </leadingDigits>\n",
   str% "          <format>$1 $2</format>\n",
   str% "        </numberFormat>\n",
   str% "        <!-- Format for old mobile ranges and VOIP. -->\n",
   str% "        <numberFormat pattern=\"(\\d{2})(\\d{3})(\\d{2})(\\d{2})\" nationalPrefixFormattingRule=\"$NP$FG\"\n",
   str% "                      nationalPrefixOptionalWhenFormatting=\"true\">\n",
   str% "          <leadingDigits>\n",
   str% "            1[26]|\n",
   str% "            6\n",
   str% "          </leadingDigits>\n",
   str% "          <format>$1 $2 $3 $4</format>\n",
   str% "        </numberFormat>\n",
   str% "        <numberFormat pattern=\"(\\d{3})(\\d{3})(\\d{3})\" nationalPrefixFormattingRule=\"$NP$FG\"\n",
   str% "                      nationalPrefixOptionalWhenFormatting=\"true\">\n",
   str% "          <leadingDigits>[357-9]</leadingDigits>\n",
   str% "          <format>$1 $2 $3</format>\n",
   str% "        </numberFormat>\n",
   str% "        <!-- 2-digit area codes (big cities) -->\n",
   str% "        <numberFormat pattern=\"(\\d{2})(\\d{4})(\\d{4})\" nationalPrefixFormattingRule=\"$NP$FG\"\n",
   str% "                      nationalPrefixOptionalWhenFormatting=\"true\">\n",
   str% "          <leadingDigits>2[48]</leadingDigits>\n",
   str% "          <format>$1 $2 $3</format>\n",
   str% "        </numberFormat>\n",
   str% "        <!-- 3-digit area codes -->\n",
   str% "        <numberFormat pattern=\"(\\d{3})(\\d{4})(\\d{3})\" nationalPrefixFormattingRule=\"$NP$FG\"\n",
   str% "                      nationalPrefixOptionalWhenFormatting=\"true\">\n",
   str% "          <leadingDigits>2</leadingDigits>\n",
   str% "          <format>$1 $2 $3</format>\n",
   str% "        </numberFormat>\n",
   str% "      </availableFormats>\n",
   str% "      <generalDesc>\n",
   str% "        <nationalNumberPattern>\n",
   str% "          [12]\\d{9}|\n",
   str% "          [135-9]\\d{8}|\n",
   str% "          [16]\\d{6,7}|\n",
   str% "          7\\d{6}\n",
   str% "        </nationalNumberPattern>\n",
   str% "      </generalDesc>\n",
   str% "      <noInternationalDialling>\n",
   str% "        <possibleLengths national=\"7,8\"/>\n",
   str% "        <nationalNumberPattern>\n",
   str% "          [17]99\\d{4}|\n",
   str% "          69\\d{5,6}\n",
   str% "        </nationalNumberPattern>\n",
   str% "      </noInternationalDialling>\n",
   str% "      <!-- While 24 and 28 are the new area codes for Hanoi and Ho Chi Minh respectively, currently\n",
   str% "           only 24[2-8] and 28[2-7] are in use. Reporter mentioned prefix 866 is Mobile but was\n",
   str% "           unable to receive SMS so for now supporting in both Mobile and Fixed-line. Range 289 is\n",
   str% "           added based on user report. -->\n",
   str% "      <fixedLine>\n",
   str% "        <possibleLengths national=\"10\"/>\n",
   str% "        <exampleNumber>2101234567</exampleNumber>\n",
   str% "        <nationalNumberPattern>\n",
   str% "          2(?:\n",
   str% "            0[3-9]|\n",
   str% "            1[0-689]|\n",
   str% "            2[0-25-9]|\n",
   str% "            [38][2-9]|\n",
   str% "            4[2-8]|\n",
   str% "            5[124-9]|\n",
   str% "            6[0-39]|\n",
   str% "            7[0-7]|\n",
   str% "            9[0-4679]\n",
   str% "          )\\d{7}\n",
   str% "        </nationalNumberPattern>\n",
   str% "      </fixedLine>\n",
   str% "      <!-- For the 8\\d{8} range, we have clearer & more recent information available from IR.21\n",
   str% "           docs than from ITU. Thus we consider 88x, 868, 89[89] as mobile ranges. 86[259] has been\n",
   str% "           added to Mobile as per a user report. -->\n",
   str% "      <mobile>\n",
   str% "        <possibleLengths national=\"9\"/>\n",
   str% "        <exampleNumber>912345678</exampleNumber>\n",
   str% "        <nationalNumberPattern>\n",
   str% "          121[0-3]\\d{5}|\n",
   str% "          (?:\n",
   str% "            160|\n",
   str% "            (?:\n",
   str% "              3\\d|\n",
   str% "              7[06-9]\n",
   str% "            )\\d|\n",
   str% "            5(?:\n",
   str% "              [1689]\\d|\n",
   str% "              2[238]|\n",
   str% "              59\n",
   str% "            )|\n",
   str% "            8(?:\n",
   str% "              [1-8]\\d|\n",
   str% "              9[6-9]\n",
   str% "            )|\n",
   str% "            9(?:\n",
   str% "              [0-8]\\d|\n",
   str% "              9[013-9]\n",
   str% "            )\n",
   str% "          )\\d{6}\n",
   str% "        </nationalNumberPattern>\n",
   str% "      </mobile>\n",
   str% "      <!-- As per the user and update from carrier it seems that numbers starting with 1800 are\n",
   str% "           renumbered to 1228. Because we don't have complete update,supporting both the ranges\n",
   str% "           at present.\n",
   str% "           Prefix 120[13] is toll free number and is diallable from Orange Business Services based\n",
   str% "           on user report. As we do not have official document mentioning the cost of the range,\n",
   str% "           we have added it here for now. -->\n",
   str% "      <tollFree>\n",
   str% "        <possibleLengths national=\"[8-10]\"/>\n",
   str% "        <exampleNumber>1800123456</exampleNumber>\n",
   str% "        <nationalNumberPattern>\n",
   str% "          1800\\d{4,6}|\n",
   str% "          12(?:\n",
   str% "            0[13]|\n",
   str% "            28\n",
   str% "          )\\d{4}\n",
   str% "        </nationalNumberPattern>\n",
   str% "      </tollFree>\n",
   str% "      <premiumRate>\n",
   str% "        <possibleLengths national=\"[8-10]\"/>\n",
   str% "        <exampleNumber>1900123456</exampleNumber>\n",
   str% "        <nationalNumberPattern>1900\\d{4,6}</nationalNumberPattern>\n",
   str% "      </premiumRate>\n",
   str% "      <!-- 672 is a VSAT numbering range as per ITU doc. -->\n",
   str% "      <voip>\n",
   str% "        <possibleLengths national=\"9\"/>\n",
   str% "        <exampleNumber>672012345</exampleNumber>\n",
   str% "        <nationalNumberPattern>672\\d{6}</nationalNumberPattern>\n",
   str% "      </voip>\n",
   str% "      <!-- These include non-geographic fixed numbers, such as for government ministries. While\n",
   str% "           listed as \"private networks\", they may actually be callable from within Vietnam. (They\n",
   str% "           are \"private\" in the sense that ordinary people could not be assigned these numbers.) -->\n",
   str% "      <uan>\n",
   str% "        <possibleLengths national=\"7,8\"/>\n",
   str% "        <exampleNumber>1992000</exampleNumber>\n",
   str% "        <nationalNumberPattern>\n",
   str% "          [17]99\\d{4}|\n",
   str% "          69\\d{5,6}\n",
   str% "        </nationalNumberPattern>\n",
   str% "      </uan>\n",
   str% "    </territory>"]

/-- the text up to the end of territory id=VU countryCode=678 -/
noncomputable def VU : List Str :=
  [str% "\n",
   str% "\n",
   str% "    <!-- Vanuatu (VU) -->\n",
   str% "    <!-- http://www.itu.int/oth/T02020000E2/en -->\n",
   str% "    <!-- Should be formatted in one block, apart from the mobile numbers. -->\n",
   str% "    <territory id=\"VU\" countryCode=\"678\" internationalPrefix=\"00\">\n",
   str% "      <availableFormats>\n",
   str% "        <numberFormat pattern=\"(\\d{3})(\\d{4})\">\n",
   str% "          <leadingDigits>[57-9]</leadingDigits>\n",
   str% "          <format>$1 $2</format>\n",
   str% "        </numberFormat>\n",
   str% "      </availableFormats>\n",
   str% "      <generalDesc>\n",
   str% "        <nationalNumberPattern>\n",
   str% "          [57-9]\\d{6}|\n",
   str% "          (?:\n",
   str% "            [238]\\d|\n",
   str% "            48\n",
   str% "          )\\d{3}\n",
   str% "        </nationalNumberPattern>\n",
   str% "      </generalDesc>\n",
   str% "      <fixedLine>\n",
   str% "        <possibleLengths national=\"5\"/>\n",
   str% "        <exampleNumber>22123</exampleNumber>\n",
   str% "        <nationalNumberPattern>\n",
   str% "          (?:\n",
   str% "            38[0-8]|\n",
   str% "            48[4-9]\n",
   str% "          )\\d\\d|\n",
   str% "          (?:\n",
   str% "            2[02-9]|\n",
   str% "            3[4-7]|\n",
   str% "            88\n",
   str% "          )\\d{3}\n",
   str% "        </nationalNumberPattern>\n",
   str% "      </fixedLine>\n",
   str% "      <mobile>\n",
   str% "        <possibleLengths national=\"7\"/>\n",
   str% "        <exampleNumber>5912345</exampleNumber>\n",
   str% "        <nationalNumberPattern>\n",
   str% "          (?:\n",
   str% "            [58]\\d|\n",
   str% "            7[0-7]\n",
   str% "          )\\d{5}\n",
   str% "        </nationalNumberPattern>\n",
   str% "      </mobile>\n",
   str% "      <tollFree>\n",
   str% "        <possibleLengths national=\"5\"/>\n",
   str% "        <exampleNumber>81123</exampleNumber>\n",
   str% "        <nationalNumberPattern>81[18]\\d\\d</nationalNumberPattern>\n",
   str% "      </tollFree>\n",
   str% "      <voip>\n",
   str% "        <possibleLengths national=\"7\"/>\n",
   str% "        <exampleNumber>9010123</exampleNumber>\n",
   str% "        <nationalNumberPattern>\n",
   str% "          9(?:\n",
   str% "            0[1-9]|\n",
   str% "            1[01]\n",
   str% "          )\\d{4}\n",
   str% "        </nationalNumberPattern>\n",
   str% "      </voip>\n",
   str% "      <!-- Using this for non-geographical numbers, since they have not been clearly defined, and\n",
   str% "           for government fixed-line numbers. -->\n",
   str% "      <uan>\n",
   str% "        <possibleLengths national=\"5,7\"/>\n",
   str% "        <exampleNumber>30123</exampleNumber>\n",
   str% "        <nationalNumberPattern>\n",
   str% "          (?:\n",
   str% "            3[03]|\n",
   str% "            900\\d\n",
   str% "          )\\d{3}\n",
   str% "        </nationalNumberPattern>\n",
   str% "      </uan>\n",
   str% "    </territory>"]

/-- the text up to the end of territory id=WF countryCode=681 -/
noncomputable def WF : List Str :=
  [str% "\n",
   str% "\n",
   str% "    <!-- Wallis & Futuna (WF) -->\n",
   str% "    <!-- http://www.itu.int/oth/T02020000E6/en -->\n",
   str% "    <territory id=\"WF\" countryCode=\"681\" internationalPrefix=\"00\">\n",
   str% "      <availableFormats>\n",
   str% "        <numberFormat pattern=\"(\\d{2})(\\d{2})(\\d{2})\">\n",
   str% "          <leadingDigits>[47-9]</leadingDigits>\n",
   str% "          <format>$1 $2 $3</format>\n",
   str% "        </numberFormat>\n",
   str% "        <numberFormat pattern=\"(\\d{3})(\\d{2})(\\d{2})(\\d{2})\">\n",
   str% "          <leadingDigits>8</leadingDigits>\n",
   str% "          <format>$1 $2 $3 $4</format>\n",
   str% "        </numberFormat>\n",
   str% "      </availableFormats>\n",
   str% "      <generalDesc>\n",
   str% "        <nationalNumberPattern>\n",
   str% "          (?:\n",
   str% "            40|\n",
   str% "            72|\n",
   str% "            8\\d{4}\n",
   str% "          )\\d{4}|\n",
   str% "          [89]\\d{5}\n",
   str% "        </nationalNumberPattern>\n",
   str% "      </generalDesc>\n",
   str% "      <!-- Web searching only finds examples with the 72 prefix but the ITU document states that\n",
   str% "           50 and 68 are possible, so they are included here. -->\n",
   str% "      <fixedLine>\n",
   str% "        <possibleLengths national=\"6\"/>\n",
   str% "        <exampleNumber>721234</exampleNumber>\n",
   str% "        <nationalNumberPattern>72\\d{4}</nationalNumberPattern>\n",
   str% "      </fixedLine>\n",
   str% "      <mobile>\n",
   str% "        <possibleLengths national=\"6\"/>\n",
   str% "        <exampleNumber>821234</exampleNumber>\n",
   str% "        <nationalNumberPattern>\n",
   str% "          (?:\n",
   str% "            72|\n",
   str% "            8[23]\n",
   str% "          )\\d{4}\n",
   str% "        </nationalNumberPattern>\n",
   str% "      </mobile>\n",
   str% "      <!-- As per ARCEP, mainland France and overseas territories use 0800 to 0805 as Toll-free\n",
   str% "           numbers. -->\n",
   str% "      <tollFree>\n",
   str% "        <possibleLengths national=\"9\"/>\n",
   str% "        <exampleNumber>800012345</exampleNumber>\n",
   str% "        <nationalNumberPattern>80[0-5]\\d{6}</nationalNumberPattern>\n",
   str% "      </tollFree>\n",
   str% "      <voip>\n",
   str% "        <possibleLengths national=\"6\"/>\n",
   str% "        <exampleNumber>921234</exampleNumber>\n",
   str% "        <nationalNumberPattern>9[23]\\d{4}</nationalNumberPattern>\n",
   str% "      </voip>\n",
   str% "      <voicemail>\n",
   str% "        <possibleLengths national=\"6\"/>\n",
   str% "        <exampleNumber>401234</exampleNumber>\n",
   str% "        <nationalNumberPattern>[48]0\\d{4}</nationalNumberPattern>\n",
   str% "      </voicemail>\n",
   str% "    </territory>"]

/-- the text up to the end of territory id=WS countryCode=685 -/
noncomputable def WS : List Str :=
  [str% "\n",
   str% "\n",
   str% "    <!-- Samoa (WS) -->\n",
   str% "    <!-- http://www.itu.int/oth/T02020000B4/en -->\n",
   str% "    <territory id=\"WS\" countryCode=\"685\" internationalPrefix=\"0\">\n",
   str% "      <availableFormats>\n",
   str% "        <numberFormat pattern=\"(\\d{5})\">\n",
   str% "          <leadingDigits>\n",
   str% "            [2-5]|\n",
   str% "            6[1-9]\n",
   str% "          </leadingDigits>\n",
   str% "          <format>$1</format>\n",
   str% "        </numberFormat>\n",
   str% "        <numberFormat pattern=\"(\\d{3})(\\d{3,7})\">\n",
   str% "          <leadingDigits>[68]</leadingDigits>\n",
   str% "          <format>$1 $2</format>\n",
   str% "        </numberFormat>\n",
   str% "        <numberFormat pattern=\"(\\d{2})(\\d{5})\">\n",
   str% "          <leadingDigits>7</leadingDigits>\n",
   str% "          <format>$1 $2</format>\n",
   str% "        </numberFormat>\n",
   str% "      </availableFormats>\n",
   str% "      <generalDesc>\n",
   str% "        <nationalNumberPattern>\n",
   str% "          (?:\n",
   str% "            [2-6]|\n",
   str% "            8\\d{5}\n",
   str% "          )\\d{4}|\n",
   str% "          [78]\\d{6}|\n",
   str% "          [68]\\d{5}\n",
   str% "        </nationalNumberPattern>\n",
   str% "      </generalDesc>\n",
   str% "      <fixedLine>\n",
   str% "        <possibleLengths national=\"5,6\"/>\n",
   str% "        <exampleNumber>22123</exampleNumber>\n",
   str% "        <nationalNumberPattern>\n",
   str% "          6[1-9]\\d{3}|\n",
   str% "          (?:\n",
   str% "            [2-5]|\n",
   str% "            60\n",
   str% "          )\\d{4}\n",
   str% "        </nationalNumberPattern>\n",
   str% "      </fixedLine>\n",
   str% "      <!-- Under 89, only 8900000[0-2]xx + 8900000300 are assigned, and the operator seems to be\n",
   str% "           the government. -->\n",
   str% "      <mobile>\n",
   str% "        <possibleLengths national=\"7,10\"/>\n",
   str% "        <exampleNumber>7212345</exampleNumber>\n",
   str% "        <nationalNumberPattern>\n",
   str% "          (?:\n",
   str% "            7[1-35-8]|\n",
   str% "            8(?:\n",
   str% "              [3-7]|\n",
   str% "              9\\d{3}\n",
   str% "            )\n",
   str% "          )\\d{5}\n",
   str% "        </nationalNumberPattern>\n",
   str% "      </mobile>\n",
   str% "      <!-- The 800 number series is new, and is used by companies such as the ANZ bank in Samoa to\n",
   str% "           provide 24 hour eMerchant support. It is marked as \"Customized Services\" in the plan\n",
   str% "           for now, so may be also used for other purposes than toll free, but until we have\n",
   str% "           further evidence of these we will keep it as toll free. -->\n",
   str% "      <tollFree>\n",
   str% "        <possibleLengths national=\"6\"/>\n",
   str% "        <exampleNumber>800123</exampleNumber>\n",
   str% "        <nationalNumberPattern>800\\d{3}</nationalNumberPattern>\n",
   str% "      </tollFree>\n",
   str% "    </territory>"]

/-- the text up to the end of territory id=XK countryCode=383 -/
noncomputable def XK : List Str :=
  [str% "\n",
   str% "\n",
   str% "    <!-- Kosovo (XK) -->\n",
   str% "    <!-- https://www.itu.int/oth/T02020000FD/en -->\n",
   str% "    <!-- http://arkep-rks.org/?cid=1,50 -->\n",
   str% "    <territory id=\"XK\" countryCode=\"383\" internationalPrefix=\"00\" nationalPrefix=\"0\">\n",
   str% "      <availableFormats>\n",
   str% "        <numberFormat pattern=\"(\\d{3})(\\d{5})\" nationalPrefixFormattingRule=\"$NP$FG\">\n",
   str% "          <leadingDigits>[89]</leadingDigits>\n",
   str% "          <format>$1 $2</format>\n",
   str% "        </numberFormat>\n",
   str% "        <numberFormat pattern=\"(\\d{2})(\\d{3})(\\d{3})\" nationalPrefixFormattingRule=\"$NP$FG\">\n",
   str% "          <leadingDigits>[2-4]</leadingDigits>\n",
   str% "          <format>$1 $2 $3</format>\n",
   str% "        </numberFormat>\n",
   str% "        <numberFormat pattern=\"(\\d{3})(\\d{3})(\\d{3})\" nationalPrefixFormattingRule=\"$NP$FG\">\n",
   str% "          <leadingDigits>\n",
   str% "            2|\n",
   str% "            39\n",
   str% "          </leadingDigits>\n",
   str% "          <format>$1 $2 $3</format>\n",
   str% "        </numberFormat>\n",
   str% "        <numberFormat pattern=\"(\\d{2})(\\d{7,10})\" nationalPrefixFormattingRule=\"$NP$FG\">\n",
   str% "          <leadingDigits>3</leadingDigits>\n",
   str% "          <format>$1 $2</format>\n",
   str% "        </numberFormat>\n",
   str% "      </availableFormats>\n",
   str% "      <generalDesc>\n",
   str% "        <nationalNumberPattern>\n",
   str% "          2\\d{7,8}|\n",
   str% "          3\\d{7,11}|\n",
   str% "          (?:\n",
   str% "            4\\d\\d|\n",
   str% "            [89]00\n",
   str% "          )\\d{5}\n",
   str% "        </nationalNumberPattern>\n",
   str% "      </generalDesc>\n",
   str% "      <fixedLine>\n",
   str% "        <possibleLengths national=\"[8-12]\"/>\n",
   str% "        <exampleNumber>28012345</exampleNumber>\n",
   str% "        <nationalNumberPattern>\n",
   str% "          38\\d{6,10}|\n",
   str% "          (?:\n",
   str% "            2[89]|\n",
   str% "            39\n",
   str% "          )(?:\n",
   str% "            0\\d{5,6}|\n",
   str% "            [1-9]\\d{5}\n",
   str% "          )\n",
   str% "        </nationalNumberPattern>\n",
   str% "      </fixedLine>\n",
   str% "      <mobile>\n",
   str% "        <possibleLengths national=\"8\"/>\n",
   str% "        <exampleNumber>43201234</exampleNumber>\n",
   str% "        <nationalNumberPattern>4[3-9]\\d{6}</nationalNumberPattern>\n",
   str% "      </mobile>\n",
   str% "      <tollFree>\n",
   str% "        <possibleLengths national=\"8\"/>\n",
   str% "        <exampleNumber>80001234</exampleNumber>\n",
   str% "        <nationalNumberPattern>800\\d{5}</nationalNumberPattern>\n",
   str% "      </tollFree>\n",
   str% "      <premiumRate>\n",
   str% "        <possibleLengths national=\"8\"/>\n",
   str% "        <exampleNumber>90001234</exampleNumber>\n",
   str% "        <nationalNumberPattern>900\\d{5}</nationalNumberPattern>\n",
   str% "      </premiumRate>\n",
   str% "    </territory>"]

/-- the text up to the end of territory id=YE countryCode=967 -/
noncomputable def YE : List Str :=
  [str% "\n",
   str% "\n",
   str% "    <!-- Yemen (YE) -->\n",
   str% "    <!-- No tollFree or premiumRate information can be found. -->\n",
   str% "    <!-- http://www.itu.int/oth/T02020000E7/en -->\n",
   str% "    <territory id=\"YE\" countryCode=\"967\" internationalPrefix=\"00\" nationalPrefix=\"0\">\n",
   str% "      <availableFormats>\n",
   str% "        <numberFormat pattern=\"(\\d)(\\d{3})(\\d{3,4})\" nationalPrefixFormattingRule=\"$NP$FG\">\n",
   str% "          <leadingDigits>\n",
   str% "            [1-6]|\n",
   str% "            7(?:\n",
   str% "              [24-6]|\n",
   str% "              8[0-7]\n",
   str% "            )\n",
   str% "          </leadingDigits>\n",
   str% "          <format>$1 $2 $3</format>\n",
   str% "        </numberFormat>\n",
   str% "        <numberFormat pattern=\"(\\d{3})(\\d{3})(\\d{3})\" nationalPrefixFormattingRule=\"$NP$FG\">\n",
   str% "          <leadingDigits>7</leadingDigits>\n",
   str% "          <format>$1 $2 $3</format>\n",
   str% "        </numberFormat>\n",
   str% "      </availableFormats>\n",
   str% "      <generalDesc>\n",
   str% "        <nationalNumberPattern>\n",
   str% "          (?:\n",
   str% "            1|\n",
   str% "            7\\d\n",
   str% "          )\\d{7}|\n",
   str% "          [1-7]\\d{6}\n",
   str% "        </nationalNumberPattern>\n",
   str% "      </generalDesc>\n",
   str% "      <fixedLine>\n",
   str% "        <possibleLengths national=\"7,8\" localOnly=\"6\"/>\n",
   str% "        <exampleNumber>1234567</exampleNumber>\n",
   str% "        <nationalNumberPattern>\n",
   str% "          78[0-7]\\d{4}|\n",
   str% "          17\\d{6}|\n",
   str% "          (?:\n",
   str% "            [12][2-68]|\n",
   str% "            3[2358]|\n",
   str% "            4[2-58]|\n",
   str% "            5[2-6]|\n",
   str% "            6[3-58]|\n",
   str% "            7[24-6]\n",
   str% "          )\\d{5}\n",
   str% "        </nationalNumberPattern>\n",
   str% "      </fixedLine>\n",
   str% "      <!-- Adding 70 from numbers found online. -->\n",
   str% "      <mobile>\n",
   str% "        <possibleLengths national=\"9\"/>\n",
   str% "        <exampleNumber>712345678</exampleNumber>\n",
   str% "        <nationalNumberPattern>7[01378]\\d{7}</nationalNumberPattern>\n",
   str% "      </mobile>\n",
   str% "    </territory>"]

/-- the text up to the end of territory id=YT countryCode=262 -/
noncomputable def YT : List Str :=
  [str% "\n",
   str% "\n",
   str% "    <!-- Mayotte (YT) -->\n",
   str% "    <!-- Calling code and formatting shared with 'RE' -->\n",
   str% "    <!-- Some information at the following source, but most from collection of internet data. -->\n",
   str% "    <!-- Verifies the fixed-line prefixes, but the mobile prefixes listed here seem out of date. -->\n",
   str% "    <!-- http://en.wikipedia.org/wiki/Telephone_numbers_in_France -->\n",
   str% "    <!-- http://www.comores-online.com/mwezinet/internet/262 -->\n",
   str% "    <!-- http://www.arcep.fr/index.php?id=2137&bloc=0596&CMD=RESULTS_NUMEROTATION -->\n",
   str% "    <territory id=\"YT\" countryCode=\"262\" internationalPrefix=\"00\" nationalPrefix=\"0\">\n",
   str% "      <generalDesc>\n",
   str% "        <nationalNumberPattern>\n",
   str% "          (?:\n",
   str% "            639\\d|\n",
   str% "            7093\n",
   str% "          )\\d{5}|\n",
   str% "          (?:\n",
   str% "            26|\n",
   str% "            80|\n",
   str% "            9\\d\n",
   str% "          )\\d{7}\n",
   str% "        </nationalNumberPattern>\n",
   str% "      </generalDesc>\n",
   str% "      <fixedLine>\n",
   str% "        <possibleLengths national=\"9\"/>\n",
   str% "        <exampleNumber>269601234</exampleNumber>\n",
   str% "        <nationalNumberPattern>\n",
   str% "          26(?:\n",
   str% "            89\\d|\n",
   str% "            9(?:\n",
   str% "              0[0-467]|\n",
   str% "              15|\n",
   str% "              5[0-4]|\n",
   str% "              6\\d|\n",
   str% "              [78]0\n",
   str% "            )\n",
   str% "          )\\d{4}\n",
   str% "        </nationalNumberPattern>\n",
   str% "      </fixedLine>\n",
   str% "      <mobile>\n",
   str% "        <possibleLengths national=\"9\"/>\n",
   str% "        <exampleNumber>639012345</exampleNumber>\n",
   str% "        <nationalNumberPattern>\n",
   str% "          (?:\n",
   str% "            639(?:\n",
   str% "              0[0-79]|\n",
   str% "              1[019]|\n",
   str% "              [267]\\d|\n",
   str% "              3[09]|\n",
   str% "              40|\n",
   str% "              5[05-9]|\n",
   str% "              9[04-79]\n",
   str% "            )|\n",
   str% "            7093[5-7]\n",
   str% "          )\\d{4}\n",
   str% "        </nationalNumberPattern>\n",
   str% "      </mobile>\n",
   str% "      <!-- Same as in France. -->\n",
   str% "      <tollFree>\n",
   str% "        <possibleLengths national=\"9\"/>\n",
   str% "        <exampleNumber>801234567</exampleNumber>\n",
   str% "        <nationalNumberPattern>80\\d{7}</nationalNumberPattern>\n",
   str% "      </tollFree>\n",
   str% "      <voip>\n",
   str% "        <possibleLengths national=\"9\"/>\n",
   str% "        <exampleNumber>939801234</exampleNumber>\n",
   str% "        <nationalNumberPattern>\n",
   str% "          9(?:\n",
   str% "            (?:\n",
   str% "              39|\n",
   str% "              47\n",
   str% "            )8[01]|\n",
   str% "            769\\d\n",
   str% "          )\\d{4}\n",
   str% "        </nationalNumberPattern>\n",
   str% "      </voip>\n",
   str% "    </territory>"]

/-- the text up to the end of territory id=ZA countryCode=27 -/
noncomputable def ZA : List Str :=
  [str% "\n",
   str% "\n",
   str% "    <!-- South Africa (ZA) -->\n",
   str% "    <!-- http://www.itu.int/oth/T02020000C1/en -->\n",
   str% "    <!-- http://en.wikipedia.org/wiki/Telephone_numbers_in_South_Africa -->\n",
   str% "    <!-- https://www.icasa.org.za/legislation-and-regulations/amendment-of-the-numbering-plan-regulations-2016 -->\n",
   str% "    <territory id=\"ZA\" countryCode=\"27\" internationalPrefix=\"00\" nationalPrefix=\"0\"\n",
   str% "               mobileNumberPortableRegion=\"true\">\n",
   str% "      <availableFormats>\n",
   str% "        <numberFormat pattern=\"(\\d{2})(\\d{3,4})\" nationalPrefixFormattingRule=\"$NP$FG\">\n",
   str% "          <leadingDigits>8[1-4]</leadingDigits>\n",
   str% "          <format>$1 $2</format>\n",
   str% "        </numberFormat>\n",
   str% "        <numberFormat pattern=\"(\\d{2})(\\d{3})(\\d{2,3})\" nationalPrefixFormattingRule=\"$NP$FG\">\n",
   str% "          <leadingDigits>8[1-4]</leadingDigits>\n",
   str% "          <format>$1 $2 $3</format>\n",
   str% "        </numberFormat>\n",
   str% "        <numberFormat pattern=\"(\\d{3})(\\d{3})(\\d{3})\" nationalPrefixFormattingRule=\"$NP$FG\">\n",
   str% "          <leadingDigits>860</leadingDigits>\n",
   str% "          <format>$1 $2 $3</format>\n",
   str% "        </numberFormat>\n",
   str% "        <numberFormat pattern=\"(\\d{2})(\\d{3})(\\d{4})\" nationalPrefixFormattingRule=\"$NP$FG\">\n",
   str% "          <leadingDigits>[1-9]</leadingDigits>\n",
   str% "          <format>$1 $2 $3</format>\n",
   str% "        </numberFormat>\n",
   str% "        <!-- 10-digit uan numbers. -->\n",
   str% "        <numberFormat pattern=\"(\\d{3})(\\d{3})(\\d{4})\" nationalPrefixFormattingRule=\"$NP$FG\">\n",
   str% "          <leadingDigits>8</leadingDigits>\n",
   str% "          <format>$1 $2 $3</format>\n",
   str% "        </numberFormat>\n",
   str% "      </availableFormats>\n",
   str% "      <generalDesc>\n",
   str% "        <nationalNumberPattern>\n",
   str% "          [1-79]\\d{8}|\n",
   str% "          8\\d{4,9}\n",
   str% "        </nationalNumberPattern>\n",
   str% "      </generalDesc>\n",
   str% "      <fixedLine>\n",
   str% "        <possibleLengths national=\"9\"/>\n",
   str% "        <exampleNumber>101234567</exampleNumber>\n",
   str% "        <nationalNumberPattern>\n",
   str% "          (?:\n",
   str% "            2(?:\n",
   str% "              0330|\n",
   str% "              4302\n",
   str% "            )|\n",
   str% "            52087\n",
   str% "          )0\\d{3}|\n",
   str% "          (?:\n",
   str% "            1[0-8]|\n",
   str% "            2[1-378]|\n",
   str% "            3[1-69]|\n",
   str% "            4\\d|\n",
   str% "            5[1346-8]\n",
   str% "          )\\d{7}\n",
   str% "        </nationalNumberPattern>\n",
   str% "      </fixedLine>\n",
   str% "      <!-- Based on confirmation from telecom partners, many sub ranges of 1X, 2X, 3X, 4X and\n",
   str% "           5X - which are fixed-line as per ITU - can also be used for mobile purpose. Similarly,\n",
   str% "           some 87X VOIP ranges are also moved here.\n",
   str% "           Even though ITU mentions it as protected, the 9-digit 85 range is a valid mobile range\n",
   str% "           as per Wikipedia and user reports. Also note that we are still supporting numbers\n",
   str% "           beginning with 8 that are fewer than 9 digits since they are in prominent places\n",
   str% "           online, even though the ITU document says numbers must be 10 digits long (including the\n",
   str% "           national prefix). -->\n",
   str% "      <mobile>\n",
   str% "        <possibleLengths national=\"[5-9]\"/>\n",
   str% "        <exampleNumber>711234567</exampleNumber>\n",
   str% "        <nationalNumberPattern>\n",
   str% "          (?:\n",
   str% "            1(?:\n",
   str% "              3492[0-25]|\n",
   str% "              4495[0235]|\n",
   str% "              549(?:\n",
   str% "                20|\n",
   str% "                5[01]\n",
   str% "              )\n",
   str% "            )|\n",
   str% "            4[34]492[01]\n",
   str% "          )\\d{3}|\n",
   str% "          8[1-4]\\d{3,7}|\n",
   str% "          (?:\n",
   str% "            2[27]|\n",
   str% "            47|\n",
   str% "            54\n",
   str% "          )4950\\d{3}|\n",
   str% "          (?:\n",
   str% "            1(?:\n",
   str% "              049[2-4]|\n",
   str% "              9[12]\\d\\d\n",
   str% "            )|\n",
   str% "            (?:\n",
   str% "              50[0-2]|\n",
   str% "              [67]\\d\\d\n",
   str% "            )\\d\\d|\n",
   str% "            8(?:\n",
   str% "              5\\d{3}|\n",
   str% "              7(?:\n",
   str% "                08[67]|\n",
   str% "                158|\n",
   str% "                28[5-9]|\n",
   str% "                310\n",
   str% "              )\n",
   str% "            )\n",
   str% "          )\\d{4}|\n",
   str% "          (?:\n",
   str% "            1[6-8]|\n",
   str% "            28|\n",
   str% "            3[2-69]|\n",
   str% "            4[025689]|\n",
   str% "            5[36-8]\n",
   str% "          )4920\\d{3}|\n",
   str% "          (?:\n",
   str% "            12|\n",
   str% "            [2-5]1\n",
   str% "          )492\\d{4}\n",
   str% "        </nationalNumberPattern>\n",
   str% "      </mobile>\n",
   str% "      <tollFree>\n",
   str% "        <possibleLengths national=\"9\"/>\n",
   str% "        <exampleNumber>801234567</exampleNumber>\n",
   str% "        <nationalNumberPattern>80\\d{7}</nationalNumberPattern>\n",
   str% "      </tollFree>\n",
   str% "      <premiumRate>\n",
   str% "        <possibleLengths national=\"9\"/>\n",
   str% "        <exampleNumber>862345678</exampleNumber>\n",
   str% "        <nationalNumberPattern>\n",
   str% "          (?:\n",
   str% "            86[2-9]|\n",
   str% "            9[0-2]\\d\n",
   str% "          )\\d{6}\n",
   str% "        </nationalNumberPattern>\n",
   str% "      </premiumRate>\n",
   str% "      <sharedCost>\n",
   str% "        <possibleLengths national=\"9\"/>\n",
   str% "        <exampleNumber>860123456</exampleNumber>\n",
   str% "        <nationalNumberPattern>860\\d{6}</nationalNumberPattern>\n",
   str% "      </sharedCost>\n",
   str% "      <!-- 88 used to be assigned to pagers prior to a migration in 2010, where it was unassigned.\n",
   str% "           According to an official doc from 2016, 88 is \"Released\" for \"Future non-geographic\n",
   str% "           services\", but we don't know yet what these are, so we do not validate them. -->\n",
   str% "      <voip>\n",
   str% "        <possibleLengths national=\"9\"/>\n",
   str% "        <exampleNumber>871234567</exampleNumber>\n",
   str% "        <nationalNumberPattern>\n",
   str% "          87(?:\n",
   str% "            08[0-589]|\n",
   str% "            15[0-79]|\n",
   str% "            28[0-4]|\n",
   str% "            31[1-9]\n",
   str% "          )\\d{4}|\n",
   str% "          87(?:\n",
   str% "            [02][0-79]|\n",
   str% "            1[0-46-9]|\n",
   str% "            3[02-9]|\n",
   str% "            [4-9]\\d\n",
   str% "          )\\d{5}\n",
   str% "        </nationalNumberPattern>\n",
   str% "      </voip>\n",
   str% "      <!-- MaxiCall numbers cost as much as national long distance, so they are classified as UAN\n",
   str% "           numbers.\n",
   str% "           Prefix 861 with 10 digits is added based on user report. -->\n",
   str% "      <uan>\n",
   str% "        <possibleLengths national=\"9,10\"/>\n",
   str% "        <exampleNumber>861123456</exampleNumber>\n",
   str% "        <nationalNumberPattern>861\\d{6,7}</nationalNumberPattern>\n",
   str% "      </uan>\n",
   str% "    </territory>"]

/-- the text up to the end of territory id=ZM countryCode=260 -/
noncomputable def ZM : List Str :=
  [str% "\n",
   str% "\n",
   str% "    <!-- Zambia (ZM) -->\n",
   str% "    <!-- http://www.itu.int/oth/T02020000E8/en -->\n",
   str% "    <!-- https://www.zicta.zm/Downloads/Numbering%20Plan.pdf (2014, possibly out of date) -->\n",
   str% "    <territory id=\"ZM\" countryCode=\"260\" internationalPrefix=\"00\" nationalPrefix=\"0\">\n",
   str% "      <availableFormats>\n",
   str% "        <numberFormat pattern=\"(\\d{3})(\\d{3})\">\n",
   str% "          <leadingDigits>[1-9]</leadingDigits>\n",
   str% "          <format>$1 $2</format>\n",
   str% "          <intlFormat>NA</intlFormat>\n",
   str% "        </numberFormat>\n",
   str% "        <!-- Format for geographic fixed-line numbers and other non-mobile ranges. -->\n",
   str% "        <numberFormat pattern=\"(\\d{3})(\\d{3})(\\d{3})\" nationalPrefixFormattingRule=\"$NP$FG\">\n",
   str% "          <leadingDigits>[28]</leadingDigits>\n",
   str% "          <format>$1 $2 $3</format>\n",
   str% "        </numberFormat>\n",
   str% "        <!-- Format for mobile numbers. -->\n",
   str% "        <numberFormat pattern=\"(\\d{2})(\\d{7})\" nationalPrefixFormattingRule=\"$NP$FG\">\n",
   str% "          <leadingDigits>[579]</leadingDigits>\n",
   str% "          <format>$1 $2</format>\n",
   str% "        </numberFormat>\n",
   str% "      </availableFormats>\n",
   str% "      <generalDesc>\n",
   str% "        <nationalNumberPattern>\n",
   str% "          800\\d{6}|\n",
   str% "          (?:\n",
   str% "            21|\n",
   str% "            [579]\\d|\n",
   str% "            63\n",
   str% "          )\\d{7}\n",
   str% "        </nationalNumberPattern>\n",
   str% "      </generalDesc>\n",
   str% "      <!-- Zambia has deprecated the \"intra-network\" dialling system as described in\n",
   str% "           https://www.zicta.zm/Downloads/Numbering%20Plan.pdf (section 2.2.3). This means that\n",
   str% "           local numbers can only be 6 digits long (and not 6 or 7 as previously modelled).\n",
   str% "           This information was provided directly by a contact in Zambia. -->\n",
   str% "      <fixedLine>\n",
   str% "        <possibleLengths national=\"9\" localOnly=\"6\"/>\n",
   str% "        <exampleNumber>211234567</exampleNumber>\n",
   str% "        <nationalNumberPattern>21[1-8]\\d{6}</nationalNumberPattern>\n",
   str% "      </fixedLine>\n",
   str% "      <mobile>\n",
   str% "        <possibleLengths national=\"9\"/>\n",
   str% "        <exampleNumber>955123456</exampleNumber>\n",
   str% "        <nationalNumberPattern>\n",
   str% "          (?:\n",
   str% "            [59][5-8]|\n",
   str% "            7[5-9]\n",
   str% "          )\\d{7}\n",
   str% "        </nationalNumberPattern>\n",
   str% "      </mobile>\n",
   str% "      <tollFree>\n",
   str% "        <possibleLengths national=\"9\"/>\n",
   str% "        <exampleNumber>800123456</exampleNumber>\n",
   str% "        <nationalNumberPattern>800\\d{6}</nationalNumberPattern>\n",
   str% "      </tollFree>\n",
   str% "      <voip>\n",
   str% "        <possibleLengths national=\"9\"/>\n",
   str% "        <exampleNumber>630123456</exampleNumber>\n",
   str% "        <nationalNumberPattern>63\\d{7}</nationalNumberPattern>\n",
   str% "      </voip>\n",
   str% "    </territory>"]

/-- the text up to the end of territory id=ZW countryCode=263 -/
noncomputable def ZW : List Str :=
  [str% "\n",
   str% "\n",
   str% "    <!-- Zimbabwe (ZW) -->\n",
   str% "    <!-- http://www.itu.int/oth/T02020000E9/en -->\n",
   str% "    <!-- https://telone.co.zw/sites/default/files/TelOneNewAreaCodesUpdated.pdf -->\n",
   str% "    <territory id=\"ZW\" countryCode=\"263\" internationalPrefix=\"00\" nationalPrefix=\"0\">\n",
   str% "      <availableFormats>\n",
   str% "        <!-- Three-digit area codes (short format) -->\n",
   str% "        <numberFormat pattern=\"(\\d{3})(\\d{3,5})\" nationalPrefixFormattingRule=\"$NP$FG\">\n",
   str% "          <leadingDigits>\n",
   str% "            2(?:\n",
   str% "              0[45]|\n",
   str% "              2[278]|\n",
   str% "              [49]8\n",
   str% "            )|\n",
   str% "            3(?:\n",
   str% "              [09]8|\n",
   str% "              17\n",
   str% "            )|\n",
   str% "            6(?:\n",
   str% "              [29]8|\n",
   str% "              37|\n",
   str% "              75\n",
   str% "            )|\n",
   str% "            [23][78]|\n",
   str% "            (?:\n",
   str% "              33|\n",
   str% "              5[15]|\n",
   str% "              6[68]\n",
   str% "            )[78]\n",
   str% "          </leadingDigits>\n",
   str% "          <format>$1 $2</format>\n",
   str% "        </numberFormat>\n",
   str% "        <!-- One-digit area codes -->\n",
   str% "        <numberFormat pattern=\"(\\d)(\\d{3})(\\d{2,4})\" nationalPrefixFormattingRule=\"$NP$FG\">\n",
   str% "          <leadingDigits>[49]</leadingDigits>\n",
   str% "          <format>$1 $2 $3</format>\n",
   str% "        </numberFormat>\n",
   str% "        <!-- Tollfree Numbers -->\n",
   str% "        <numberFormat pattern=\"(\\d{3})(\\d{4})\" nationalPrefixFormattingRule=\"$NP$FG\">\n",
   str% "          <leadingDigits>80</leadingDigits>\n",
   str% "          <format>$1 $2</format>\n",
   str% "        </numberFormat>\n",
   str% "        <!-- Format of new fixed-line ranges after renumbering. -->\n",
   str% "        <numberFormat pattern=\"(\\d{2})(\\d{7})\" nationalPrefixFormattingRule=\"($NP$FG)\">\n",
   str% "          <leadingDigits>\n",
   str% "            24|\n",
   str% "            8[13-59]|\n",
   str% "            (?:\n",
   str% "              2[05-79]|\n",
   str% "              39|\n",
   str% "              5[45]|\n",
   str% "              6[15-8]\n",
   str% "            )2\n",
   str% "          </leadingDigits>\n",
   str% "          <leadingDigits>\n",
   str% "            2(?:\n",
   str% "              02[014]|\n",
   str% "              4|\n",
   str% "              [56]20|\n",
   str% "              [79]2\n",
   str% "            )|\n",
   str% "            392|\n",
   str% "            5(?:\n",
   str% "              42|\n",
   str% "              525\n",
   str% "            )|\n",
   str% "            6(?:\n",
   str% "              [16-8]21|\n",
   str% "              52[013]\n",
   str% "            )|\n",
   str% "            8[13-59]\n",
   str% "          </leadingDigits>\n",
   str% "          <format>$1 $2</format>\n",
   str% "        </numberFormat>\n",
   str% "        <!-- Mobile numbers -->\n",
   str% "        <numberFormat pattern=\"(\\d{2})(\\d{3})(\\d{4})\" nationalPrefixFormattingRule=\"$NP$FG\">\n",
   str% "          <leadingDigits>7</leadingDigits>\n",
   str% "          <format>$1 $2 $3</format>\n",
   str% "        </numberFormat>\n",
   str% "        <!-- Three-digit area codes (long format) -->\n",
   str% "        <numberFormat pattern=\"(\\d{3})(\\d{3})(\\d{3,4})\" nationalPrefixFormattingRule=\"$NP$FG\">\n",
   str% "          <leadingDigits>\n",
   str% "            2(?:\n",
   str% "              1[39]|\n",
   str% "              2[0157]|\n",
   str% "              [378]|\n",
   str% "              [56][14]\n",
   str% "            )|\n",
   str% "            3(?:\n",
   str% "              12|\n",
   str% "              29\n",
   str% "            )\n",
   str% "          </leadingDigits>\n",
   str% "          <leadingDigits>\n",
   str% "            2(?:\n",
   str% "              1[39]|\n",
   str% "              2[0157]|\n",
   str% "              [378]|\n",
   str% "              [56][14]\n",
   str% "            )|\n",
   str% "            3(?:\n",
   str% "              123|\n",
   str% "              29\n",
   str% "            )\n",
   str% "          </leadingDigits>\n",
   str% "          <format>$1 $2 $3</format>\n",
   str% "        </numberFormat>\n",
   str% "        <!-- VOIP numbers -->\n",
   str% "        <numberFormat pattern=\"(\\d{4})(\\d{6})\" nationalPrefixFormattingRule=\"$NP$FG\">\n",
   str% "          <leadingDigits>8</leadingDigits>\n",
   str% "          <format>$1 $2</format>\n",
   str% "        </numberFormat>\n",
   str% "        <!-- Two-digit area codes (short format) -->\n",
   str% "        <numberFormat pattern=\"(\\d{2})(\\d{3,5})\" nationalPrefixFormattingRule=\"$NP$FG\">\n",
   str% "          <leadingDigits>\n",
   str% "            1|\n",
   str% "            2(?:\n",
   str% "              0[0-36-9]|\n",
   str% "              12|\n",
   str% "              29|\n",
   str% "              [56]\n",
   str% "            )|\n",
   str% "            3(?:\n",
   str% "              1[0-689]|\n",
   str% "              [24-6]\n",
   str% "            )|\n",
   str% "            5(?:\n",
   str% "              [0236-9]|\n",
   str% "              1[2-4]\n",
   str% "            )|\n",
   str% "            6(?:\n",
   str% "              [013-59]|\n",
   str% "              7[0-46-9]\n",
   str% "            )|\n",
   str% "            (?:\n",
   str% "              33|\n",
   str% "              55|\n",
   str% "              6[68]\n",
   str% "            )[0-69]|\n",
   str% "            (?:\n",
   str% "              29|\n",
   str% "              3[09]|\n",
   str% "              62\n",
   str% "            )[0-79]\n",
   str% "          </leadingDigits>\n",
   str% "          <format>$1 $2</format>\n",
   str% "        </numberFormat>\n",
   str% "        <!-- Two-digit area codes (long format) -->\n",
   str% "        <numberFormat pattern=\"(\\d{2})(\\d{3})(\\d{3,4})\" nationalPrefixFormattingRule=\"$NP$FG\">\n",
   str% "          <leadingDigits>\n",
   str% "            29[013-9]|\n",
   str% "            39|\n",
   str% "            54\n",
   str% "          </leadingDigits>\n",
   str% "          <format>$1 $2 $3</format>\n",
   str% "        </numberFormat>\n",
   str% "        <!-- Four-digit area codes (short format) -->\n",
   str% "        <numberFormat pattern=\"(\\d{4})(\\d{3,5})\" nationalPrefixFormattingRule=\"$NP$FG\">\n",
   str% "          <leadingDigits>\n",
   str% "            (?:\n",
   str% "              25|\n",
   str% "              54\n",
   str% "            )8\n",
   str% "          </leadingDigits>\n",
   str% "          <leadingDigits>\n",
   str% "            258|\n",
   str% "            5483\n",
   str% "          </leadingDigits>\n",
   str% "          <format>$1 $2</format>\n",
   str% "        </numberFormat>\n",
   str% "      </availableFormats>\n",
   str% "      <generalDesc>\n",
   str% "        <nationalNumberPattern>\n",
   str% "          2(?:\n",
   str% "            [0-57-9]\\d{6,8}|\n",
   str% "            6[0-24-9]\\d{6,7}\n",
   str% "          )|\n",
   str% "          [38]\\d{9}|\n",
   str% "          [35-8]\\d{8}|\n",
   str% "          [3-6]\\d{7}|\n",
   str% "          [1-689]\\d{6}|\n",
   str% "          [1-3569]\\d{5}|\n",
   str% "          [1356]\\d{4}\n",
   str% "        </nationalNumberPattern>\n",
   str% "      </generalDesc>\n",
   str% "      <!-- The first block has the new renumbering format <New_Area_Code>+<New_Prefix>+<SN>. We are\n",
   str% "           not aware of the tranisition period yet, so supporting both formats until further\n",
   str% "           notice. These new numbers are 3 to 6 digit granularity as per telone.co.zw but for\n",
   str% "           maintainability we are storing 4 digits. -->\n",
   str% "      <!-- Old fixed-line ranges are grouped by subscriber-number length. -->\n",
   str% "      <!-- The new organisation is used for both formatting and validation\n",
   str% "           1. First we have 3 digit area code with SN(3,4,5).\n",
   str% "           2. Then we have 3 digit area code with SN(6,7).\n",
   str% "           3. Then we have 2 digit area code with SN(3,4,5).\n",
   str% "           4. Then we have 2 digit area code with SN(6,7).\n",
   str% "           5. Then we have 4 digit area code.\n",
   str% "           6. Then we have 1 digit area code with SN(6,7). -->\n",
   str% "      <fixedLine>\n",
   str% "        <possibleLengths national=\"[5-10]\" localOnly=\"3,4\"/>\n",
   str% "        <exampleNumber>1312345</exampleNumber>\n",
   str% "        <nationalNumberPattern>\n",
   str% "          (?:\n",
   str% "            1(?:\n",
   str% "              (?:\n",
   str% "                3\\d|\n",
   str% "                9\n",
   str% "              )\\d|\n",
   str% "              [4-8]\n",
   str% "            )|\n",
   str% "            2(?:\n",
   str% "              (?:\n",
   str% "                (?:\n",
   str% "                  0(?:\n",
   str% "                    2[014]|\n",
   str% "                    5\n",
   str% "                  )|\n",
   str% "                  (?:\n",
   str% "                    2[0157]|\n",
   str% "                    31|\n",
   str% "                    84|\n",
   str% "                    9\n",
   str% "                  )\\d\\d|\n",
   str% "                  [56](?:\n",
   str% "                    [14]\\d\\d|\n",
   str% "                    20\n",
   str% "                  )|\n",
   str% "                  7(?:\n",
   str% "                    [089]|\n",
   str% "                    2[03]|\n",
   str% "                    [35]\\d\\d\n",
   str% "                  )\n",
   str% "                )\\d|\n",
   str% "                4(?:\n",
   str% "                  2\\d\\d|\n",
   str% "                  8\n",
   str% "                )\n",
   str% "              )\\d|\n",
   str% "              1(?:\n",
   str% "                2|\n",
   str% "                [39]\\d{4}\n",
   str% "              )\n",
   str% "            )|\n",
   str% "            3(?:\n",
   str% "              (?:\n",
   str% "                123|\n",
   str% "                (?:\n",
   str% "                  29\\d|\n",
   str% "                  92\n",
   str% "                )\\d\n",
   str% "              )\\d\\d|\n",
   str% "              7(?:\n",
   str% "                [19]|\n",
   str% "                [56]\\d\n",
   str% "              )\n",
   str% "            )|\n",
   str% "            5(?:\n",
   str% "              0|\n",
   str% "              1[2-478]|\n",
   str% "              26|\n",
   str% "              [37]2|\n",
   str% "              4(?:\n",
   str% "                2\\d{3}|\n",
   str% "                83\n",
   str% "              )|\n",
   str% "              5(?:\n",
   str% "                25\\d\\d|\n",
   str% "                [78]\n",
   str% "              )|\n",
   str% "              [689]\\d\n",
   str% "            )|\n",
   str% "            6(?:\n",
   str% "              (?:\n",
   str% "                [16-8]21|\n",
   str% "                28|\n",
   str% "                52[013]\n",
   str% "              )\\d\\d|\n",
   str% "              [39]\n",
   str% "            )|\n",
   str% "            8(?:\n",
   str% "              [1349]28|\n",
   str% "              523\n",
   str% "            )\\d\\d\n",
   str% "          )\\d{3}|\n",
   str% "          (?:\n",
   str% "            4\\d\\d|\n",
   str% "            9[2-9]\n",
   str% "          )\\d{4,5}|\n",
   str% "          (?:\n",
   str% "            (?:\n",
   str% "              2(?:\n",
   str% "                (?:\n",
   str% "                  (?:\n",
   str% "                    0|\n",
   str% "                    8[146]\n",
   str% "                  )\\d|\n",
   str% "                  7[1-7]\n",
   str% "                )\\d|\n",
   str% "                2(?:\n",
   str% "                  [278]\\d|\n",
   str% "                  92\n",
   str% "                )|\n",
   str% "                58(?:\n",
   str% "                  2\\d|\n",
   str% "                  3\n",
   str% "                )\n",
   str% "              )|\n",
   str% "              3(?:\n",
   str% "                [26]|\n",
   str% "                9\\d{3}\n",
   str% "              )|\n",
   str% "              5(?:\n",
   str% "                4\\d|\n",
   str% "                5\n",
   str% "              )\\d\\d\n",
   str% "            )\\d|\n",
   str% "            6(?:\n",
   str% "              (?:\n",
   str% "                (?:\n",
   str% "                  [0-246]|\n",
   str% "                  [78]\\d\n",
   str% "                )\\d|\n",
   str% "                37\n",
   str% "              )\\d|\n",
   str% "              5[2-8]\n",
   str% "            )\n",
   str% "          )\\d\\d|\n",
   str% "          (?:\n",
   str% "            2(?:\n",
   str% "              [569]\\d|\n",
   str% "              8[2-57-9]\n",
   str% "            )|\n",
   str% "            3(?:\n",
   str% "              [013-59]\\d|\n",
   str% "              8[37]\n",
   str% "            )|\n",
   str% "            6[89]8\n",
   str% "          )\\d{3}\n",
   str% "        </nationalNumberPattern>\n",
   str% "      </fixedLine>\n",
   str% "      <mobile>\n",
   str% "        <possibleLengths national=\"9\"/>\n",
   str% "        <exampleNumber>712345678</exampleNumber>\n",
   str% "        <nationalNumberPattern>\n",
   str% "          7(?:\n",
   str% "            [1278]\\d|\n",
   str% "            3[1-9]\n",
   str% "          )\\d{6}\n",
   str% "        </nationalNumberPattern>\n",
   str% "      </mobile>\n",
   str% "      <tollFree>\n",
   str% "        <possibleLengths national=\"7\"/>\n",
   str% "        <exampleNumber>8001234</exampleNumber>\n",
   str% "        <nationalNumberPattern>\n",
   str% "          80(?:\n",
   str% "            [01]\\d|\n",
   str% "            20|\n",
   str% "            8[0-8]\n",
   str% "          )\\d{3}\n",
   str% "        </nationalNumberPattern>\n",
   str% "      </tollFree>\n",
   str% "      <!-- No premiumRate information can be found. -->\n",
   str% "      <voip>\n",
   str% "        <possibleLengths national=\"10\"/>\n",
   str% "        <exampleNumber>8686123456</exampleNumber>\n",
   str% "        <nationalNumberPattern>\n",
   str% "          86(?:\n",
   str% "            1[12]|\n",
   str% "            22|\n",
   str% "            30|\n",
   str% "            44|\n",
   str% "            55|\n",
   str% "            77|\n",
   str% "            8[368]\n",
   str% "          )\\d{6}\n",
   str% "        </nationalNumberPattern>\n",
   str% "      </voip>\n",
   str% "    </territory>"]

/-- the text up to the end of territory id=001 countryCode=800 -/
noncomputable def W800 : List Str :=
  [str% "\n",
   str% "\n",
   str% "    <!-- Universal International Toll Free Number -->\n",
   str% "    <!-- http://www.itu.int/en/ITU-T/inr/unum/Pages/uifn.aspx -->\n",
   str% "    <territory id=\"001\" countryCode=\"800\">\n",
   str% "      <availableFormats>\n",
   str% "        <numberFormat pattern=\"(\\d{4})(\\d{4})\">\n",
   str% "          <leadingDigits>\\d</leadingDigits>\n",
   str% "          <format>$1 $2</format>\n",
   str% "        </numberFormat>\n",
   str% "      </availableFormats>\n",
   str% "      <generalDesc>\n",
   str% "        <nationalNumberPattern>\n",
   str% "          (?:\n",
   str% "            00|\n",
   str% "            [1-9]\\d\n",
   str% "          )\\d{6}\n",
   str% "        </nationalNumberPattern>\n",
   str% "      </generalDesc>\n",
   str% "      <!-- SN number starting with '00' is added based on number mentioned in\n",
   str% "           https://www.lectra.com/en/contact and it is diallable from France (Orange network)\n",
   str% "           https://www.bio-rad.com/contact-us?field_custom_metadata_country=39&field_custom_metadata_vertical_code=All (country = France) -->\n",
   str% "      <tollFree>\n",
   str% "        <possibleLengths national=\"8\"/>\n",
   str% "        <exampleNumber>12345678</exampleNumber>\n",
   str% "        <nationalNumberPattern>\n",
   str% "          (?:\n",
   str% "            00|\n",
   str% "            [1-9]\\d\n",
   str% "          )\\d{6}\n",
   str% "        </nationalNumberPattern>\n",
   str% "      </tollFree>\n",
   str% "    </territory>"]

/-- the text up to the end of territory id=001 countryCode=808 -/
noncomputable def W808 : List Str :=
  [str% "\n",
   str% "\n",
   str% "    <!-- Universal International Shared Cost Number -->\n",
   str% "    <!-- http://www.itu.int/rec/T-REC-E.169-200205-I/en -->\n",
   str% "    <territory id=\"001\" countryCode=\"808\">\n",
   str% "      <availableFormats>\n",
   str% "        <numberFormat pattern=\"(\\d{4})(\\d{4})\">\n",
   str% "          <leadingDigits>[1-9]</leadingDigits>\n",
   str% "          <format>$1 $2</format>\n",
   str% "        </numberFormat>\n",
   str% "      </availableFormats>\n",
   str% "      <generalDesc>\n",
   str% "        <nationalNumberPattern>[1-9]\\d{7}</nationalNumberPattern>\n",
   str% "      </generalDesc>\n",
   str% "      <sharedCost>\n",
   str% "        <possibleLengths national=\"8\"/>\n",
   str% "        <exampleNumber>12345678</exampleNumber>\n",
   str% "        <nationalNumberPattern>[1-9]\\d{7}</nationalNumberPattern>\n",
   str% "      </sharedCost>\n",
   str% "    </territory>"]

/-- the text up to the end of territory id=001 countryCode=870 -/
noncomputable def W870 : List Str :=
  [str% "\n",
   str% "\n",
   str% "    <!-- Inmarsat Global Limited -->\n",
   str% "    <!-- http://www.itu.int/oth/T0202000065/en -->\n",
   str% "    <!-- http://www.inmarsat.com -->\n",
   str% "    <territory id=\"001\" countryCode=\"870\">\n",
   str% "      <availableFormats>\n",
   str% "        <numberFormat pattern=\"(\\d{3})(\\d{3})(\\d{3})\">\n",
   str% "          <leadingDigits>[235-7]</leadingDigits>\n",
   str% "          <format>$1 $2 $3</format>\n",
   str% "        </numberFormat>\n",
   str% "      </availableFormats>\n",
   str% "      <generalDesc>\n",
   str% "        <nationalNumberPattern>\n",
   str% "          7\\d{11}|\n",
   str% "          [235-7]\\d{8}\n",
   str% "        </nationalNumberPattern>\n",
   str% "      </generalDesc>\n",
   str% "      <!-- Assigning these to mobile since Inmarsat considers them to be mobile numbers. -->\n",
   str% "      <mobile>\n",
   str% "        <possibleLengths national=\"9,12\"/>\n",
   str% "        <exampleNumber>301234567</exampleNumber>\n",
   str% "        <nationalNumberPattern>\n",
   str% "          (?:\n",
   str% "            [356]|\n",
   str% "            774[45]\n",
   str% "          )\\d{8}|\n",
   str% "          7[6-8]\\d{7}\n",
   str% "        </nationalNumberPattern>\n",
   str% "      </mobile>\n",
   str% "      <voip>\n",
   str% "        <possibleLengths national=\"9\"/>\n",
   str% "        <exampleNumber>201234567</exampleNumber>\n",
   str% "        <nationalNumberPattern>2\\d{8}</nationalNumberPattern>\n",
   str% "      </voip>\n",
   str% "    </territory>"]

/-- the text up to the end of territory id=001 countryCode=878 -/
noncomputable def W878 : List Str :=
  [str% "\n",
   str% "\n",
   str% "    <!-- VISIONng -->\n",
   str% "    <!-- Number length has been derived from examples found online. -->\n",
   str% "    <!-- http://www.itu.int/oth/T02020000E5/en -->\n",
   str% "    <territory id=\"001\" countryCode=\"878\">\n",
   str% "      <availableFormats>\n",
   str% "        <!-- Formatting chosen based on online examples. -->\n",
   str% "        <numberFormat pattern=\"(\\d{2})(\\d{5})(\\d{5})\">\n",
   str% "          <leadingDigits>1</leadingDigits>\n",
   str% "          <format>$1 $2 $3</format>\n",
   str% "        </numberFormat>\n",
   str% "      </availableFormats>\n",
   str% "      <generalDesc>\n",
   str% "        <nationalNumberPattern>10\\d{10}</nationalNumberPattern>\n",
   str% "      </generalDesc>\n",
   str% "      <voip>\n",
   str% "        <possibleLengths national=\"12\"/>\n",
   str% "        <exampleNumber>101234567890</exampleNumber>\n",
   str% "        <nationalNumberPattern>10\\d{10}</nationalNumberPattern>\n",
   str% "      </voip>\n",
   str% "    </territory>"]

/-- the text up to the end of territory id=001 countryCode=881 -/
noncomputable def W881 : List Str :=
  [str% "\n",
   str% "\n",
   str% "    <!-- Iridium -->\n",
   str% "    <!-- Globalstar also reports using this prefix, but we cannot find any online numbers with the\n",
   str% "         Globalstar prefixes, so are not sure how exactly these work, and what length the numbers\n",
   str% "         are. For this reason, we only support Iridium numbers at the moment. -->\n",
   str% "    <!-- http://www.iridium.com -->\n",
   str% "    <!-- http://www.itu.int/oth/T0202000069/en -->\n",
   str% "    <territory id=\"001\" countryCode=\"881\">\n",
   str% "      <availableFormats>\n",
   str% "        <!-- Formatting chosen based on ITU document and Iridium website FAQ. -->\n",
   str% "        <numberFormat pattern=\"(\\d)(\\d{3})(\\d{5})\">\n",
   str% "          <leadingDigits>[0-37-9]</leadingDigits>\n",
   str% "          <format>$1 $2 $3</format>\n",
   str% "        </numberFormat>\n",
   str% "        <numberFormat pattern=\"(\\d)(\\d{3})(\\d{5,6})\">\n",
   str% "          <leadingDigits>6</leadingDigits>\n",
   str% "          <format>$1 $2 $3</format>\n",
   str% "        </numberFormat>\n",
   str% "      </availableFormats>\n",
   str% "      <generalDesc>\n",
   str% "        <nationalNumberPattern>\n",
   str% "          6\\d{9}|\n",
   str% "          [0-36-9]\\d{8}\n",
   str% "        </nationalNumberPattern>\n",
   str% "      </generalDesc>\n",
   str% "      <mobile>\n",
   str% "        <possibleLengths national=\"9,10\"/>\n",
   str% "        <exampleNumber>612345678</exampleNumber>\n",
   str% "        <nationalNumberPattern>\n",
   str% "          6\\d{9}|\n",
   str% "          [0-36-9]\\d{8}\n",
   str% "        </nationalNumberPattern>\n",
   str% "      </mobile>\n",
   str% "    </territory>"]

/-- the text up to the end of territory id=001 countryCode=882 -/
noncomputable def W882 : List Str :=
  [str% "\n",
   str% "\n",
   str% "    <!-- List of all international satellite number prefixes. -->\n",
   str% "    <!-- BebbiCell (Formerly Global Networks Switzerland AG) +88234 -->\n",
   str% "    <!-- Maritime Communications Partner (MCP) +88232 -->\n",
   str% "    <!-- Oration Technologies +88237 -->\n",
   str% "    <!-- Telespazio S.p.A. +88213 -->\n",
   str% "    <!-- Thuraya +88216 -->\n",
   str% "    <!-- China Telecommunications Corporation Satellite Communications Branch +88252 -->\n",
   str% "    <!-- https://www.itu.int/net/itu-t/inrdb/e164_intlsharedcc.aspx?cc=-1 -->\n",
   str% "    <!-- http://www.itu.int/oth/T0202000054/en -->\n",
   str% "    <!-- http://www.gsm.aq/numberplan.php -->\n",
   str% "    <!-- http://www.global.aq -->\n",
   str% "    <!-- http://www.itu.int/oth/T02020000F4/en -->\n",
   str% "    <!-- http://www.itu.int/oth/T02020000A0/en -->\n",
   str% "    <!-- http://www.itu.int/oth/T02020000CC/en -->\n",
   str% "    <!-- http://www.itu.int/oth/T02020000CF/en -->\n",
   str% "    <!-- https://www.itu.int/oth/T0202000100/en -->\n",
   str% "    <territory id=\"001\" countryCode=\"882\">\n",
   str% "      <availableFormats>\n",
   str% "        <!-- For 7 digit numbers in general -->\n",
   str% "        <numberFormat pattern=\"(\\d{2})(\\d{5})\">\n",
   str% "          <leadingDigits>\n",
   str% "            16|\n",
   str% "            342\n",
   str% "          </leadingDigits>\n",
   str% "          <format>$1 $2</format>\n",
   str% "        </numberFormat>\n",
   str% "        <!-- For 8 digit mobile numbers. -->\n",
   str% "        <numberFormat pattern=\"(\\d{2})(\\d{6})\">\n",
   str% "          <leadingDigits>49</leadingDigits>\n",
   str% "          <format>$1 $2</format>\n",
   str% "        </numberFormat>\n",
   str% "        <!-- For 8 digit VOIP numbers. -->\n",
   str% "        <numberFormat pattern=\"(\\d{2})(\\d{2})(\\d{4})\">\n",
   str% "          <leadingDigits>\n",
   str% "            1[36]|\n",
   str% "            9\n",
   str% "          </leadingDigits>\n",
   str% "          <format>$1 $2 $3</format>\n",
   str% "        </numberFormat>\n",
   str% "        <!-- For 9 digit mobile numbers. -->\n",
   str% "        <numberFormat pattern=\"(\\d{2})(\\d{4})(\\d{3})\">\n",
   str% "          <leadingDigits>3[23]</leadingDigits>\n",
   str% "          <format>$1 $2 $3</format>\n",
   str% "        </numberFormat>\n",
   str% "        <!-- For 9 and 10 digit VOIP numbers. -->\n",
   str% "        <numberFormat pattern=\"(\\d{2})(\\d{3,4})(\\d{4})\">\n",
   str% "          <leadingDigits>16</leadingDigits>\n",
   str% "          <format>$1 $2 $3</format>\n",
   str% "        </numberFormat>\n",
   str% "        <!-- For 10 digit numbers in general. -->\n",
   str% "        <numberFormat pattern=\"(\\d{2})(\\d{4})(\\d{4})\">\n",
   str% "          <leadingDigits>\n",
   str% "            10|\n",
   str% "            23|\n",
   str% "            3(?:\n",
   str% "              [15]|\n",
   str% "              4[57]\n",
   str% "            )|\n",
   str% "            4|\n",
   str% "            5[12]\n",
   str% "          </leadingDigits>\n",
   str% "          <format>$1 $2 $3</format>\n",
   str% "        </numberFormat>\n",
   str% "        <!-- For voice mail numbers. -->\n",
   str% "        <numberFormat pattern=\"(\\d{3})(\\d{4})(\\d{4})\">\n",
   str% "          <leadingDigits>34</leadingDigits>\n",
   str% "          <format>$1 $2 $3</format>\n",
   str% "        </numberFormat>\n",
   str% "        <!-- For 11 and 12 digit numbers except voice mail. -->\n",
   str% "        <numberFormat pattern=\"(\\d{2})(\\d{4,5})(\\d{5})\">\n",
   str% "          <leadingDigits>[1-35]</leadingDigits>\n",
   str% "          <format>$1 $2 $3</format>\n",
   str% "        </numberFormat>\n",
   str% "      </availableFormats>\n",
   str% "      <generalDesc>\n",
   str% "        <nationalNumberPattern>\n",
   str% "          [13]\\d{6}(?:\n",
   str% "            \\d{2,5}\n",
   str% "          )?|\n",
   str% "          [19]\\d{7}|\n",
   str% "          (?:\n",
   str% "            [25]\\d\\d|\n",
   str% "            4\n",
   str% "          )\\d{7}(?:\n",
   str% "            \\d{2}\n",
   str% "          )?\n",
   str% "        </nationalNumberPattern>\n",
   str% "      </generalDesc>\n",
   str% "      <!-- Bebbicell Mobile numbers, MCP and Oration. We are guessing the number length for\n",
   str% "           Oration based on numbers found online. AT&T have confirmed that 37X numbers\n",
   str% "           are 12 digit MSISDN numbers. -->\n",
   str% "      <mobile>\n",
   str% "        <possibleLengths national=\"[7-10],12\"/>\n",
   str% "        <exampleNumber>3421234</exampleNumber>\n",
   str% "        <nationalNumberPattern>\n",
   str% "          342\\d{4}|\n",
   str% "          (?:\n",
   str% "            337|\n",
   str% "            49\n",
   str% "          )\\d{6}|\n",
   str% "          (?:\n",
   str% "            3(?:\n",
   str% "              2|\n",
   str% "              47|\n",
   str% "              7\\d{3}\n",
   str% "            )|\n",
   str% "            5(?:\n",
   str% "              0\\d{3}|\n",
   str% "              2[0-2]\n",
   str% "            )\n",
   str% "          )\\d{7}\n",
   str% "        </nationalNumberPattern>\n",
   str% "      </mobile>\n",
   str% "      <!-- Telespazio S.p.A., Thuraya and Bebbicell VOIP numbers. -->\n",
   str% "      <!-- Added Vodafone's satellite range +882 39 here. Length and type are based on user-\n",
   str% "           reported issue as there are no numbers found online. -->\n",
   str% "      <voip>\n",
   str% "        <possibleLengths national=\"[7-12]\"/>\n",
   str% "        <exampleNumber>390123456789</exampleNumber>\n",
   str% "        <nationalNumberPattern>\n",
   str% "          1(?:\n",
   str% "            3(?:\n",
   str% "              0[0347]|\n",
   str% "              [13][0139]|\n",
   str% "              2[035]|\n",
   str% "              4[013568]|\n",
   str% "              6[0459]|\n",
   str% "              7[06]|\n",
   str% "              8[15-8]|\n",
   str% "              9[0689]\n",
   str% "            )\\d{4}|\n",
   str% "            6\\d{5,10}\n",
   str% "          )|\n",
   str% "          (?:\n",
   str% "            345\\d|\n",
   str% "            9[89]\n",
   str% "          )\\d{6}|\n",
   str% "          (?:\n",
   str% "            10|\n",
   str% "            2(?:\n",
   str% "              3|\n",
   str% "              85\\d\n",
   str% "            )|\n",
   str% "            3(?:\n",
   str% "              [15]|\n",
   str% "              [69]\\d\\d\n",
   str% "            )|\n",
   str% "            4[15-8]|\n",
   str% "            51\n",
   str% "          )\\d{8}\n",
   str% "        </nationalNumberPattern>\n",
   str% "      </voip>\n",
   str% "      <voicemail>\n",
   str% "        <possibleLengths national=\"11\"/>\n",
   str% "        <exampleNumber>34851234567</exampleNumber>\n",
   str% "        <nationalNumberPattern>348[57]\\d{7}</nationalNumberPattern>\n",
   str% "      </voicemail>\n",
   str% "    </territory>"]

/-- the text up to the end of territory id=001 countryCode=883 -/
noncomputable def W883 : List Str :=
  [str% "\n",
   str% "\n",
   str% "    <!-- bandwidth.com -->\n",
   str% "    <!-- SipMe -->\n",
   str% "    <!-- Voxbone -->\n",
   str% "    <!-- http://www.itu.int/oth/T02020000FB/en -->\n",
   str% "    <!-- http://www.itu.int/oth/T02020000FC/en -->\n",
   str% "    <!-- http://www.itu.int/oth/T02020000F3/en -->\n",
   str% "    <territory id=\"001\" countryCode=\"883\">\n",
   str% "      <availableFormats>\n",
   str% "        <numberFormat pattern=\"(\\d{3})(\\d{3})(\\d{2,8})\">\n",
   str% "          <leadingDigits>\n",
   str% "            [14]|\n",
   str% "            2[24-689]|\n",
   str% "            3[02-689]|\n",
   str% "            51[24-9]\n",
   str% "          </leadingDigits>\n",
   str% "          <format>$1 $2 $3</format>\n",
   str% "        </numberFormat>\n",
   str% "        <numberFormat pattern=\"(\\d{3})(\\d{3})(\\d{3})\">\n",
   str% "          <leadingDigits>510</leadingDigits>\n",
   str% "          <format>$1 $2 $3</format>\n",
   str% "        </numberFormat>\n",
   str% "        <numberFormat pattern=\"(\\d{3})(\\d{3})(\\d{4})\">\n",
   str% "          <leadingDigits>21</leadingDigits>\n",
   str% "          <format>$1 $2 $3</format>\n",
   str% "        </numberFormat>\n",
   str% "        <!-- When only 8 digits follow the area code formatting as XXXX XXXX\n",
   str% "             seems preferred (see Bandwidth.com and SipMe) -->\n",
   str% "        <numberFormat pattern=\"(\\d{4})(\\d{4})(\\d{4})\">\n",
   str% "          <leadingDigits>51[13]</leadingDigits>\n",
   str% "          <format>$1 $2 $3</format>\n",
   str% "        </numberFormat>\n",
   str% "        <numberFormat pattern=\"(\\d{3})(\\d{3})(\\d{3})(\\d{3})\">\n",
   str% "          <leadingDigits>[235]</leadingDigits>\n",
   str% "          <format>$1 $2 $3 $4</format>\n",
   str% "        </numberFormat>\n",
   str% "      </availableFormats>\n",
   str% "      <generalDesc>\n",
   str% "        <nationalNumberPattern>\n",
   str% "          (?:\n",
   str% "            [1-4]\\d|\n",
   str% "            51\n",
   str% "          )\\d{6,10}\n",
   str% "        </nationalNumberPattern>\n",
   str% "      </generalDesc>\n",
   str% "      <voip>\n",
   str% "        <possibleLengths national=\"[8-12]\"/>\n",
   str% "        <exampleNumber>510012345</exampleNumber>\n",
   str% "        <nationalNumberPattern>\n",
   str% "          (?:\n",
   str% "            2(?:\n",
   str% "              00\\d\\d|\n",
   str% "              10\n",
   str% "            )|\n",
   str% "            (?:\n",
   str% "              370[1-9]|\n",
   str% "              51\\d0\n",
   str% "            )\\d\n",
   str% "          )\\d{7}|\n",
   str% "          51(?:\n",
   str% "            00\\d{5}|\n",
   str% "            [24-9]0\\d{4,7}\n",
   str% "          )|\n",
   str% "          (?:\n",
   str% "            1[0-79]|\n",
   str% "            2[24-689]|\n",
   str% "            3[02-689]|\n",
   str% "            4[0-4]\n",
   str% "          )0\\d{5,9}\n",
   str% "        </nationalNumberPattern>\n",
   str% "      </voip>\n",
   str% "    </territory>"]

/-- the text up to the end of territory id=001 countryCode=888 -/
noncomputable def W888 : List Str :=
  [str% "\n",
   str% "\n",
   str% "    <!-- United Nations- OCHA -->\n",
   str% "    <!-- Numbers here are classified as UAN, as they are non-geographical and universally\n",
   str% "         accessible. In addition, the end-user tariff to reach these numbers is lower or similar to\n",
   str% "         the tariff of a national call. -->\n",
   str% "    <!-- http://www.itu.int/oth/T02020000FA/en -->\n",
   str% "    <territory id=\"001\" countryCode=\"888\">\n",
   str% "      <availableFormats>\n",
   str% "        <numberFormat pattern=\"(\\d{3})(\\d{3})(\\d{5})\">\n",
   str% "          <format>$1 $2 $3</format>\n",
   str% "        </numberFormat>\n",
   str% "      </availableFormats>\n",
   str% "      <generalDesc>\n",
   str% "        <nationalNumberPattern>\\d{11}</nationalNumberPattern>\n",
   str% "      </generalDesc>\n",
   str% "      <uan>\n",
   str% "        <possibleLengths national=\"11\"/>\n",
   str% "        <exampleNumber>12345678901</exampleNumber>\n",
   str% "        <nationalNumberPattern>\\d{11}</nationalNumberPattern>\n",
   str% "      </uan>\n",
   str% "    </territory>"]

/-- the text up to the end of territory id=001 countryCode=979 -/
noncomputable def W979 : List Str :=
  [str% "\n",
   str% "\n",
   str% "    <!-- Universal International Premium Rate Number -->\n",
   str% "    <!-- http://www.itu.int/rec/T-REC-E.169-200205-I/en -->\n",
   str% "    <territory id=\"001\" countryCode=\"979\">\n",
   str% "      <availableFormats>\n",
   str% "        <numberFormat pattern=\"(\\d)(\\d{4})(\\d{4})\">\n",
   str% "          <leadingDigits>[1359]</leadingDigits>\n",
   str% "          <format>$1 $2 $3</format>\n",
   str% "        </numberFormat>\n",
   str% "      </availableFormats>\n",
   str% "      <generalDesc>\n",
   str% "        <nationalNumberPattern>[1359]\\d{8}</nationalNumberPattern>\n",
   str% "      </generalDesc>\n",
   str% "      <premiumRate>\n",
   str% "        <possibleLengths national=\"9\" localOnly=\"8\"/>\n",
   str% "        <exampleNumber>123456789</exampleNumber>\n",
   str% "        <nationalNumberPattern>[1359]\\d{8}</nationalNumberPattern>\n",
   str% "      </premiumRate>\n",
   str% "    </territory>"]

/-- the text of this module -/
noncomputable def chunk15 : List (List Str) :=
  [VG, VI, VN, VU, WF, WS, XK, YE, YT, ZA, ZM, ZW, W800, W808, W870, W878, W881, W882, W883, W888, W979]

end Phone.Data.S
