import Verif.Basic.Str
/-! Text of `/repo/assets/PhoneNumberMetadata.xml`, in lines. Generated by `tools/gen_xml.py`; do not edit. -/

set_option maxRecDepth 100000
namespace Phone.Data.S

/-- the text up to the end of territory id=NA countryCode=264 -/
noncomputable def NA : List Str :=
  [str% "\n",
   str% "\n",
   str% "    <!-- Namibia (NA) -->\n",
   str% "    <!-- http://www.itu.int/oth/T0202000093/en -->\n",
   str% "    <territory id=\"NA\" countryCode=\"264\" internationalPrefix=\"00\" nationalPrefix=\"0\">\n",
   str% "      <availableFormats>\n",
   str% "        <numberFormat pattern=\"(\\d{2})(\\d{3})(\\d{3})\" nationalPrefixFormattingRule=\"$NP$FG\">\n",
   str% "          <leadingDigits>88</leadingDigits>\n",
   str% "          <format>$1 $2 $3</format>\n",
   str% "        </numberFormat>\n",
   str% "        <numberFormat pattern=\"(\\d{2})(\\d{3})(\\d{3,4})\" nationalPrefixFormattingRule=\"$NP$FG\">\n",
   str% "          <leadingDigits>6</leadingDigits>\n",
   str% "          <format>$1 $2 $3</format>\n",
   str% "        </numberFormat>\n",
   str% "        <numberFormat pattern=\"(\\d{3})(\\d{3})(\\d{3})\" nationalPrefixFormattingRule=\"$NP$FG\">\n",
   str% "          <leadingDigits>87</leadingDigits>\n",
   str% "          <format>$1 $2 $3</format>\n",
   str% "        </numberFormat>\n",
   str% "        <numberFormat pattern=\"(\\d{2})(\\d{3})(\\d{4})\" nationalPrefixFormattingRule=\"$NP$FG\">\n",
   str% "          <leadingDigits>8</leadingDigits>\n",
   str% "          <format>$1 $2 $3</format>\n",
   str% "        </numberFormat>\n",
   str% "      </availableFormats>\n",
   str% "      <generalDesc>\n",
   str% "        <nationalNumberPattern>[68]\\d{7,8}</nationalNumberPattern>\n",
   str% "      </generalDesc>\n",
   str% "      <!-- Includes VSAT service. Added 6768 and 64426 prefix based on user\n",
   str% "           report. -->\n",
   str% "      <fixedLine>\n",
   str% "        <possibleLengths national=\"8,9\"/>\n",
   str% "        <exampleNumber>61221234</exampleNumber>\n",
   str% "        <nationalNumberPattern>\n",
   str% "          64426\\d{3}|\n",
   str% "          6(?:\n",
   str% "            1(?:\n",
   str% "              2[2-7]|\n",
   str% "              3[01378]|\n",
   str% "              4[0-4]\n",
   str% "            )|\n",
   str% "            254|\n",
   str% "            32[0237]|\n",
   str% "            4(?:\n",
   str% "              27|\n",
   str% "              41|\n",
   str% "              5[25]\n",
   str% "            )|\n",
   str% "            52[236-8]|\n",
   str% "            626|\n",
   str% "            7(?:\n",
   str% "              2[2-4]|\n",
   str% "              30\n",
   str% "            )\n",
   str% "          )\\d{4,5}|\n",
   str% "          6(?:\n",
   str% "            1(?:\n",
   str% "              (?:\n",
   str% "                0\\d|\n",
   str% "                2[0189]|\n",
   str% "                3[24-69]|\n",
   str% "                4[5-9]\n",
   str% "              )\\d|\n",
   str% "              17|\n",
   str% "              69|\n",
   str% "              7[014]\n",
   str% "            )|\n",
   str% "            2(?:\n",
   str% "              17|\n",
   str% "              5[0-36-8]|\n",
   str% "              69|\n",
   str% "              70\n",
   str% "            )|\n",
   str% "            3(?:\n",
   str% "              17|\n",
   str% "              2[14-689]|\n",
   str% "              34|\n",
   str% "              6[289]|\n",
   str% "              7[01]|\n",
   str% "              81\n",
   str% "            )|\n",
   str% "            4(?:\n",
   str% "              17|\n",
   str% "              2[0-2]|\n",
   str% "              4[06]|\n",
   str% "              5[0137]|\n",
   str% "              69|\n",
   str% "              7[01]\n",
   str% "            )|\n",
   str% "            5(?:\n",
   str% "              17|\n",
   str% "              2[0459]|\n",
   str% "              69|\n",
   str% "              7[01]\n",
   str% "            )|\n",
   str% "            6(?:\n",
   str% "              17|\n",
   str% "              25|\n",
   str% "              38|\n",
   str% "              42|\n",
   str% "              69|\n",
   str% "              7[01]\n",
   str% "            )|\n",
   str% "            7(?:\n",
   str% "              17|\n",
   str% "              2[569]|\n",
   str% "              3[13]|\n",
   str% "              6[89]|\n",
   str% "              7[01]\n",
   str% "            )\n",
   str% "          )\\d{4}\n",
   str% "        </nationalNumberPattern>\n",
   str% "      </fixedLine>\n",
   str% "      <!-- Includes the Switch CDMA Service. -->\n",
   str% "      <mobile>\n",
   str% "        <possibleLengths national=\"9\"/>\n",
   str% "        <exampleNumber>811234567</exampleNumber>\n",
   str% "        <nationalNumberPattern>\n",
   str% "          (?:\n",
   str% "            60|\n",
   str% "            8[1245]\n",
   str% "          )\\d{7}\n",
   str% "        </nationalNumberPattern>\n",
   str% "      </mobile>\n",
   str% "      <tollFree>\n",
   str% "        <possibleLengths national=\"9\"/>\n",
   str% "        <exampleNumber>800123456</exampleNumber>\n",
   str% "        <nationalNumberPattern>80\\d{7}</nationalNumberPattern>\n",
   str% "      </tollFree>\n",
   str% "      <premiumRate>\n",
   str% "        <possibleLengths national=\"9\"/>\n",
   str% "        <exampleNumber>870123456</exampleNumber>\n",
   str% "        <nationalNumberPattern>8701\\d{5}</nationalNumberPattern>\n",
   str% "      </premiumRate>\n",
   str% "      <!-- Including virtual telephone and VOIP services. -->\n",
   str% "      <voip>\n",
   str% "        <possibleLengths national=\"8,9\"/>\n",
   str% "        <exampleNumber>88612345</exampleNumber>\n",
   str% "        <nationalNumberPattern>\n",
   str% "          8(?:\n",
   str% "            3\\d\\d|\n",
   str% "            86\n",
   str% "          )\\d{5}\n",
   str% "        </nationalNumberPattern>\n",
   str% "      </voip>\n",
   str% "    </territory>"]

/-- the text up to the end of territory id=NC countryCode=687 -/
noncomputable def NC : List Str :=
  [str% "\n",
   str% "\n",
   str% "    <!-- New Caledonia (NC) -->\n",
   str% "    <!-- http://www.itu.int/oth/T0202000098/en -->\n",
   str% "    <!-- http://www.opt.nc -->\n",
   str% "    <territory id=\"NC\" countryCode=\"687\" internationalPrefix=\"00\">\n",
   str% "      <availableFormats>\n",
   str% "        <!-- 3-digit Shortcodes which would otherwise be formatted as 'XX.X' -->\n",
   str% "        <numberFormat pattern=\"(\\d{3})\">\n",
   str% "          <leadingDigits>5[6-8]</leadingDigits>\n",
   str% "          <format>$1</format>\n",
   str% "          <intlFormat>NA</intlFormat>\n",
   str% "        </numberFormat>\n",
   str% "        <!-- From http://www.1012.nc, the local yellow pages. -->\n",
   str% "        <numberFormat pattern=\"(\\d{2})(\\d{2})(\\d{2})\">\n",
   str% "          <leadingDigits>[02-57-9]</leadingDigits>\n",
   str% "          <format>$1.$2.$3</format>\n",
   str% "        </numberFormat>\n",
   str% "      </availableFormats>\n",
   str% "      <generalDesc>\n",
   str% "        <nationalNumberPattern>\n",
   str% "          (?:\n",
   str% "            050|\n",
   str% "            [2-57-9]\\d\\d\n",
   str% "          )\\d{3}\n",
   str% "        </nationalNumberPattern>\n",
   str% "      </generalDesc>\n",
   str% "      <!-- Including the 88 prefix for public payphones. -->\n",
   str% "      <fixedLine>\n",
   str% "        <possibleLengths national=\"6\"/>\n",
   str% "        <exampleNumber>201234</exampleNumber>\n",
   str% "        <nationalNumberPattern>\n",
   str% "          (?:\n",
   str% "            2[03-9]|\n",
   str% "            3[0-5]|\n",
   str% "            4[1-7]|\n",
   str% "            88\n",
   str% "          )\\d{4}\n",
   str% "        </nationalNumberPattern>\n",
   str% "      </fixedLine>\n",
   str% "      <mobile>\n",
   str% "        <possibleLengths national=\"6\"/>\n",
   str% "        <exampleNumber>751234</exampleNumber>\n",
   str% "        <nationalNumberPattern>\n",
   str% "          (?:\n",
   str% "            [579]\\d|\n",
   str% "            8[0-79]\n",
   str% "          )\\d{4}\n",
   str% "        </nationalNumberPattern>\n",
   str% "      </mobile>\n",
   str% "      <!-- Prefix 050 is added based on user report.\n",
   str% "           https://www.enercal.nc/nos-agences/ (click on DUMBEA CENTRE in the list) -->\n",
   str% "      <tollFree>\n",
   str% "        <possibleLengths national=\"6\"/>\n",
   str% "        <exampleNumber>050012</exampleNumber>\n",
   str% "        <nationalNumberPattern>050\\d{3}</nationalNumberPattern>\n",
   str% "      </tollFree>\n",
   str% "      <!-- Listed as \"voice services\", from what we've seen they seem to cost extra. -->\n",
   str% "      <!-- Note that OPT lists 3631 as a free short number for caller ID services, but the ITU\n",
   str% "           document says that all 36 numbers are 6 digits. See ShortNumberMetadata.xml for more. -->\n",
   str% "      <premiumRate>\n",
   str% "        <possibleLengths national=\"6\"/>\n",
   str% "        <exampleNumber>366711</exampleNumber>\n",
   str% "        <nationalNumberPattern>36\\d{4}</nationalNumberPattern>\n",
   str% "      </premiumRate>\n",
   str% "    </territory>"]

/-- the text up to the end of territory id=NE countryCode=227 -/
noncomputable def NE : List Str :=
  [str% "\n",
   str% "\n",
   str% "    <!-- Niger (NE) -->\n",
   str% "    <!-- http://www.itu.int/oth/T020200009B/en -->\n",
   str% "    <territory id=\"NE\" countryCode=\"227\" internationalPrefix=\"00\">\n",
   str% "      <availableFormats>\n",
   str% "        <numberFormat pattern=\"(\\d{2})(\\d{3})(\\d{3})\">\n",
   str% "          <leadingDigits>08</leadingDigits>\n",
   str% "          <format>$1 $2 $3</format>\n",
   str% "        </numberFormat>\n",
   str% "        <numberFormat pattern=\"(\\d{2})(\\d{2})(\\d{2})(\\d{2})\">\n",
   str% "          <leadingDigits>\n",
   str% "            [089]|\n",
   str% "            2[013]|\n",
   str% "            7[0467]\n",
   str% "          </leadingDigits>\n",
   str% "          <format>$1 $2 $3 $4</format>\n",
   str% "        </numberFormat>\n",
   str% "      </availableFormats>\n",
   str% "      <generalDesc>\n",
   str% "        <nationalNumberPattern>[027-9]\\d{7}</nationalNumberPattern>\n",
   str% "      </generalDesc>\n",
   str% "      <!-- Adding 20 61 from online numbers. -->\n",
   str% "      <fixedLine>\n",
   str% "        <possibleLengths national=\"8\"/>\n",
   str% "        <exampleNumber>20201234</exampleNumber>\n",
   str% "        <nationalNumberPattern>\n",
   str% "          2(?:\n",
   str% "            0(?:\n",
   str% "              20|\n",
   str% "              3[1-8]|\n",
   str% "              4[13-5]|\n",
   str% "              5[14]|\n",
   str% "              6[14578]|\n",
   str% "              7[1-578]\n",
   str% "            )|\n",
   str% "            1(?:\n",
   str% "              4[145]|\n",
   str% "              5[14]|\n",
   str% "              6[14-68]|\n",
   str% "              7[169]|\n",
   str% "              88\n",
   str% "            )\n",
   str% "          )\\d{4}\n",
   str% "        </nationalNumberPattern>\n",
   str% "      </fixedLine>\n",
   str% "      <!-- Added 84, 85, 88, 90, 91, 92, 98 and 99 from online data. Airtel have confirmed that\n",
   str% "           they use the 89 and 97 prefixes, and Orange use 92. MOOV started using 95 in Jan\n",
   str% "           2014. -->\n",
   str% "      <mobile>\n",
   str% "        <possibleLengths national=\"8\"/>\n",
   str% "        <exampleNumber>93123456</exampleNumber>\n",
   str% "        <nationalNumberPattern>\n",
   str% "          (?:\n",
   str% "            23|\n",
   str% "            7[0467]|\n",
   str% "            [89]\\d\n",
   str% "          )\\d{6}\n",
   str% "        </nationalNumberPattern>\n",
   str% "      </mobile>\n",
   str% "      <tollFree>\n",
   str% "        <possibleLengths national=\"8\"/>\n",
   str% "        <exampleNumber>08123456</exampleNumber>\n",
   str% "        <nationalNumberPattern>08\\d{6}</nationalNumberPattern>\n",
   str% "      </tollFree>\n",
   str% "      <premiumRate>\n",
   str% "        <possibleLengths national=\"8\"/>\n",
   str% "        <exampleNumber>09123456</exampleNumber>\n",
   str% "        <nationalNumberPattern>09\\d{6}</nationalNumberPattern>\n",
   str% "      </premiumRate>\n",
   str% "    </territory>"]

/-- the text up to the end of territory id=NF countryCode=672 -/
noncomputable def NF : List Str :=
  [str% "\n",
   str% "\n",
   str% "    <!-- Norfolk Island (NF) -->\n",
   str% "    <!-- Including numbers for Australian Antarctic stations. -->\n",
   str% "    <!-- http://www.itu.int/oth/T020200009D/en -->\n",
   str% "    <territory id=\"NF\" countryCode=\"672\" internationalPrefix=\"00\"\n",
   str% "               nationalPrefixForParsing=\"([0-258]\\d{4})$\" nationalPrefixTransformRule=\"3$1\">\n",
   str% "      <availableFormats>\n",
   str% "        <numberFormat pattern=\"(\\d{2})(\\d{4})\">\n",
   str% "          <leadingDigits>1[0-3]</leadingDigits>\n",
   str% "          <format>$1 $2</format>\n",
   str% "        </numberFormat>\n",
   str% "        <numberFormat pattern=\"(\\d)(\\d{5})\">\n",
   str% "          <leadingDigits>[13]</leadingDigits>\n",
   str% "          <format>$1 $2</format>\n",
   str% "        </numberFormat>\n",
   str% "      </availableFormats>\n",
   str% "      <generalDesc>\n",
   str% "        <nationalNumberPattern>[13]\\d{5}</nationalNumberPattern>\n",
   str% "      </generalDesc>\n",
   str% "      <!-- ITU says all 3X numbers except 38 are fixed-line, but 3[34679] numbers don't seem to\n",
   str% "           connect after we tried calling them. -->\n",
   str% "      <fixedLine>\n",
   str% "        <possibleLengths national=\"6\" localOnly=\"5\"/>\n",
   str% "        <exampleNumber>106609</exampleNumber>\n",
   str% "        <nationalNumberPattern>\n",
   str% "          (?:\n",
   str% "            1(?:\n",
   str% "              06|\n",
   str% "              17|\n",
   str% "              28|\n",
   str% "              39\n",
   str% "            )|\n",
   str% "            3[0-2]\\d\n",
   str% "          )\\d{3}\n",
   str% "        </nationalNumberPattern>\n",
   str% "      </fixedLine>\n",
   str% "      <!-- Numbers found online with prefix 35. -->\n",
   str% "      <mobile>\n",
   str% "        <possibleLengths national=\"6\" localOnly=\"5\"/>\n",
   str% "        <exampleNumber>381234</exampleNumber>\n",
   str% "        <nationalNumberPattern>\n",
   str% "          (?:\n",
   str% "            14|\n",
   str% "            3[58]\n",
   str% "          )\\d{4}\n",
   str% "        </nationalNumberPattern>\n",
   str% "      </mobile>\n",
   str% "    </territory>"]

/-- the text up to the end of territory id=NG countryCode=234 -/
noncomputable def NG : List Str :=
  [str% "\n",
   str% "\n",
   str% "    <!-- Nigeria (NG) -->\n",
   str% "    <!-- http://www.itu.int/oth/T020200009C/en -->\n",
   str% "    <!-- https://www.ncc.gov.ng/technology/standards/numbering -->\n",
   str% "    <territory id=\"NG\" countryCode=\"234\" internationalPrefix=\"009\" nationalPrefix=\"0\"\n",
   str% "               mobileNumberPortableRegion=\"true\">\n",
   str% "      <availableFormats>\n",
   str% "        <numberFormat pattern=\"(\\d{3})(\\d{3})(\\d{3,4})\" nationalPrefixFormattingRule=\"$NP$FG\">\n",
   str% "          <leadingDigits>[7-9]</leadingDigits>\n",
   str% "          <format>$1 $2 $3</format>\n",
   str% "        </numberFormat>\n",
   str% "        <numberFormat pattern=\"(\\d{3})(\\d{3})(\\d{4})\" nationalPrefixFormattingRule=\"$NP$FG\">\n",
   str% "          <leadingDigits>20[129]</leadingDigits>\n",
   str% "          <format>$1 $2 $3</format>\n",
   str% "        </numberFormat>\n",
   str% "        <numberFormat pattern=\"(\\d{4})(\\d{2})(\\d{4})\" nationalPrefixFormattingRule=\"$NP$FG\">\n",
   str% "          <leadingDigits>2</leadingDigits>\n",
   str% "          <format>$1 $2 $3</format>\n",
   str% "        </numberFormat>\n",
   str% "        <!-- 11-12 digit toll-free and UAN numbers. -->\n",
   str% "        <numberFormat pattern=\"(\\d{3})(\\d{4})(\\d{4,5})\" nationalPrefixFormattingRule=\"$NP$FG\">\n",
   str% "          <leadingDigits>[78]</leadingDigits>\n",
   str% "          <format>$1 $2 $3</format>\n",
   str% "        </numberFormat>\n",
   str% "        <!-- 13-14 digit toll-free and UAN numbers. -->\n",
   str% "        <numberFormat pattern=\"(\\d{3})(\\d{5})(\\d{5,6})\" nationalPrefixFormattingRule=\"$NP$FG\">\n",
   str% "          <leadingDigits>[78]</leadingDigits>\n",
   str% "          <format>$1 $2 $3</format>\n",
   str% "        </numberFormat>\n",
   str% "      </availableFormats>\n",
   str% "      <generalDesc>\n",
   str% "        <nationalNumberPattern>\n",
   str% "          (?:\n",
   str% "            20|\n",
   str% "            9\\d\n",
   str% "          )\\d{8}|\n",
   str% "          [78]\\d{9,13}\n",
   str% "        </nationalNumberPattern>\n",
   str% "      </generalDesc>\n",
   str% "      <fixedLine>\n",
   str% "        <possibleLengths national=\"10\" localOnly=\"6,7\"/>\n",
   str% "        <exampleNumber>2033123456</exampleNumber>\n",
   str% "        <nationalNumberPattern>\n",
   str% "          20(?:\n",
   str% "            [1259]\\d|\n",
   str% "            3[013-9]|\n",
   str% "            4[1-8]|\n",
   str% "            6[024-689]|\n",
   str% "            7[1-79]|\n",
   str% "            8[2-9]\n",
   str% "          )\\d{6}\n",
   str% "        </nationalNumberPattern>\n",
   str% "      </fixedLine>\n",
   str% "      <!-- Added 906 and 907 mobile prefixes based on reports. Prefix 707 is withdrawn as per few\n",
   str% "           websites, however 707[0-3] is added based on bug report and online search. -->\n",
   str% "      <mobile>\n",
   str% "        <possibleLengths national=\"10\"/>\n",
   str% "        <exampleNumber>8021234567</exampleNumber>\n",
   str% "        <nationalNumberPattern>\n",
   str% "          (?:\n",
   str% "            702[0-24-9]|\n",
   str% "            819[01]\n",
   str% "          )\\d{6}|\n",
   str% "          (?:\n",
   str% "            7(?:\n",
   str% "              0[13-9]|\n",
   str% "              [12]\\d\n",
   str% "            )|\n",
   str% "            8(?:\n",
   str% "              0[1-9]|\n",
   str% "              1[0-8]\n",
   str% "            )|\n",
   str% "            9(?:\n",
   str% "              0[1-9]|\n",
   str% "              1[1-6]\n",
   str% "            )\n",
   str% "          )\\d{7}\n",
   str% "        </nationalNumberPattern>\n",
   str% "      </mobile>\n",
   str% "      <!-- Info on these numbers from http://www.alphatechnologieslimited.com. -->\n",
   str% "      <tollFree>\n",
   str% "        <possibleLengths national=\"[10-14]\"/>\n",
   str% "        <exampleNumber>80017591759</exampleNumber>\n",
   str% "        <nationalNumberPattern>800\\d{7,11}</nationalNumberPattern>\n",
   str% "      </tollFree>\n",
   str% "      <uan>\n",
   str% "        <possibleLengths national=\"[10-14]\"/>\n",
   str% "        <exampleNumber>7001234567</exampleNumber>\n",
   str% "        <nationalNumberPattern>700\\d{7,11}</nationalNumberPattern>\n",
   str% "      </uan>\n",
   str% "    </territory>"]

/-- the text up to the end of territory id=NI countryCode=505 -/
noncomputable def NI : List Str :=
  [str% "\n",
   str% "\n",
   str% "    <!-- Nicaragua (NI) -->\n",
   str% "    <!-- http://www.itu.int/oth/T020200009A/en -->\n",
   str% "    <territory id=\"NI\" countryCode=\"505\" internationalPrefix=\"00\">\n",
   str% "      <availableFormats>\n",
   str% "        <numberFormat pattern=\"(\\d{4})(\\d{4})\">\n",
   str% "          <leadingDigits>[125-8]</leadingDigits>\n",
   str% "          <format>$1 $2</format>\n",
   str% "        </numberFormat>\n",
   str% "      </availableFormats>\n",
   str% "      <generalDesc>\n",
   str% "        <nationalNumberPattern>\n",
   str% "          (?:\n",
   str% "            1800|\n",
   str% "            [25-8]\\d{3}\n",
   str% "          )\\d{4}\n",
   str% "        </nationalNumberPattern>\n",
   str% "      </generalDesc>\n",
   str% "      <fixedLine>\n",
   str% "        <possibleLengths national=\"8\"/>\n",
   str% "        <exampleNumber>21234567</exampleNumber>\n",
   str% "        <nationalNumberPattern>2\\d{7}</nationalNumberPattern>\n",
   str% "      </fixedLine>\n",
   str% "      <!-- 55[0-7], 57, 58 and 7[5-8] were added from bug reports/numbers found online. -->\n",
   str% "      <mobile>\n",
   str% "        <possibleLengths national=\"8\"/>\n",
   str% "        <exampleNumber>81234567</exampleNumber>\n",
   str% "        <nationalNumberPattern>\n",
   str% "          (?:\n",
   str% "            5(?:\n",
   str% "              5[0-7]|\n",
   str% "              [78]\\d\n",
   str% "            )|\n",
   str% "            6(?:\n",
   str% "              20|\n",
   str% "              3[035]|\n",
   str% "              4[045]|\n",
   str% "              5[05]|\n",
   str% "              77|\n",
   str% "              8[1-9]|\n",
   str% "              9[059]\n",
   str% "            )|\n",
   str% "            (?:\n",
   str% "              7[5-8]|\n",
   str% "              8\\d\n",
   str% "            )\\d\n",
   str% "          )\\d{5}\n",
   str% "        </nationalNumberPattern>\n",
   str% "      </mobile>\n",
   str% "      <tollFree>\n",
   str% "        <possibleLengths national=\"8\"/>\n",
   str% "        <exampleNumber>18001234</exampleNumber>\n",
   str% "        <nationalNumberPattern>1800\\d{4}</nationalNumberPattern>\n",
   str% "      </tollFree>\n",
   str% "    </territory>"]

/-- the text up to the end of territory id=NL countryCode=31 -/
noncomputable def NL : List Str :=
  [str% "\n",
   str% "\n",
   str% "    <!-- Netherlands (NL) -->\n",
   str% "    <!-- http://en.wikipedia.org/wiki/%2B31 -->\n",
   str% "    <!-- http://wetten.overheid.nl/BWBR0010198 -->\n",
   str% "    <territory id=\"NL\" countryCode=\"31\" internationalPrefix=\"00\" nationalPrefix=\"0\"\n",
   str% "               mobileNumberPortableRegion=\"true\">\n",
   str% "      <availableFormats>\n",
   str% "        <!-- Shortcodes (4 digits). -->\n",
   str% "        <numberFormat pattern=\"(\\d{4})\">\n",
   str% "          <leadingDigits>\n",
   str% "            1[238]|\n",
   str% "            [34]\n",
   str% "          </leadingDigits>\n",
   str% "          <format>$1</format>\n",
   str% "          <intlFormat>NA</intlFormat>\n",
   str% "        </numberFormat>\n",
   str% "        <!-- National only numbers (no national prefix). -->\n",
   str% "        <numberFormat pattern=\"(\\d{2})(\\d{3,4})\">\n",
   str% "          <leadingDigits>14</leadingDigits>\n",
   str% "          <format>$1 $2</format>\n",
   str% "          <intlFormat>NA</intlFormat>\n",
   str% "        </numberFormat>\n",
   str% "        <!-- Shortcodes (6 digits). -->\n",
   str% "        <numberFormat pattern=\"(\\d{6})\">\n",
   str% "          <leadingDigits>1</leadingDigits>\n",
   str% "          <format>$1</format>\n",
   str% "          <intlFormat>NA</intlFormat>\n",
   str% "        </numberFormat>\n",
   str% "        <!-- Toll free & premium rate. -->\n",
   str% "        <numberFormat pattern=\"(\\d{3})(\\d{4,7})\" nationalPrefixFormattingRule=\"$NP$FG\">\n",
   str% "          <leadingDigits>[89]0</leadingDigits>\n",
   str% "          <format>$1 $2</format>\n",
   str% "        </numberFormat>\n",
   str% "        <numberFormat pattern=\"(\\d{2})(\\d{7})\" nationalPrefixFormattingRule=\"$NP$FG\">\n",
   str% "          <leadingDigits>66</leadingDigits>\n",
   str% "          <format>$1 $2</format>\n",
   str% "        </numberFormat>\n",
   str% "        <numberFormat pattern=\"(\\d)(\\d{8})\" nationalPrefixFormattingRule=\"$NP$FG\">\n",
   str% "          <leadingDigits>6</leadingDigits>\n",
   str% "          <format>$1 $2</format>\n",
   str% "        </numberFormat>\n",
   str% "        <numberFormat pattern=\"(\\d{3})(\\d{3})(\\d{3})\" nationalPrefixFormattingRule=\"$NP$FG\">\n",
   str% "          <leadingDigits>\n",
   str% "            1[16-8]|\n",
   str% "            2[259]|\n",
   str% "            3[124]|\n",
   str% "            4[17-9]|\n",
   str% "            5[124679]\n",
   str% "          </leadingDigits>\n",
   str% "          <format>$1 $2 $3</format>\n",
   str% "        </numberFormat>\n",
   str% "        <numberFormat pattern=\"(\\d{2})(\\d{3})(\\d{4})\" nationalPrefixFormattingRule=\"$NP$FG\">\n",
   str% "          <leadingDigits>\n",
   str% "            [1-578]|\n",
   str% "            91\n",
   str% "          </leadingDigits>\n",
   str% "          <format>$1 $2 $3</format>\n",
   str% "        </numberFormat>\n",
   str% "        <!-- For M2M numbers that are used for mobile purposes. -->\n",
   str% "        <numberFormat pattern=\"(\\d{3})(\\d{3})(\\d{5})\" nationalPrefixFormattingRule=\"$NP$FG\">\n",
   str% "          <leadingDigits>9</leadingDigits>\n",
   str% "          <format>$1 $2 $3</format>\n",
   str% "        </numberFormat>\n",
   str% "      </availableFormats>\n",
   str% "      <generalDesc>\n",
   str% "        <nationalNumberPattern>\n",
   str% "          (?:\n",
   str% "            [124-7]\\d\\d|\n",
   str% "            3(?:\n",
   str% "              [02-9]\\d|\n",
   str% "              1[0-8]\n",
   str% "            )\n",
   str% "          )\\d{6}|\n",
   str% "          8\\d{6,9}|\n",
   str% "          9\\d{6,10}|\n",
   str% "          1\\d{4,5}\n",
   str% "        </nationalNumberPattern>\n",
   str% "      </generalDesc>\n",
   str% "      <noInternationalDialling>\n",
   str% "        <possibleLengths national=\"5,6\"/>\n",
   str% "        <nationalNumberPattern>\n",
   str% "          140(?:\n",
   str% "            1[035]|\n",
   str% "            2[0346]|\n",
   str% "            3[03568]|\n",
   str% "            4[0356]|\n",
   str% "            5[0358]|\n",
   str% "            8[458]\n",
   str% "          )|\n",
   str% "          140(?:\n",
   str% "            1[16-8]|\n",
   str% "            2[259]|\n",
   str% "            3[124]|\n",
   str% "            4[17-9]|\n",
   str% "            5[124679]|\n",
   str% "            7\n",
   str% "          )\\d\n",
   str% "        </nationalNumberPattern>\n",
   str% "      </noInternationalDialling>\n",
   str% "      <fixedLine>\n",
   str% "        <possibleLengths national=\"9\"/>\n",
   str% "        <exampleNumber>101234567</exampleNumber>\n",
   str% "        <nationalNumberPattern>\n",
   str% "          (?:\n",
   str% "            1(?:\n",
   str% "              [035]\\d|\n",
   str% "              1[13-578]|\n",
   str% "              6[124-8]|\n",
   str% "              7[24]|\n",
   str% "              8[0-467]\n",
   str% "            )|\n",
   str% "            2(?:\n",
   str% "              [0346]\\d|\n",
   str% "              2[2-46-9]|\n",
   str% "              5[125]|\n",
   str% "              9[479]\n",
   str% "            )|\n",
   str% "            3(?:\n",
   str% "              [03568]\\d|\n",
   str% "              1[3-8]|\n",
   str% "              2[01]|\n",
   str% "              4[1-8]\n",
   str% "            )|\n",
   str% "            4(?:\n",
   str% "              [0356]\\d|\n",
   str% "              1[1-368]|\n",
   str% "              7[58]|\n",
   str% "              8[15-8]|\n",
   str% "              9[23579]\n",
   str% "            )|\n",
   str% "            5(?:\n",
   str% "              [0358]\\d|\n",
   str% "              [19][1-9]|\n",
   str% "              2[1-57-9]|\n",
   str% "              4[13-8]|\n",
   str% "              6[126]|\n",
   str% "              7[0-3578]\n",
   str% "            )|\n",
   str% "            7\\d\\d\n",
   str% "          )\\d{6}\n",
   str% "        </nationalNumberPattern>\n",
   str% "      </fixedLine>\n",
   str% "      <!-- As per this government.nl's doc some sub ranges of existing 06[1-58] mobile numbers are\n",
   str% "           used for M2M purposes (that use mobile networks). But there is no information about these\n",
   str% "           sub ranges. The other way is also true, 12 digit 097 M2M numbers are used for mobile\n",
   str% "           purposes. More information in https://www.acm.nl/en/publications/information-about-dutch-097-numbers-non-dutch-providers\n",
   str% "           Added support just for subrange 970X as these only mentioned as assigned/live. -->\n",
   str% "      <mobile>\n",
   str% "        <possibleLengths national=\"9,11\"/>\n",
   str% "        <exampleNumber>612345678</exampleNumber>\n",
   str% "        <nationalNumberPattern>\n",
   str% "          (?:\n",
   str% "            6[1-58]|\n",
   str% "            970\\d\n",
   str% "          )\\d{7}\n",
   str% "        </nationalNumberPattern>\n",
   str% "      </mobile>\n",
   str% "      <pager>\n",
   str% "        <possibleLengths national=\"9\"/>\n",
   str% "        <exampleNumber>662345678</exampleNumber>\n",
   str% "        <nationalNumberPattern>66\\d{7}</nationalNumberPattern>\n",
   str% "      </pager>\n",
   str% "      <tollFree>\n",
   str% "        <possibleLengths national=\"[7-10]\"/>\n",
   str% "        <exampleNumber>8001234</exampleNumber>\n",
   str% "        <nationalNumberPattern>800\\d{4,7}</nationalNumberPattern>\n",
   str% "      </tollFree>\n",
   str% "      <premiumRate>\n",
   str% "        <possibleLengths national=\"[7-10]\"/>\n",
   str% "        <exampleNumber>9061234</exampleNumber>\n",
   str% "        <nationalNumberPattern>90[069]\\d{4,7}</nationalNumberPattern>\n",
   str% "      </premiumRate>\n",
   str% "      <voip>\n",
   str% "        <possibleLengths national=\"9\"/>\n",
   str% "        <exampleNumber>851234567</exampleNumber>\n",
   str% "        <nationalNumberPattern>\n",
   str% "          (?:\n",
   str% "            85|\n",
   str% "            91\n",
   str% "          )\\d{7}\n",
   str% "        </nationalNumberPattern>\n",
   str% "      </voip>\n",
   str% "      <!-- These numbers are used for local government. They are formed by the appending the local\n",
   str% "           dialling code (including the national prefix 0) after the leading digits \"14\".\n",
   str% "           government.nl's doc says 88 range is for premium rate services but only for a period of\n",
   str% "           6 months after its enforcement. Online results and Wikipedia says these are of standard\n",
   str% "           cost to end users. -->\n",
   str% "      <uan>\n",
   str% "        <possibleLengths national=\"5,6,9\"/>\n",
   str% "        <exampleNumber>14020</exampleNumber>\n",
   str% "        <nationalNumberPattern>\n",
   str% "          140(?:\n",
   str% "            1[035]|\n",
   str% "            2[0346]|\n",
   str% "            3[03568]|\n",
   str% "            4[0356]|\n",
   str% "            5[0358]|\n",
   str% "            8[458]\n",
   str% "          )|\n",
   str% "          (?:\n",
   str% "            140(?:\n",
   str% "              1[16-8]|\n",
   str% "              2[259]|\n",
   str% "              3[124]|\n",
   str% "              4[17-9]|\n",
   str% "              5[124679]|\n",
   str% "              7\n",
   str% "            )|\n",
   str% "            8[478]\\d{6}\n",
   str% "          )\\d\n",
   str% "        </nationalNumberPattern>\n",
   str% "      </uan>\n",
   str% "    </territory>"]

/-- the text up to the end of territory id=NO countryCode=47 -/
noncomputable def NO : List Str :=
  [str% "\n",
   str% "\n",
   str% "    <!-- Norway (NO) -->\n",
   str% "    <!-- Main region for 'SJ' -->\n",
   str% "    <!-- Metadata (excluding fixed-line) should be duplicated in 'SJ'. -->\n",
   str% "    <!-- https://nkom.no/telefoni-og-telefonnummer/telefonnummer-og-den-norske-nummerplan/alle-nummerserier-for-norske-telefonnumre/den-norske-nummerplanen-for-telefoni-med-mer-e.164 -->\n",
   str% "    <!-- https://en.wikipedia.org/wiki/Telephone_numbers_in_Norway -->\n",
   str% "    <territory id=\"NO\" mainCountryForCode=\"true\" countryCode=\"47\" leadingDigits=\"[02-689]|7[0-8]\"\n",
   str% "               internationalPrefix=\"00\" mobileNumberPortableRegion=\"true\">\n",
   str% "      <availableFormats>\n",
   str% "        <numberFormat pattern=\"(\\d{3})(\\d{2})(\\d{3})\">\n",
   str% "          <leadingDigits>8</leadingDigits>\n",
   str% "          <format>$1 $2 $3</format>\n",
   str% "        </numberFormat>\n",
   str% "        <numberFormat pattern=\"(\\d{2})(\\d{2})(\\d{2})(\\d{2})\">\n",
   str% "          <leadingDigits>[2-79]</leadingDigits>\n",
   str% "          <format>$1 $2 $3 $4</format>\n",
   str% "        </numberFormat>\n",
   str% "      </availableFormats>\n",
   str% "      <generalDesc>\n",
   str% "        <nationalNumberPattern>\n",
   str% "          (?:\n",
   str% "            0|\n",
   str% "            [2-9]\\d{3}\n",
   str% "          )\\d{4}\n",
   str% "        </nationalNumberPattern>\n",
   str% "      </generalDesc>\n",
   str% "      <!-- Excludes Svalbard fixed-line numbers. -->\n",
   str% "      <fixedLine>\n",
   str% "        <possibleLengths national=\"8\"/>\n",
   str% "        <exampleNumber>21234567</exampleNumber>\n",
   str% "        <nationalNumberPattern>\n",
   str% "          (?:\n",
   str% "            2[1-4]|\n",
   str% "            3[1-3578]|\n",
   str% "            5[1-35-7]|\n",
   str% "            6[1-46-9]|\n",
   str% "            7[0-8]\n",
   str% "          )\\d{6}\n",
   str% "        </nationalNumberPattern>\n",
   str% "      </fixedLine>\n",
   str% "      <!-- Consider adding one more digit for stricter validation (e.g. for 580). TETRA and GSM-R\n",
   str% "           numbers are not supported as they are not reachable for all. -->\n",
   str% "      <mobile>\n",
   str% "        <possibleLengths national=\"8\"/>\n",
   str% "        <exampleNumber>40612345</exampleNumber>\n",
   str% "        <nationalNumberPattern>[49]\\d{7}</nationalNumberPattern>\n",
   str% "      </mobile>\n",
   str% "      <tollFree>\n",
   str% "        <possibleLengths national=\"8\"/>\n",
   str% "        <exampleNumber>80012345</exampleNumber>\n",
   str% "        <nationalNumberPattern>80[01]\\d{5}</nationalNumberPattern>\n",
   str% "      </tollFree>\n",
   str% "      <premiumRate>\n",
   str% "        <possibleLengths national=\"8\"/>\n",
   str% "        <exampleNumber>82012345</exampleNumber>\n",
   str% "        <nationalNumberPattern>82[09]\\d{5}</nationalNumberPattern>\n",
   str% "      </premiumRate>\n",
   str% "      <sharedCost>\n",
   str% "        <possibleLengths national=\"8\"/>\n",
   str% "        <exampleNumber>81021234</exampleNumber>\n",
   str% "        <nationalNumberPattern>\n",
   str% "          810(?:\n",
   str% "            0[0-6]|\n",
   str% "            [2-8]\\d\n",
   str% "          )\\d{3}\n",
   str% "        </nationalNumberPattern>\n",
   str% "      </sharedCost>\n",
   str% "      <personalNumber>\n",
   str% "        <possibleLengths national=\"8\"/>\n",
   str% "        <exampleNumber>88012345</exampleNumber>\n",
   str% "        <nationalNumberPattern>880\\d{5}</nationalNumberPattern>\n",
   str% "      </personalNumber>\n",
   str% "      <voip>\n",
   str% "        <possibleLengths national=\"8\"/>\n",
   str% "        <exampleNumber>85012345</exampleNumber>\n",
   str% "        <nationalNumberPattern>85[0-5]\\d{5}</nationalNumberPattern>\n",
   str% "      </voip>\n",
   str% "      <!-- Includes some 810 local-rate numbers, and long-distance rate numbers.\n",
   str% "           04xxx is moved to Shortcodes as it can be used to send SMS as well\n",
   str% "           https://www.dnb.no/en/everyday-banking/services/text-message -->\n",
   str% "      <uan>\n",
   str% "        <possibleLengths national=\"5,8\"/>\n",
   str% "        <exampleNumber>02000</exampleNumber>\n",
   str% "        <nationalNumberPattern>\n",
   str% "          (?:\n",
   str% "            0[235-9]|\n",
   str% "            81(?:\n",
   str% "              0(?:\n",
   str% "                0[7-9]|\n",
   str% "                1\\d\n",
   str% "              )|\n",
   str% "              5\\d\\d\n",
   str% "            )\n",
   str% "          )\\d{3}\n",
   str% "        </nationalNumberPattern>\n",
   str% "      </uan>\n",
   str% "      <voicemail>\n",
   str% "        <possibleLengths national=\"8\"/>\n",
   str% "        <exampleNumber>81212345</exampleNumber>\n",
   str% "        <nationalNumberPattern>81[23]\\d{5}</nationalNumberPattern>\n",
   str% "      </voicemail>\n",
   str% "    </territory>"]

/-- the text up to the end of territory id=NP countryCode=977 -/
noncomputable def NP : List Str :=
  [str% "\n",
   str% "\n",
   str% "    <!-- Nepal (NP) -->\n",
   str% "    <!-- http://www.itu.int/oth/T0202000095/en -->\n",
   str% "    <!-- http://www.ntc.net.np/mobile/mob_postpaid_number_scheme.php -->\n",
   str% "    <!-- http://www.nta.gov.np/en/2012-06-01-11-45-17/2012-06-04-04-26-59/numbering-plan -->\n",
   str% "    <territory id=\"NP\" countryCode=\"977\" internationalPrefix=\"00\" nationalPrefix=\"0\">\n",
   str% "      <availableFormats>\n",
   str% "        <!-- Formatting patterns taken from pages like http://www.nepalgov.gov.np -->\n",
   str% "        <numberFormat pattern=\"(\\d)(\\d{7})\" nationalPrefixFormattingRule=\"$NP$FG\">\n",
   str% "          <leadingDigits>1[2-6]</leadingDigits>\n",
   str% "          <format>$1-$2</format>\n",
   str% "        </numberFormat>\n",
   str% "        <numberFormat pattern=\"(\\d{2})(\\d{6})\" nationalPrefixFormattingRule=\"$NP$FG\">\n",
   str% "          <leadingDigits>\n",
   str% "            1[01]|\n",
   str% "            [2-8]|\n",
   str% "            9(?:\n",
   str% "              [1-59]|\n",
   str% "              [67][2-6]\n",
   str% "            )\n",
   str% "          </leadingDigits>\n",
   str% "          <format>$1-$2</format>\n",
   str% "        </numberFormat>\n",
   str% "        <numberFormat pattern=\"(\\d{3})(\\d{7})\">\n",
   str% "          <leadingDigits>9</leadingDigits>\n",
   str% "          <format>$1-$2</format>\n",
   str% "        </numberFormat>\n",
   str% "        <!-- 11 digit toll free number -->\n",
   str% "        <numberFormat pattern=\"(\\d{4})(\\d{2})(\\d{5})\">\n",
   str% "          <leadingDigits>1</leadingDigits>\n",
   str% "          <format>$1-$2-$3</format>\n",
   str% "          <intlFormat>NA</intlFormat>\n",
   str% "        </numberFormat>\n",
   str% "      </availableFormats>\n",
   str% "      <generalDesc>\n",
   str% "        <nationalNumberPattern>\n",
   str% "          (?:\n",
   str% "            1\\d|\n",
   str% "            9\n",
   str% "          )\\d{9}|\n",
   str% "          [1-9]\\d{7}\n",
   str% "        </nationalNumberPattern>\n",
   str% "      </generalDesc>\n",
   str% "      <!-- We don't support Rural Telecommunication Service at the moment since\n",
   str% "           we are not sure what type it is. -->\n",
   str% "      <fixedLine>\n",
   str% "        <possibleLengths national=\"8\" localOnly=\"6,7\"/>\n",
   str% "        <exampleNumber>14567890</exampleNumber>\n",
   str% "        <nationalNumberPattern>\n",
   str% "          (?:\n",
   str% "            1[0-6]\\d|\n",
   str% "            99[02-6]\n",
   str% "          )\\d{5}|\n",
   str% "          (?:\n",
   str% "            2[13-79]|\n",
   str% "            3[135-8]|\n",
   str% "            4[146-9]|\n",
   str% "            5[135-7]|\n",
   str% "            6[13-9]|\n",
   str% "            7[15-9]|\n",
   str% "            8[1-46-9]|\n",
   str% "            9[1-7]\n",
   str% "          )[2-6]\\d{5}\n",
   str% "        </nationalNumberPattern>\n",
   str% "      </fixedLine>\n",
   str% "      <!-- Added prefix 982 per IR21 from the carrier. -->\n",
   str% "      <mobile>\n",
   str% "        <possibleLengths national=\"10\"/>\n",
   str% "        <exampleNumber>9841234567</exampleNumber>\n",
   str% "        <nationalNumberPattern>\n",
   str% "          9(?:\n",
   str% "            00|\n",
   str% "            6[0-3]|\n",
   str% "            7[0-24-6]|\n",
   str% "            8[0-24-68]\n",
   str% "          )\\d{7}\n",
   str% "        </nationalNumberPattern>\n",
   str% "      </mobile>\n",
   str% "      <!-- Added prefix 166001 based on https://ntc.net.np/post/toll-free-phone.\n",
   str% "           Prefix 1800 is added based on user report. -->\n",
   str% "      <tollFree>\n",
   str% "        <possibleLengths national=\"11\"/>\n",
   str% "        <exampleNumber>16600101234</exampleNumber>\n",
   str% "        <nationalNumberPattern>\n",
   str% "          1(?:\n",
   str% "            66001|\n",
   str% "            800\\d\\d\n",
   str% "          )\\d{5}\n",
   str% "        </nationalNumberPattern>\n",
   str% "      </tollFree>\n",
   str% "    </territory>"]

/-- the text up to the end of territory id=NR countryCode=674 -/
noncomputable def NR : List Str :=
  [str% "\n",
   str% "\n",
   str% "    <!-- Nauru (NR) -->\n",
   str% "    <!-- http://www.itu.int/oth/T0202000094/en -->\n",
   str% "    <!-- http://en.wikipedia.org/wiki/Telephone_numbers_in_Nauru -->\n",
   str% "    <territory id=\"NR\" countryCode=\"674\" internationalPrefix=\"00\">\n",
   str% "      <availableFormats>\n",
   str% "        <numberFormat pattern=\"(\\d{3})(\\d{4})\">\n",
   str% "          <leadingDigits>[24-9]</leadingDigits>\n",
   str% "          <format>$1 $2</format>\n",
   str% "        </numberFormat>\n",
   str% "      </availableFormats>\n",
   str% "      <generalDesc>\n",
   str% "        <nationalNumberPattern>\n",
   str% "          (?:\n",
   str% "            222|\n",
   str% "            444|\n",
   str% "            (?:\n",
   str% "              55|\n",
   str% "              8\\d\n",
   str% "            )\\d|\n",
   str% "            666|\n",
   str% "            777|\n",
   str% "            999\n",
   str% "          )\\d{4}\n",
   str% "        </nationalNumberPattern>\n",
   str% "      </generalDesc>\n",
   str% "      <fixedLine>\n",
   str% "        <possibleLengths national=\"7\"/>\n",
   str% "        <exampleNumber>4441234</exampleNumber>\n",
   str% "        <nationalNumberPattern>444\\d{4}</nationalNumberPattern>\n",
   str% "      </fixedLine>\n",
   str% "      <mobile>\n",
   str% "        <possibleLengths national=\"7\"/>\n",
   str% "        <exampleNumber>5551234</exampleNumber>\n",
   str% "        <nationalNumberPattern>\n",
   str% "          (?:\n",
   str% "            222|\n",
   str% "            55[3-9]|\n",
   str% "            666|\n",
   str% "            777|\n",
   str% "            8\\d\\d|\n",
   str% "            999\n",
   str% "          )\\d{4}\n",
   str% "        </nationalNumberPattern>\n",
   str% "      </mobile>\n",
   str% "    </territory>"]

/-- the text up to the end of territory id=NU countryCode=683 -/
noncomputable def NU : List Str :=
  [str% "\n",
   str% "\n",
   str% "    <!-- Niue (NU) -->\n",
   str% "    <!-- http://www.itu.int/oth/T02020000EC/en -->\n",
   str% "    <!-- http://en.wikipedia.org/wiki/Telephone_numbers_in_Niue -->\n",
   str% "    <territory id=\"NU\" countryCode=\"683\" internationalPrefix=\"00\">\n",
   str% "      <availableFormats>\n",
   str% "        <numberFormat pattern=\"(\\d{3})(\\d{4})\">\n",
   str% "          <leadingDigits>8</leadingDigits>\n",
   str% "          <format>$1 $2</format>\n",
   str% "        </numberFormat>\n",
   str% "      </availableFormats>\n",
   str% "      <generalDesc>\n",
   str% "        <nationalNumberPattern>\n",
   str% "          (?:\n",
   str% "            [4-7]|\n",
   str% "            888\\d\n",
   str% "          )\\d{3}\n",
   str% "        </nationalNumberPattern>\n",
   str% "      </generalDesc>\n",
   str% "      <fixedLine>\n",
   str% "        <possibleLengths national=\"4\"/>\n",
   str% "        <exampleNumber>7012</exampleNumber>\n",
   str% "        <nationalNumberPattern>[47]\\d{3}</nationalNumberPattern>\n",
   str% "      </fixedLine>\n",
   str% "      <mobile>\n",
   str% "        <possibleLengths national=\"4,7\"/>\n",
   str% "        <exampleNumber>8884012</exampleNumber>\n",
   str% "        <nationalNumberPattern>\n",
   str% "          (?:\n",
   str% "            [56]|\n",
   str% "            888[1-9]\n",
   str% "          )\\d{3}\n",
   str% "        </nationalNumberPattern>\n",
   str% "      </mobile>\n",
   str% "    </territory>"]

/-- the text up to the end of territory id=NZ countryCode=64 -/
noncomputable def NZ : List Str :=
  [str% "\n",
   str% "\n",
   str% "    <!-- New Zealand (NZ) -->\n",
   str% "    <!-- Includes Ross Dependency, Antarctica -->\n",
   str% "    <!-- Does not currently support 083 \"Enhanced voice services\", New Zealand direct service\n",
   str% "         numbers and 050 \"Nation-Wide Service\". -->\n",
   str% "    <!-- http://www.itu.int/oth/T0202000099/en -->\n",
   str% "    <territory id=\"NZ\" countryCode=\"64\" preferredInternationalPrefix=\"00\"\n",
   str% "               internationalPrefix=\"0(?:0|161)\" nationalPrefix=\"0\" mobileNumberPortableRegion=\"true\">\n",
   str% "      <availableFormats>\n",
   str% "        <!-- Enhanced voice services -->\n",
   str% "        <numberFormat pattern=\"(\\d{2})(\\d{3,8})\" nationalPrefixFormattingRule=\"$NP$FG\">\n",
   str% "          <leadingDigits>8[1-79]</leadingDigits>\n",
   str% "          <format>$1 $2</format>\n",
   str% "        </numberFormat>\n",
   str% "        <!-- 7, 8-digit variable cost (premium rate/toll free). -->\n",
   str% "        <numberFormat pattern=\"(\\d{3})(\\d{2})(\\d{2,3})\" nationalPrefixFormattingRule=\"$NP$FG\">\n",
   str% "          <leadingDigits>\n",
   str% "            50[036-8]|\n",
   str% "            8|\n",
   str% "            90\n",
   str% "          </leadingDigits>\n",
   str% "          <leadingDigits>\n",
   str% "            50(?:\n",
   str% "              [0367]|\n",
   str% "              88\n",
   str% "            )|\n",
   str% "            8|\n",
   str% "            90\n",
   str% "          </leadingDigits>\n",
   str% "          <format>$1 $2 $3</format>\n",
   str% "        </numberFormat>\n",
   str% "        <!-- Pattern for fixed-line formats, including Ross Dependency. -->\n",
   str% "        <numberFormat pattern=\"(\\d)(\\d{3})(\\d{4})\" nationalPrefixFormattingRule=\"$NP$FG\">\n",
   str% "          <leadingDigits>\n",
   str% "            24|\n",
   str% "            [346]|\n",
   str% "            7[2-57-9]|\n",
   str% "            9[2-9]\n",
   str% "          </leadingDigits>\n",
   str% "          <format>$1 $2 $3</format>\n",
   str% "        </numberFormat>\n",
   str% "        <!-- 0274, 0210 and toll-free/premium-rate prefixes 0508/0800/0900. -->\n",
   str% "        <numberFormat pattern=\"(\\d{3})(\\d{3})(\\d{3,4})\" nationalPrefixFormattingRule=\"$NP$FG\">\n",
   str% "          <leadingDigits>\n",
   str% "            2(?:\n",
   str% "              10|\n",
   str% "              74\n",
   str% "            )|\n",
   str% "            [589]\n",
   str% "          </leadingDigits>\n",
   str% "          <format>$1 $2 $3</format>\n",
   str% "        </numberFormat>\n",
   str% "        <!-- 2Degrees numbers are formatted with 022 separated, since this seems to be more common\n",
   str% "             than writing the first group as 022X based on Google web searches, and is used by\n",
   str% "             2Degrees themselves. See formatting on http://www.2degreesmobile.co.nz for an example\n",
   str% "             of the latter. We follow the same pattern for 020 (Orcon) and 028 (mixed) numbers. -->\n",
   str% "        <numberFormat pattern=\"(\\d{2})(\\d{3,4})(\\d{4})\" nationalPrefixFormattingRule=\"$NP$FG\">\n",
   str% "          <leadingDigits>\n",
   str% "            1|\n",
   str% "            2[028]\n",
   str% "          </leadingDigits>\n",
   str% "          <format>$1 $2 $3</format>\n",
   str% "        </numberFormat>\n",
   str% "        <!-- Mobile numbers do not have exclusive leading digits - formatting depends on number length.\n",
   str% "             Vodafone numbers can be 8 digits (without leading 0).\"\n",
   str% "             Paging numbers and some mobile numbers (Telecom/Vodafone/TelstraClear). -->\n",
   str% "        <numberFormat pattern=\"(\\d{2})(\\d{3})(\\d{3,5})\" nationalPrefixFormattingRule=\"$NP$FG\">\n",
   str% "          <leadingDigits>\n",
   str% "            2(?:\n",
   str% "              [169]|\n",
   str% "              7[0-35-9]\n",
   str% "            )|\n",
   str% "            7\n",
   str% "          </leadingDigits>\n",
   str% "          <format>$1 $2 $3</format>\n",
   str% "        </numberFormat>\n",
   str% "      </availableFormats>\n",
   str% "      <generalDesc>\n",
   str% "        <nationalNumberPattern>\n",
   str% "          [1289]\\d{9}|\n",
   str% "          50\\d{5}(?:\n",
   str% "            \\d{2,3}\n",
   str% "          )?|\n",
   str% "          [27-9]\\d{7,8}|\n",
   str% "          (?:\n",
   str% "            [34]\\d|\n",
   str% "            6[0-35-9]\n",
   str% "          )\\d{6}|\n",
   str% "          8\\d{4,6}\n",
   str% "        </nationalNumberPattern>\n",
   str% "      </generalDesc>\n",
   str% "      <fixedLine>\n",
   str% "        <possibleLengths national=\"8\" localOnly=\"7\"/>\n",
   str% "        <exampleNumber>32345678</exampleNumber>\n",
   str% "        <nationalNumberPattern>\n",
   str% "          240\\d{5}|\n",
   str% "          (?:\n",
   str% "            3[2-79]|\n",
   str% "            [49][2-9]|\n",
   str% "            6[235-9]|\n",
   str% "            7[2-57-9]\n",
   str% "          )\\d{6}\n",
   str% "        </nationalNumberPattern>\n",
   str% "      </fixedLine>\n",
   str% "      <!-- Includes mobile radio service numbers (e.g. TeamTalk). -->\n",
   str% "      <mobile>\n",
   str% "        <possibleLengths national=\"[8-10]\"/>\n",
   str% "        <exampleNumber>211234567</exampleNumber>\n",
   str% "        <nationalNumberPattern>\n",
   str% "          2(?:\n",
   str% "            [0-27-9]\\d|\n",
   str% "            6\n",
   str% "          )\\d{6,7}|\n",
   str% "          2(?:\n",
   str% "            1\\d|\n",
   str% "            75\n",
   str% "          )\\d{5}\n",
   str% "        </nationalNumberPattern>\n",
   str% "      </mobile>\n",
   str% "      <!-- These are the toll free patterns used, by Telecom and Telstra/Clear, but they are\n",
   str% "           referred to as 'Value-added service' in the phone plan for some reason. 85 numbers are\n",
   str% "           not covered, as telecom companies don't seem to support them yet. -->\n",
   str% "      <tollFree>\n",
   str% "        <possibleLengths national=\"[8-10]\"/>\n",
   str% "        <exampleNumber>800123456</exampleNumber>\n",
   str% "        <nationalNumberPattern>\n",
   str% "          508\\d{6,7}|\n",
   str% "          80\\d{6,8}\n",
   str% "        </nationalNumberPattern>\n",
   str% "      </tollFree>\n",
   str% "      <!-- The ITU doc says the lengths are 9 to 11, but wikipedia says 8. Online numbers can only\n",
   str% "           be found with lengths 8 and 9. 7 digit 'Nation-Wide Service' numbers are also included\n",
   str% "           here. -->\n",
   str% "      <premiumRate>\n",
   str% "        <possibleLengths national=\"[7-10]\"/>\n",
   str% "        <exampleNumber>900123456</exampleNumber>\n",
   str% "        <nationalNumberPattern>\n",
   str% "          (?:\n",
   str% "            1[13-57-9]\\d{5}|\n",
   str% "            50(?:\n",
   str% "              0[08]|\n",
   str% "              30|\n",
   str% "              66|\n",
   str% "              77|\n",
   str% "              88\n",
   str% "            )\n",
   str% "          )\\d{3}|\n",
   str% "          90\\d{6,8}\n",
   str% "        </nationalNumberPattern>\n",
   str% "      </premiumRate>\n",
   str% "      <personalNumber>\n",
   str% "        <possibleLengths national=\"9\"/>\n",
   str% "        <exampleNumber>701234567</exampleNumber>\n",
   str% "        <nationalNumberPattern>70\\d{7}</nationalNumberPattern>\n",
   str% "      </personalNumber>\n",
   str% "      <uan>\n",
   str% "        <possibleLengths national=\"[5-10]\"/>\n",
   str% "        <exampleNumber>83012378</exampleNumber>\n",
   str% "        <nationalNumberPattern>\n",
   str% "          8(?:\n",
   str% "            1[16-9]|\n",
   str% "            22|\n",
   str% "            3\\d|\n",
   str% "            4[045]|\n",
   str% "            5[459]|\n",
   str% "            6[235-9]|\n",
   str% "            7[0-3579]|\n",
   str% "            90\n",
   str% "          )\\d{2,7}\n",
   str% "        </nationalNumberPattern>\n",
   str% "      </uan>\n",
   str% "    </territory>"]

/-- the text up to the end of territory id=OM countryCode=968 -/
noncomputable def OM : List Str :=
  [str% "\n",
   str% "\n",
   str% "    <!-- Oman (OM) -->\n",
   str% "    <!-- http://www.itu.int/oth/T020200009F/en -->\n",
   str% "    <territory id=\"OM\" countryCode=\"968\" internationalPrefix=\"00\" mobileNumberPortableRegion=\"true\">\n",
   str% "      <availableFormats>\n",
   str% "        <numberFormat pattern=\"(\\d{3})(\\d{4,6})\">\n",
   str% "          <leadingDigits>[58]</leadingDigits>\n",
   str% "          <format>$1 $2</format>\n",
   str% "        </numberFormat>\n",
   str% "        <numberFormat pattern=\"(\\d{2})(\\d{6})\">\n",
   str% "          <leadingDigits>2</leadingDigits>\n",
   str% "          <format>$1 $2</format>\n",
   str% "        </numberFormat>\n",
   str% "        <numberFormat pattern=\"(\\d{4})(\\d{4})\">\n",
   str% "          <leadingDigits>[179]</leadingDigits>\n",
   str% "          <format>$1 $2</format>\n",
   str% "        </numberFormat>\n",
   str% "      </availableFormats>\n",
   str% "      <generalDesc>\n",
   str% "        <nationalNumberPattern>\n",
   str% "          (?:\n",
   str% "            1505|\n",
   str% "            [279]\\d{3}|\n",
   str% "            500\n",
   str% "          )\\d{4}|\n",
   str% "          800\\d{5,6}\n",
   str% "        </nationalNumberPattern>\n",
   str% "      </generalDesc>\n",
   str% "      <fixedLine>\n",
   str% "        <possibleLengths national=\"8\"/>\n",
   str% "        <exampleNumber>23123456</exampleNumber>\n",
   str% "        <nationalNumberPattern>2[1-6]\\d{6}</nationalNumberPattern>\n",
   str% "      </fixedLine>\n",
   str% "      <mobile>\n",
   str% "        <possibleLengths national=\"8\"/>\n",
   str% "        <exampleNumber>92123456</exampleNumber>\n",
   str% "        <nationalNumberPattern>\n",
   str% "          (?:\n",
   str% "            1505|\n",
   str% "            90[1-9]\\d\n",
   str% "          )\\d{4}|\n",
   str% "          (?:\n",
   str% "            7[124-9]|\n",
   str% "            9[1-9]\n",
   str% "          )\\d{6}\n",
   str% "        </nationalNumberPattern>\n",
   str% "      </mobile>\n",
   str% "      <!-- Link to document about toll-free numbers on http://www.tra.gov.om, which suggests they\n",
   str% "           should be 8007 followed by 4 digits. However, the only examples I can find, including\n",
   str% "           the customer help line for the main telephony company there (omantel), is 8007 followed\n",
   str% "           by 5 digits, so am allowing both for now to be on the safe side. 500 numbers seem to\n",
   str% "           offer international toll-free dialing numbers - +968 500 1300 for international help\n",
   str% "           desk for omantel, for example. Toll-free numbers 800[05] are added based on user report\n",
   str% "           and not official docs. -->\n",
   str% "      <tollFree>\n",
   str% "        <possibleLengths national=\"[7-9]\"/>\n",
   str% "        <exampleNumber>80071234</exampleNumber>\n",
   str% "        <nationalNumberPattern>\n",
   str% "          8007\\d{4,5}|\n",
   str% "          (?:\n",
   str% "            500|\n",
   str% "            800[05]\n",
   str% "          )\\d{4}\n",
   str% "        </nationalNumberPattern>\n",
   str% "      </tollFree>\n",
   str% "      <premiumRate>\n",
   str% "        <possibleLengths national=\"8\"/>\n",
   str% "        <exampleNumber>90012345</exampleNumber>\n",
   str% "        <nationalNumberPattern>900\\d{5}</nationalNumberPattern>\n",
   str% "      </premiumRate>\n",
   str% "    </territory>"]

/-- the text up to the end of territory id=PA countryCode=507 -/
noncomputable def PA : List Str :=
  [str% "\n",
   str% "\n",
   str% "    <!-- Panama (PA) -->\n",
   str% "    <!-- Last read July 9, 2014. -->\n",
   str% "    <!-- Omits the fact that mobile phones are 8 digits long. -->\n",
   str% "    <!-- https://asep.gob.pa/direcciones/telecomunicaciones/pnn/ -->\n",
   str% "    <!-- http://en.wikipedia.org/wiki/%2B507 -->\n",
   str% "    <territory id=\"PA\" countryCode=\"507\" internationalPrefix=\"00\" mobileNumberPortableRegion=\"true\">\n",
   str% "      <availableFormats>\n",
   str% "        <numberFormat pattern=\"(\\d{3})(\\d{4})\">\n",
   str% "          <leadingDigits>[1-57-9]</leadingDigits>\n",
   str% "          <format>$1-$2</format>\n",
   str% "        </numberFormat>\n",
   str% "        <numberFormat pattern=\"(\\d{4})(\\d{4})\">\n",
   str% "          <leadingDigits>[68]</leadingDigits>\n",
   str% "          <format>$1-$2</format>\n",
   str% "        </numberFormat>\n",
   str% "        <numberFormat pattern=\"(\\d{3})(\\d{3})(\\d{4})\">\n",
   str% "          <leadingDigits>8</leadingDigits>\n",
   str% "          <format>$1 $2 $3</format>\n",
   str% "        </numberFormat>\n",
   str% "      </availableFormats>\n",
   str% "      <generalDesc>\n",
   str% "        <nationalNumberPattern>\n",
   str% "          (?:\n",
   str% "            00800|\n",
   str% "            8\\d{3}\n",
   str% "          )\\d{6}|\n",
   str% "          [68]\\d{7}|\n",
   str% "          [1-57-9]\\d{6}\n",
   str% "        </nationalNumberPattern>\n",
   str% "      </generalDesc>\n",
   str% "      <!-- Note that numbers starting with 101, 106, 131, 151, 156 and 168 have not been assigned\n",
   str% "           to any rule below since we are not sure what the \"servicios 102/103\" refer to here. -->\n",
   str% "      <!-- Note that \"servicios 101/104\" in the plan refer to \"Local Basic Communications Service\"\n",
   str% "           and \"Public and Semipublic Terminal Service\", represented here as fixed-line. -->\n",
   str% "      <!-- The range 194-XXXX has been added since a number was found online with this prefix and\n",
   str% "           proved to be diallable. -->\n",
   str% "      <fixedLine>\n",
   str% "        <possibleLengths national=\"7\"/>\n",
   str% "        <exampleNumber>2001234</exampleNumber>\n",
   str% "        <nationalNumberPattern>\n",
   str% "          (?:\n",
   str% "            1(?:\n",
   str% "              0\\d|\n",
   str% "              1[0479]|\n",
   str% "              2[37]|\n",
   str% "              3[0137]|\n",
   str% "              4[147]|\n",
   str% "              5[05]|\n",
   str% "              6[058]|\n",
   str% "              7[0167]|\n",
   str% "              8[2358]|\n",
   str% "              9[1389]\n",
   str% "            )|\n",
   str% "            2(?:\n",
   str% "              [0235-79]\\d|\n",
   str% "              1[0-7]|\n",
   str% "              4[013-9]|\n",
   str% "              8[02-9]\n",
   str% "            )|\n",
   str% "            3(?:\n",
   str% "              [0147-9]\\d|\n",
   str% "              [25][0-5]|\n",
   str% "              33|\n",
   str% "              6[068]\n",
   str% "            )|\n",
   str% "            4(?:\n",
   str% "              00|\n",
   str% "              3[0-579]|\n",
   str% "              4\\d|\n",
   str% "              7[0-57-9]\n",
   str% "            )|\n",
   str% "            5(?:\n",
   str% "              [01]\\d|\n",
   str% "              2[0-7]|\n",
   str% "              [56]0|\n",
   str% "              79\n",
   str% "            )|\n",
   str% "            7(?:\n",
   str% "              0[09]|\n",
   str% "              2[0-26-8]|\n",
   str% "              3[03]|\n",
   str% "              4[04]|\n",
   str% "              5[05-9]|\n",
   str% "              6[0156]|\n",
   str% "              7[0-24-9]|\n",
   str% "              8[4-9]|\n",
   str% "              90\n",
   str% "            )|\n",
   str% "            8(?:\n",
   str% "              09|\n",
   str% "              2[89]|\n",
   str% "              3\\d|\n",
   str% "              4[0-24-689]|\n",
   str% "              5[014]|\n",
   str% "              8[02]\n",
   str% "            )|\n",
   str% "            9(?:\n",
   str% "              0[5-9]|\n",
   str% "              1[0135-8]|\n",
   str% "              2[036-9]|\n",
   str% "              3[35-79]|\n",
   str% "              40|\n",
   str% "              5[0457-9]|\n",
   str% "              6[05-9]|\n",
   str% "              7[04-9]|\n",
   str% "              8[35-8]|\n",
   str% "              9\\d\n",
   str% "            )\n",
   str% "          )\\d{4}\n",
   str% "        </nationalNumberPattern>\n",
   str% "      </fixedLine>\n",
   str% "      <!-- Note that \"servicios 106/107\" in the plan refer to mobile services. We also include\n",
   str% "           service \"210\", \"Servicio de Busca Personas\". -->\n",
   str% "      <mobile>\n",
   str% "        <possibleLengths national=\"7,8\"/>\n",
   str% "        <exampleNumber>61234567</exampleNumber>\n",
   str% "        <nationalNumberPattern>\n",
   str% "          (?:\n",
   str% "            1[16]1|\n",
   str% "            21[89]|\n",
   str% "            6\\d{3}|\n",
   str% "            8(?:\n",
   str% "              1[01]|\n",
   str% "              7[23]\n",
   str% "            )\n",
   str% "          )\\d{4}\n",
   str% "        </nationalNumberPattern>\n",
   str% "      </mobile>\n",
   str% "      <!-- Prefix 800 and 00800 of length 9-digit and 11-digit is added based on user\n",
   str% "           report.  -->\n",
   str% "      <tollFree>\n",
   str% "        <possibleLengths national=\"7,8,10,11\"/>\n",
   str% "        <exampleNumber>8001234</exampleNumber>\n",
   str% "        <nationalNumberPattern>\n",
   str% "          800\\d{4,5}|\n",
   str% "          (?:\n",
   str% "            00800|\n",
   str% "            800\\d\n",
   str% "          )\\d{6}\n",
   str% "        </nationalNumberPattern>\n",
   str% "      </tollFree>\n",
   str% "      <!-- Value-added services are represented as \"400\" in the plan. -->\n",
   str% "      <premiumRate>\n",
   str% "        <possibleLengths national=\"7\"/>\n",
   str% "        <exampleNumber>8601234</exampleNumber>\n",
   str% "        <nationalNumberPattern>\n",
   str% "          (?:\n",
   str% "            8(?:\n",
   str% "              22|\n",
   str% "              55|\n",
   str% "              60|\n",
   str% "              7[78]|\n",
   str% "              86\n",
   str% "            )|\n",
   str% "            9(?:\n",
   str% "              00|\n",
   str% "              81\n",
   str% "            )\n",
   str% "          )\\d{4}\n",
   str% "        </nationalNumberPattern>\n",
   str% "      </premiumRate>\n",
   str% "    </territory>"]

/-- the text up to the end of territory id=PE countryCode=51 -/
noncomputable def PE : List Str :=
  [str% "\n",
   str% "\n",
   str% "    <!-- Peru (PE) -->\n",
   str% "    <!-- http://www.itu.int/oth/T02020000A6/en -->\n",
   str% "    <!-- http://en.wikipedia.org/wiki/+51 -->\n",
   str% "    <!-- http://www.assistbook.com/South%20America/Peru/widecodes -->\n",
   str% "    <territory id=\"PE\" countryCode=\"51\" preferredInternationalPrefix=\"00\"\n",
   str% "               internationalPrefix=\"00|19(?:1[124]|77|90)00\" nationalPrefix=\"0\"\n",
   str% "               preferredExtnPrefix=\" Anexo \" mobileNumberPortableRegion=\"true\">\n",
   str% "      <availableFormats>\n",
   str% "        <numberFormat pattern=\"(\\d{3})(\\d{5})\" nationalPrefixFormattingRule=\"($NP$FG)\">\n",
   str% "          <leadingDigits>80</leadingDigits>\n",
   str% "          <format>$1 $2</format>\n",
   str% "        </numberFormat>\n",
   str% "        <numberFormat pattern=\"(\\d)(\\d{7})\" nationalPrefixFormattingRule=\"($NP$FG)\">\n",
   str% "          <leadingDigits>1</leadingDigits>\n",
   str% "          <format>$1 $2</format>\n",
   str% "        </numberFormat>\n",
   str% "        <numberFormat pattern=\"(\\d{2})(\\d{6})\" nationalPrefixFormattingRule=\"($NP$FG)\">\n",
   str% "          <leadingDigits>[4-8]</leadingDigits>\n",
   str% "          <format>$1 $2</format>\n",
   str% "        </numberFormat>\n",
   str% "        <!-- Formatting from common usage found on the internet, supported by ITU doc. -->\n",
   str% "        <numberFormat pattern=\"(\\d{3})(\\d{3})(\\d{3})\">\n",
   str% "          <leadingDigits>9</leadingDigits>\n",
   str% "          <format>$1 $2 $3</format>\n",
   str% "        </numberFormat>\n",
   str% "      </availableFormats>\n",
   str% "      <generalDesc>\n",
   str% "        <nationalNumberPattern>\n",
   str% "          (?:\n",
   str% "            [14-8]|\n",
   str% "            9\\d\n",
   str% "          )\\d{7}\n",
   str% "        </nationalNumberPattern>\n",
   str% "      </generalDesc>\n",
   str% "      <!-- Looks like not all 1X numbers are land-line numbers in Lima, some of them are allotted\n",
   str% "           as IDDs. As it effects parsing of these numbers and no valid numbers found online, not\n",
   str% "           supporting 8 digit 191[124], 1977 and 1990 ranges. -->\n",
   str% "      <fixedLine>\n",
   str% "        <possibleLengths national=\"8\" localOnly=\"6,7\"/>\n",
   str% "        <exampleNumber>11234567</exampleNumber>\n",
   str% "        <nationalNumberPattern>\n",
   str% "          (?:\n",
   str% "            (?:\n",
   str% "              (?:\n",
   str% "                4[34]|\n",
   str% "                5[14]\n",
   str% "              )[0-8]|\n",
   str% "              687\n",
   str% "            )\\d|\n",
   str% "            7(?:\n",
   str% "              173|\n",
   str% "              (?:\n",
   str% "                3[0-8]|\n",
   str% "                55\n",
   str% "              )\\d\n",
   str% "            )|\n",
   str% "            8(?:\n",
   str% "              10[05689]|\n",
   str% "              6(?:\n",
   str% "                0[06-9]|\n",
   str% "                1[6-9]|\n",
   str% "                29\n",
   str% "              )|\n",
   str% "              7(?:\n",
   str% "                0[0569]|\n",
   str% "                [56]0\n",
   str% "              )\n",
   str% "            )\n",
   str% "          )\\d{4}|\n",
   str% "          (?:\n",
   str% "            1[0-8]|\n",
   str% "            4[12]|\n",
   str% "            5[236]|\n",
   str% "            6[1-7]|\n",
   str% "            7[246]|\n",
   str% "            8[2-4]\n",
   str% "          )\\d{6}\n",
   str% "        </nationalNumberPattern>\n",
   str% "      </fixedLine>\n",
   str% "      <mobile>\n",
   str% "        <possibleLengths national=\"9\"/>\n",
   str% "        <exampleNumber>912345678</exampleNumber>\n",
   str% "        <nationalNumberPattern>9\\d{8}</nationalNumberPattern>\n",
   str% "      </mobile>\n",
   str% "      <tollFree>\n",
   str% "        <possibleLengths national=\"8\"/>\n",
   str% "        <exampleNumber>80012345</exampleNumber>\n",
   str% "        <nationalNumberPattern>800\\d{5}</nationalNumberPattern>\n",
   str% "      </tollFree>\n",
   str% "      <premiumRate>\n",
   str% "        <possibleLengths national=\"8\"/>\n",
   str% "        <exampleNumber>80512345</exampleNumber>\n",
   str% "        <nationalNumberPattern>805\\d{5}</nationalNumberPattern>\n",
   str% "      </premiumRate>\n",
   str% "      <sharedCost>\n",
   str% "        <possibleLengths national=\"8\"/>\n",
   str% "        <exampleNumber>80112345</exampleNumber>\n",
   str% "        <nationalNumberPattern>801\\d{5}</nationalNumberPattern>\n",
   str% "      </sharedCost>\n",
   str% "      <personalNumber>\n",
   str% "        <possibleLengths national=\"8\"/>\n",
   str% "        <exampleNumber>80212345</exampleNumber>\n",
   str% "        <nationalNumberPattern>80[24]\\d{5}</nationalNumberPattern>\n",
   str% "      </personalNumber>\n",
   str% "    </territory>"]

/-- the text up to the end of territory id=PF countryCode=689 -/
noncomputable def PF : List Str :=
  [str% "\n",
   str% "\n",
   str% "    <!-- French Polynesia (PF) -->\n",
   str% "    <!-- http://www.itu.int/oth/T020200004D/en -->\n",
   str% "    <territory id=\"PF\" countryCode=\"689\" internationalPrefix=\"00\">\n",
   str% "      <availableFormats>\n",
   str% "        <numberFormat pattern=\"(\\d{2})(\\d{2})(\\d{2})\">\n",
   str% "          <leadingDigits>44</leadingDigits>\n",
   str% "          <format>$1 $2 $3</format>\n",
   str% "        </numberFormat>\n",
   str% "        <numberFormat pattern=\"(\\d{2})(\\d{2})(\\d{2})(\\d{2})\">\n",
   str% "          <leadingDigits>\n",
   str% "            4|\n",
   str% "            8[7-9]\n",
   str% "          </leadingDigits>\n",
   str% "          <format>$1 $2 $3 $4</format>\n",
   str% "        </numberFormat>\n",
   str% "        <numberFormat pattern=\"(\\d{3})(\\d{2})(\\d{2})(\\d{2})\">\n",
   str% "          <leadingDigits>8</leadingDigits>\n",
   str% "          <format>$1 $2 $3 $4</format>\n",
   str% "        </numberFormat>\n",
   str% "      </availableFormats>\n",
   str% "      <generalDesc>\n",
   str% "        <nationalNumberPattern>\n",
   str% "          4\\d{5}(?:\n",
   str% "            \\d{2}\n",
   str% "          )?|\n",
   str% "          8\\d{7,8}\n",
   str% "        </nationalNumberPattern>\n",
   str% "      </generalDesc>\n",
   str% "      <noInternationalDialling>\n",
   str% "        <possibleLengths national=\"6\"/>\n",
   str% "        <nationalNumberPattern>44\\d{4}</nationalNumberPattern>\n",
   str% "      </noInternationalDialling>\n",
   str% "      <!-- Includes payphone prefixes. -->\n",
   str% "      <fixedLine>\n",
   str% "        <possibleLengths national=\"8\"/>\n",
   str% "        <exampleNumber>40412345</exampleNumber>\n",
   str% "        <nationalNumberPattern>\n",
   str% "          4(?:\n",
   str% "            0[4-689]|\n",
   str% "            9[4-68]\n",
   str% "          )\\d{5}\n",
   str% "        </nationalNumberPattern>\n",
   str% "      </fixedLine>\n",
   str% "      <mobile>\n",
   str% "        <possibleLengths national=\"8\"/>\n",
   str% "        <exampleNumber>87123456</exampleNumber>\n",
   str% "        <nationalNumberPattern>8[7-9]\\d{6}</nationalNumberPattern>\n",
   str% "      </mobile>\n",
   str% "      <!-- As per ARCEP, mainland France and overseas territories use 0800 to 0805 as Toll-free\n",
   str% "           numbers. -->\n",
   str% "      <tollFree>\n",
   str% "        <possibleLengths national=\"9\"/>\n",
   str% "        <exampleNumber>800012345</exampleNumber>\n",
   str% "        <nationalNumberPattern>80[0-5]\\d{6}</nationalNumberPattern>\n",
   str% "      </tollFree>\n",
   str% "      <voip>\n",
   str% "        <possibleLengths national=\"8\"/>\n",
   str% "        <exampleNumber>49901234</exampleNumber>\n",
   str% "        <nationalNumberPattern>499\\d{5}</nationalNumberPattern>\n",
   str% "      </voip>\n",
   str% "      <uan>\n",
   str% "        <possibleLengths national=\"6\"/>\n",
   str% "        <exampleNumber>440123</exampleNumber>\n",
   str% "        <nationalNumberPattern>44\\d{4}</nationalNumberPattern>\n",
   str% "      </uan>\n",
   str% "    </territory>"]

/-- the text up to the end of territory id=PG countryCode=675 -/
noncomputable def PG : List Str :=
  [str% "\n",
   str% "\n",
   str% "    <!-- Papua New Guinea (PG) -->\n",
   str% "    <!-- http://www.itu.int/oth/T02020000A4/en -->\n",
   str% "    <!-- http://en.wikipedia.org/wiki/%2B675 -->\n",
   str% "    <!-- http://nicta.gov.pg/search?searchword=numbering%20plan -->\n",
   str% "    <territory id=\"PG\" countryCode=\"675\" preferredInternationalPrefix=\"00\"\n",
   str% "               internationalPrefix=\"00|140[1-3]\">\n",
   str% "      <availableFormats>\n",
   str% "        <numberFormat pattern=\"(\\d{3})(\\d{4})\">\n",
   str% "          <leadingDigits>\n",
   str% "            18|\n",
   str% "            [2-69]|\n",
   str% "            85\n",
   str% "          </leadingDigits>\n",
   str% "          <format>$1 $2</format>\n",
   str% "        </numberFormat>\n",
   str% "        <numberFormat pattern=\"(\\d{4})(\\d{4})\">\n",
   str% "          <leadingDigits>[78]</leadingDigits>\n",
   str% "          <format>$1 $2</format>\n",
   str% "        </numberFormat>\n",
   str% "      </availableFormats>\n",
   str% "      <generalDesc>\n",
   str% "        <nationalNumberPattern>\n",
   str% "          (?:\n",
   str% "            180|\n",
   str% "            [78]\\d{3}\n",
   str% "          )\\d{4}|\n",
   str% "          (?:\n",
   str% "            [2-589]\\d|\n",
   str% "            64\n",
   str% "          )\\d{5}\n",
   str% "        </nationalNumberPattern>\n",
   str% "      </generalDesc>\n",
   str% "      <fixedLine>\n",
   str% "        <possibleLengths national=\"7\"/>\n",
   str% "        <exampleNumber>3123456</exampleNumber>\n",
   str% "        <nationalNumberPattern>\n",
   str% "          (?:\n",
   str% "            (?:\n",
   str% "              3[0-2]|\n",
   str% "              4[257]|\n",
   str% "              5[34]|\n",
   str% "              9[78]\n",
   str% "            )\\d|\n",
   str% "            64[1-9]|\n",
   str% "            85[02-46-9]\n",
   str% "          )\\d{4}\n",
   str% "        </nationalNumberPattern>\n",
   str% "      </fixedLine>\n",
   str% "      <mobile>\n",
   str% "        <possibleLengths national=\"8\"/>\n",
   str% "        <exampleNumber>70123456</exampleNumber>\n",
   str% "        <nationalNumberPattern>\n",
   str% "          (?:\n",
   str% "            7\\d|\n",
   str% "            8[1-48]\n",
   str% "          )\\d{6}\n",
   str% "        </nationalNumberPattern>\n",
   str% "      </mobile>\n",
   str% "      <pager>\n",
   str% "        <possibleLengths national=\"7\"/>\n",
   str% "        <exampleNumber>2700123</exampleNumber>\n",
   str% "        <nationalNumberPattern>27[01]\\d{4}</nationalNumberPattern>\n",
   str% "      </pager>\n",
   str% "      <tollFree>\n",
   str% "        <possibleLengths national=\"7\"/>\n",
   str% "        <exampleNumber>1801234</exampleNumber>\n",
   str% "        <nationalNumberPattern>180\\d{4}</nationalNumberPattern>\n",
   str% "      </tollFree>\n",
   str% "      <!-- Including all satellite numbers from the ITU doc here, as we found working numbers\n",
   str% "           online. -->\n",
   str% "      <voip>\n",
   str% "        <possibleLengths national=\"7\"/>\n",
   str% "        <exampleNumber>2751234</exampleNumber>\n",
   str% "        <nationalNumberPattern>\n",
   str% "          2(?:\n",
   str% "            0[0-57]|\n",
   str% "            7[568]\n",
   str% "          )\\d{4}\n",
   str% "        </nationalNumberPattern>\n",
   str% "      </voip>\n",
   str% "    </territory>"]

/-- the text up to the end of territory id=PH countryCode=63 -/
noncomputable def PH : List Str :=
  [str% "\n",
   str% "\n",
   str% "    <!-- Philippines (PH) -->\n",
   str% "    <!-- http://en.wikipedia.org/wiki/%2B63 -->\n",
   str% "    <territory id=\"PH\" countryCode=\"63\" internationalPrefix=\"00\" nationalPrefix=\"0\">\n",
   str% "      <availableFormats>\n",
   str% "        <numberFormat pattern=\"(\\d)(\\d{5})\" nationalPrefixFormattingRule=\"($NP$FG)\">\n",
   str% "          <leadingDigits>2</leadingDigits>\n",
   str% "          <format>$1 $2</format>\n",
   str% "        </numberFormat>\n",
   str% "        <numberFormat pattern=\"(\\d{4})(\\d{4,6})\" nationalPrefixFormattingRule=\"($NP$FG)\">\n",
   str% "          <leadingDigits>\n",
   str% "            3(?:\n",
   str% "              23|\n",
   str% "              39|\n",
   str% "              46\n",
   str% "            )|\n",
   str% "            4(?:\n",
   str% "              2[3-6]|\n",
   str% "              [35]9|\n",
   str% "              4[26]|\n",
   str% "              76\n",
   str% "            )|\n",
   str% "            544|\n",
   str% "            88[245]|\n",
   str% "            (?:\n",
   str% "              52|\n",
   str% "              64|\n",
   str% "              86\n",
   str% "            )2\n",
   str% "          </leadingDigits>\n",
   str% "          <leadingDigits>\n",
   str% "            3(?:\n",
   str% "              230|\n",
   str% "              397|\n",
   str% "              461\n",
   str% "            )|\n",
   str% "            4(?:\n",
   str% "              2(?:\n",
   str% "                35|\n",
   str% "                [46]4|\n",
   str% "                51\n",
   str% "              )|\n",
   str% "              396|\n",
   str% "              4(?:\n",
   str% "                22|\n",
   str% "                63\n",
   str% "              )|\n",
   str% "              59[347]|\n",
   str% "              76[15]\n",
   str% "            )|\n",
   str% "            5(?:\n",
   str% "              221|\n",
   str% "              446\n",
   str% "            )|\n",
   str% "            642[23]|\n",
   str% "            8(?:\n",
   str% "              622|\n",
   str% "              8(?:\n",
   str% "                [24]2|\n",
   str% "                5[13]\n",
   str% "              )\n",
   str% "            )\n",
   str% "          </leadingDigits>\n",
   str% "          <format>$1 $2</format>\n",
   str% "        </numberFormat>\n",
   str% "        <numberFormat pattern=\"(\\d{5})(\\d{4})\" nationalPrefixFormattingRule=\"($NP$FG)\">\n",
   str% "          <leadingDigits>\n",
   str% "            346|\n",
   str% "            4(?:\n",
   str% "              27|\n",
   str% "              9[35]\n",
   str% "            )|\n",
   str% "            883\n",
   str% "          </leadingDigits>\n",
   str% "          <leadingDigits>\n",
   str% "            3469|\n",
   str% "            4(?:\n",
   str% "              279|\n",
   str% "              9(?:\n",
   str% "                30|\n",
   str% "                56\n",
   str% "              )\n",
   str% "            )|\n",
   str% "            8834\n",
   str% "          </leadingDigits>\n",
   str% "          <format>$1 $2</format>\n",
   str% "        </numberFormat>\n",
   str% "        <numberFormat pattern=\"(\\d)(\\d{4})(\\d{4})\" nationalPrefixFormattingRule=\"($NP$FG)\">\n",
   str% "          <leadingDigits>2</leadingDigits>\n",
   str% "          <format>$1 $2 $3</format>\n",
   str% "        </numberFormat>\n",
   str% "        <numberFormat pattern=\"(\\d{2})(\\d{3})(\\d{4})\" nationalPrefixFormattingRule=\"($NP$FG)\">\n",
   str% "          <leadingDigits>\n",
   str% "            [3-7]|\n",
   str% "            8[2-8]\n",
   str% "          </leadingDigits>\n",
   str% "          <format>$1 $2 $3</format>\n",
   str% "        </numberFormat>\n",
   str% "        <numberFormat pattern=\"(\\d{3})(\\d{3})(\\d{4})\" nationalPrefixFormattingRule=\"$NP$FG\">\n",
   str% "          <leadingDigits>[89]</leadingDigits>\n",
   str% "          <format>$1 $2 $3</format>\n",
   str% "        </numberFormat>\n",
   str% "        <!-- Formatting from http://www.uniontelecard.com/calling-guides/philippines/guide1.aspx -->\n",
   str% "        <numberFormat pattern=\"(\\d{4})(\\d{3})(\\d{4})\">\n",
   str% "          <leadingDigits>1</leadingDigits>\n",
   str% "          <format>$1 $2 $3</format>\n",
   str% "        </numberFormat>\n",
   str% "        <numberFormat pattern=\"(\\d{4})(\\d{1,2})(\\d{3})(\\d{4})\">\n",
   str% "          <leadingDigits>1</leadingDigits>\n",
   str% "          <format>$1 $2 $3 $4</format>\n",
   str% "        </numberFormat>\n",
   str% "      </availableFormats>\n",
   str% "      <generalDesc>\n",
   str% "        <nationalNumberPattern>\n",
   str% "          (?:\n",
   str% "            [2-7]|\n",
   str% "            9\\d\n",
   str% "          )\\d{8}|\n",
   str% "          2\\d{5}|\n",
   str% "          (?:\n",
   str% "            1800|\n",
   str% "            8\n",
   str% "          )\\d{7,9}\n",
   str% "        </nationalNumberPattern>\n",
   str% "      </generalDesc>\n",
   str% "      <!-- Evidence on number length is hard to come by. We have found diallable numbers in Manila\n",
   str% "           that have only 5 digits after the area code; plus it seems the 8822 area code is\n",
   str% "           followed by 6 digits, and 8842 by only 4. Subscriber number of area code 02 are migrated\n",
   str% "           from 7 digit to 8 digit since 6th October 2019. -->\n",
   str% "      <fixedLine>\n",
   str% "        <possibleLengths national=\"6,[8-10]\" localOnly=\"4,5,7\"/>\n",
   str% "        <exampleNumber>232345678</exampleNumber>\n",
   str% "        <nationalNumberPattern>\n",
   str% "          (?:\n",
   str% "            (?:\n",
   str% "              2[3-8]|\n",
   str% "              3[2-68]|\n",
   str% "              4[2-9]|\n",
   str% "              5[2-6]|\n",
   str% "              6[2-58]|\n",
   str% "              7[24578]\n",
   str% "            )\\d{3}|\n",
   str% "            88(?:\n",
   str% "              22\\d\\d|\n",
   str% "              42\n",
   str% "            )\n",
   str% "          )\\d{4}|\n",
   str% "          (?:\n",
   str% "            2|\n",
   str% "            8[2-8]\\d\\d\n",
   str% "          )\\d{5}\n",
   str% "        </nationalNumberPattern>\n",
   str% "      </fixedLine>\n",
   str% "      <!-- 950 added based on info received from Smart. 96[5-7] added based on user report. -->\n",
   str% "      <mobile>\n",
   str% "        <possibleLengths national=\"10\"/>\n",
   str% "        <exampleNumber>9051234567</exampleNumber>\n",
   str% "        <nationalNumberPattern>\n",
   str% "          (?:\n",
   str% "            8(?:\n",
   str% "              1[37]|\n",
   str% "              9[5-8]\n",
   str% "            )|\n",
   str% "            9(?:\n",
   str% "              0[5-9]|\n",
   str% "              1[0-24-9]|\n",
   str% "              [235-7]\\d|\n",
   str% "              4[2-9]|\n",
   str% "              8[135-9]|\n",
   str% "              9[1-9]\n",
   str% "            )\n",
   str% "          )\\d{7}\n",
   str% "        </nationalNumberPattern>\n",
   str% "      </mobile>\n",
   str% "      <!-- Information on toll-free numbers collected from searching the internet -->\n",
   str% "      <tollFree>\n",
   str% "        <possibleLengths national=\"[11-13]\"/>\n",
   str% "        <exampleNumber>180012345678</exampleNumber>\n",
   str% "        <nationalNumberPattern>1800\\d{7,9}</nationalNumberPattern>\n",
   str% "      </tollFree>\n",
   str% "    </territory>"]

/-- the text of this module -/
noncomputable def chunk11 : List (List Str) :=
  [NA, NC, NE, NF, NG, NI, NL, NO, NP, NR, NU, NZ, OM, PA, PE, PF, PG, PH]

end Phone.Data.S
