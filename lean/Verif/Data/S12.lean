import Verif.Basic.Str
/-! Text of `/repo/assets/PhoneNumberMetadata.xml`, in lines. Generated by `tools/gen_xml.py`; do not edit. -/

set_option maxRecDepth 100000
namespace Phone.Data.S

/-- the text up to the end of territory id=PK countryCode=92 -/
noncomputable def PK : List Str :=
  [str% "\n",
   str% "\n",
   str% "    <!-- Pakistan (PK) -->\n",
   str% "    <!-- http://www.itu.int/oth/T02020000A1/en -->\n",
   str% "    <!-- http://en.wikipedia.org/wiki/%2B92 -->\n",
   str% "    <territory id=\"PK\" countryCode=\"92\" internationalPrefix=\"00\" nationalPrefix=\"0\"\n",
   str% "               mobileNumberPortableRegion=\"true\">\n",
   str% "      <availableFormats>\n",
   str% "        <!-- Toll-free and premium-rate numbers. -->\n",
   str% "        <numberFormat pattern=\"(\\d{3})(\\d{3})(\\d{2,7})\" nationalPrefixFormattingRule=\"$NP$FG\">\n",
   str% "          <leadingDigits>[89]0</leadingDigits>\n",
   str% "          <format>$1 $2 $3</format>\n",
   str% "        </numberFormat>\n",
   str% "        <!-- Personal numbers.\n",
   str% "             https://propakistani.pk/2010/06/10/ptcl-launches-personal-global-number/ has it\n",
   str% "             listed as being dialled without the national prefix. -->\n",
   str% "        <numberFormat pattern=\"(\\d{4})(\\d{5})\">\n",
   str% "          <leadingDigits>1</leadingDigits>\n",
   str% "          <format>$1 $2</format>\n",
   str% "        </numberFormat>\n",
   str% "        <!-- Fixed-line numbers with 3 digits in first group. -->\n",
   str% "        <numberFormat pattern=\"(\\d{3})(\\d{6,7})\" nationalPrefixFormattingRule=\"($NP$FG)\">\n",
   str% "          <leadingDigits>\n",
   str% "            2(?:\n",
   str% "              3[2358]|\n",
   str% "              4[2-4]|\n",
   str% "              9[2-8]\n",
   str% "            )|\n",
   str% "            45[3479]|\n",
   str% "            54[2-467]|\n",
   str% "            60[468]|\n",
   str% "            72[236]|\n",
   str% "            8(?:\n",
   str% "              2[2-689]|\n",
   str% "              3[23578]|\n",
   str% "              4[3478]|\n",
   str% "              5[2356]\n",
   str% "            )|\n",
   str% "            9(?:\n",
   str% "              2[2-8]|\n",
   str% "              3[27-9]|\n",
   str% "              4[2-6]|\n",
   str% "              6[3569]|\n",
   str% "              9[25-8]\n",
   str% "            )\n",
   str% "          </leadingDigits>\n",
   str% "          <leadingDigits>\n",
   str% "            9(?:\n",
   str% "              2[3-8]|\n",
   str% "              98\n",
   str% "            )|\n",
   str% "            (?:\n",
   str% "              2(?:\n",
   str% "                3[2358]|\n",
   str% "                4[2-4]|\n",
   str% "                9[2-8]\n",
   str% "              )|\n",
   str% "              45[3479]|\n",
   str% "              54[2-467]|\n",
   str% "              60[468]|\n",
   str% "              72[236]|\n",
   str% "              8(?:\n",
   str% "                2[2-689]|\n",
   str% "                3[23578]|\n",
   str% "                4[3478]|\n",
   str% "                5[2356]\n",
   str% "              )|\n",
   str% "              9(?:\n",
   str% "                22|\n",
   str% "                3[27-9]|\n",
   str% "                4[2-6]|\n",
   str% "                6[3569]|\n",
   str% "                9[25-7]\n",
   str% "              )\n",
   str% "            )[2-9]\n",
   str% "          </leadingDigits>\n",
   str% "          <format>$1 $2</format>\n",
   str% "        </numberFormat>\n",
   str% "        <!-- Fixed-line numbers with 2 digits in first group. -->\n",
   str% "        <numberFormat pattern=\"(\\d{2})(\\d{7,8})\" nationalPrefixFormattingRule=\"($NP$FG)\">\n",
   str% "          <leadingDigits>\n",
   str% "            (?:\n",
   str% "              2[125]|\n",
   str% "              4[0-246-9]|\n",
   str% "              5[1-35-7]|\n",
   str% "              6[1-8]|\n",
   str% "              7[14]|\n",
   str% "              8[16]|\n",
   str% "              91\n",
   str% "            )[2-9]\n",
   str% "          </leadingDigits>\n",
   str% "          <format>$1 $2</format>\n",
   str% "        </numberFormat>\n",
   str% "        <!-- Fixed-line numbers with 5 digits in first group.\n",
   str% "             586 was seen in this format online.\n",
   str% "             581 and 582 are added here because our best is guess is they behave like 586, given\n",
   str% "             these are the only fixed-line numbers where the second group doesn't start with [2-9]. -->\n",
   str% "        <numberFormat pattern=\"(\\d{5})(\\d{5})\" nationalPrefixFormattingRule=\"($NP$FG)\">\n",
   str% "          <leadingDigits>58</leadingDigits>\n",
   str% "          <format>$1 $2</format>\n",
   str% "        </numberFormat>\n",
   str% "        <!-- Mobile numbers. -->\n",
   str% "        <numberFormat pattern=\"(\\d{3})(\\d{7})\" nationalPrefixFormattingRule=\"$NP$FG\">\n",
   str% "          <leadingDigits>3</leadingDigits>\n",
   str% "          <format>$1 $2</format>\n",
   str% "        </numberFormat>\n",
   str% "        <!-- 11-digit UAN numbers (formatted to imply an area code but since there's not enough evidence that\n",
   str% "             the first group is actually optional, we don't assign an area code length to these ranges yet). -->\n",
   str% "        <numberFormat pattern=\"(\\d{2})(\\d{3})(\\d{3})(\\d{3})\" nationalPrefixFormattingRule=\"($NP$FG)\">\n",
   str% "          <leadingDigits>\n",
   str% "            2[125]|\n",
   str% "            4[0-246-9]|\n",
   str% "            5[1-35-7]|\n",
   str% "            6[1-8]|\n",
   str% "            7[14]|\n",
   str% "            8[16]|\n",
   str% "            91\n",
   str% "          </leadingDigits>\n",
   str% "          <format>$1 $2 $3 $4</format>\n",
   str% "        </numberFormat>\n",
   str% "        <!-- 12-digit UAN numbers (formatted to imply an area code but it's not optional). -->\n",
   str% "        <numberFormat pattern=\"(\\d{3})(\\d{3})(\\d{3})(\\d{3})\" nationalPrefixFormattingRule=\"($NP$FG)\">\n",
   str% "          <leadingDigits>[24-9]</leadingDigits>\n",
   str% "          <format>$1 $2 $3 $4</format>\n",
   str% "        </numberFormat>\n",
   str% "      </availableFormats>\n",
   str% "      <generalDesc>\n",
   str% "        <nationalNumberPattern>\n",
   str% "          122\\d{6}|\n",
   str% "          [24-8]\\d{10,11}|\n",
   str% "          9(?:\n",
   str% "            [013-9]\\d{8,10}|\n",
   str% "            2(?:\n",
   str% "              [01]\\d\\d|\n",
   str% "              2(?:\n",
   str% "                [06-8]\\d|\n",
   str% "                1[01]\n",
   str% "              )\n",
   str% "            )\\d{7}\n",
   str% "          )|\n",
   str% "          (?:\n",
   str% "            [2-8]\\d{3}|\n",
   str% "            92(?:\n",
   str% "              [0-7]\\d|\n",
   str% "              8[1-9]\n",
   str% "            )\n",
   str% "          )\\d{6}|\n",
   str% "          [24-9]\\d{8}|\n",
   str% "          [89]\\d{7}\n",
   str% "        </nationalNumberPattern>\n",
   str% "      </generalDesc>\n",
   str% "      <!-- The subscriber number length is not well defined for some area codes. From online\n",
   str% "           examples, we have come up with a heuristic that for 3-digit area codes, the subscriber\n",
   str% "           number will be 6 or 7 digits - for 2-digit area codes it will be 7, with the exceptions\n",
   str% "           of Karachi and Lahore (both 8). -->\n",
   str% "      <fixedLine>\n",
   str% "        <possibleLengths national=\"9,10\" localOnly=\"[5-8]\"/>\n",
   str% "        <exampleNumber>2123456789</exampleNumber>\n",
   str% "        <nationalNumberPattern>\n",
   str% "          (?:\n",
   str% "            (?:\n",
   str% "              21|\n",
   str% "              42\n",
   str% "            )[2-9]|\n",
   str% "            58[126]\n",
   str% "          )\\d{7}|\n",
   str% "          (?:\n",
   str% "            2[25]|\n",
   str% "            4[0146-9]|\n",
   str% "            5[1-35-7]|\n",
   str% "            6[1-8]|\n",
   str% "            7[14]|\n",
   str% "            8[16]|\n",
   str% "            91\n",
   str% "          )[2-9]\\d{6,7}|\n",
   str% "          (?:\n",
   str% "            2(?:\n",
   str% "              3[2358]|\n",
   str% "              4[2-4]|\n",
   str% "              9[2-8]\n",
   str% "            )|\n",
   str% "            45[3479]|\n",
   str% "            54[2-467]|\n",
   str% "            60[468]|\n",
   str% "            72[236]|\n",
   str% "            8(?:\n",
   str% "              2[2-689]|\n",
   str% "              3[23578]|\n",
   str% "              4[3478]|\n",
   str% "              5[2356]\n",
   str% "            )|\n",
   str% "            9(?:\n",
   str% "              2[2-8]|\n",
   str% "              3[27-9]|\n",
   str% "              4[2-6]|\n",
   str% "              6[3569]|\n",
   str% "              9[25-8]\n",
   str% "            )\n",
   str% "          )[2-9]\\d{5,6}\n",
   str% "        </nationalNumberPattern>\n",
   str% "      </fixedLine>\n",
   str% "      <!-- Adding 325 and 320 as SMSs have been successfully sent to these numbers and numbers\n",
   str% "           can be found online with these prefixes. Added 348 based on information found\n",
   str% "           online. -->\n",
   str% "      <mobile>\n",
   str% "        <possibleLengths national=\"10\"/>\n",
   str% "        <exampleNumber>3012345678</exampleNumber>\n",
   str% "        <nationalNumberPattern>\n",
   str% "          3(?:\n",
   str% "            [0-247]\\d|\n",
   str% "            3[0-79]|\n",
   str% "            55|\n",
   str% "            64\n",
   str% "          )\\d{7}\n",
   str% "        </nationalNumberPattern>\n",
   str% "      </mobile>\n",
   str% "      <!-- Prefix 800 (11 digits) added based on user report. -->\n",
   str% "      <tollFree>\n",
   str% "        <possibleLengths national=\"8,11\"/>\n",
   str% "        <exampleNumber>80012345</exampleNumber>\n",
   str% "        <nationalNumberPattern>\n",
   str% "          800\\d{5}(?:\n",
   str% "            \\d{3}\n",
   str% "          )?\n",
   str% "        </nationalNumberPattern>\n",
   str% "      </tollFree>\n",
   str% "      <premiumRate>\n",
   str% "        <possibleLengths national=\"8\"/>\n",
   str% "        <exampleNumber>90012345</exampleNumber>\n",
   str% "        <nationalNumberPattern>900\\d{5}</nationalNumberPattern>\n",
   str% "      </premiumRate>\n",
   str% "      <!-- These are referred to as UPT numbers in the plan. -->\n",
   str% "      <!-- The example number here is the test number from the plan. -->\n",
   str% "      <personalNumber>\n",
   str% "        <possibleLengths national=\"9\"/>\n",
   str% "        <exampleNumber>122044444</exampleNumber>\n",
   str% "        <nationalNumberPattern>122\\d{6}</nationalNumberPattern>\n",
   str% "      </personalNumber>\n",
   str% "      <!-- Data on what a UAN is is hard to come by. http://www.ptcl.com.pk has information under\n",
   str% "           http://www.ptcl.com.pk/contentb.php?NID=143#uan - which defines their format - but not\n",
   str% "           what type of number they are. We exclude Azad Jammu, Kashmir and Northern Areas here\n",
   str% "           since no online example UANs can be found, and they have an \"access code\" at the start,\n",
   str% "           making it difficult to guess what a UAN in these areas would look like. -->\n",
   str% "      <uan>\n",
   str% "        <possibleLengths national=\"11,12\"/>\n",
   str% "        <exampleNumber>21111825888</exampleNumber>\n",
   str% "        <nationalNumberPattern>\n",
   str% "          (?:\n",
   str% "            2(?:\n",
   str% "              [125]|\n",
   str% "              3[2358]|\n",
   str% "              4[2-4]|\n",
   str% "              9[2-8]\n",
   str% "            )|\n",
   str% "            4(?:\n",
   str% "              [0-246-9]|\n",
   str% "              5[3479]\n",
   str% "            )|\n",
   str% "            5(?:\n",
   str% "              [1-35-7]|\n",
   str% "              4[2-467]\n",
   str% "            )|\n",
   str% "            6(?:\n",
   str% "              0[468]|\n",
   str% "              [1-8]\n",
   str% "            )|\n",
   str% "            7(?:\n",
   str% "              [14]|\n",
   str% "              2[236]\n",
   str% "            )|\n",
   str% "            8(?:\n",
   str% "              [16]|\n",
   str% "              2[2-689]|\n",
   str% "              3[23578]|\n",
   str% "              4[3478]|\n",
   str% "              5[2356]\n",
   str% "            )|\n",
   str% "            9(?:\n",
   str% "              1|\n",
   str% "              22|\n",
   str% "              3[27-9]|\n",
   str% "              4[2-6]|\n",
   str% "              6[3569]|\n",
   str% "              9[2-7]\n",
   str% "            )\n",
   str% "          )111\\d{6}\n",
   str% "        </nationalNumberPattern>\n",
   str% "      </uan>\n",
   str% "    </territory>"]

/-- the text up to the end of territory id=PL countryCode=48 -/
noncomputable def PL : List Str :=
  [str% "\n",
   str% "\n",
   str% "    <!-- Poland (PL) -->\n",
   str% "    <!-- Source is in Polish. -->\n",
   str% "    <!-- http://en.wikipedia.org/wiki/%2B48 -->\n",
   str% "    <!-- http://www.itu.int/oth/T02020000A8/en -->\n",
   str% "    <!-- http://www.uke.gov.pl/tablice/home.do?execution=e1s1 -->\n",
   str% "    <!-- http://www.sgwp.wp.mil.pl/pl/1_1225.html -->\n",
   str% "    <territory id=\"PL\" countryCode=\"48\" internationalPrefix=\"00\" mobileNumberPortableRegion=\"true\">\n",
   str% "      <availableFormats>\n",
   str% "        <!-- 5-digit shortcodes. -->\n",
   str% "        <numberFormat pattern=\"(\\d{5})\">\n",
   str% "          <leadingDigits>19</leadingDigits>\n",
   str% "          <format>$1</format>\n",
   str% "        </numberFormat>\n",
   str% "        <!-- 6-digit shortcodes and other ranges (e.g. pager). -->\n",
   str% "        <numberFormat pattern=\"(\\d{3})(\\d{3})\">\n",
   str% "          <leadingDigits>\n",
   str% "            11|\n",
   str% "            20|\n",
   str% "            64\n",
   str% "          </leadingDigits>\n",
   str% "          <format>$1 $2</format>\n",
   str% "        </numberFormat>\n",
   str% "        <!-- 7-digit fixed-line numbers. -->\n",
   str% "        <numberFormat pattern=\"(\\d{2})(\\d{2})(\\d{3})\">\n",
   str% "          <leadingDigits>\n",
   str% "            30|\n",
   str% "            (?:\n",
   str% "              1[2-8]|\n",
   str% "              2[2-69]|\n",
   str% "              3[2-4]|\n",
   str% "              4[1-468]|\n",
   str% "              5[24-689]|\n",
   str% "              6[1-3578]|\n",
   str% "              7[14-7]|\n",
   str% "              8[1-79]|\n",
   str% "              9[145]\n",
   str% "            )1\n",
   str% "          </leadingDigits>\n",
   str% "          <leadingDigits>\n",
   str% "            30|\n",
   str% "            (?:\n",
   str% "              1[2-8]|\n",
   str% "              2[2-69]|\n",
   str% "              3[2-4]|\n",
   str% "              4[1-468]|\n",
   str% "              5[24-689]|\n",
   str% "              6[1-3578]|\n",
   str% "              7[14-7]|\n",
   str% "              8[1-79]|\n",
   str% "              9[145]\n",
   str% "            )19\n",
   str% "          </leadingDigits>\n",
   str% "          <format>$1 $2 $3</format>\n",
   str% "        </numberFormat>\n",
   str% "        <!-- 7-8 digit pager numbers. -->\n",
   str% "        <numberFormat pattern=\"(\\d{3})(\\d{2})(\\d{2,3})\">\n",
   str% "          <leadingDigits>64</leadingDigits>\n",
   str% "          <format>$1 $2 $3</format>\n",
   str% "        </numberFormat>\n",
   str% "        <!-- Mobile, pager and a few fixed-line numbers.\n",
   str% "             (70 numbers are formatted as per mobile numbers, based on information from some Polish people). -->\n",
   str% "        <numberFormat pattern=\"(\\d{3})(\\d{3})(\\d{3})\">\n",
   str% "          <leadingDigits>\n",
   str% "            21|\n",
   str% "            39|\n",
   str% "            45|\n",
   str% "            5[0137]|\n",
   str% "            6[0469]|\n",
   str% "            7[02389]|\n",
   str% "            8(?:\n",
   str% "              0[14]|\n",
   str% "              8\n",
   str% "            )\n",
   str% "          </leadingDigits>\n",
   str% "          <format>$1 $2 $3</format>\n",
   str% "        </numberFormat>\n",
   str% "        <!-- 9-digit fixed-line numbers. -->\n",
   str% "        <numberFormat pattern=\"(\\d{2})(\\d{3})(\\d{2})(\\d{2})\">\n",
   str% "          <leadingDigits>\n",
   str% "            1[2-8]|\n",
   str% "            [2-7]|\n",
   str% "            8[1-79]|\n",
   str% "            9[145]\n",
   str% "          </leadingDigits>\n",
   str% "          <format>$1 $2 $3 $4</format>\n",
   str% "        </numberFormat>\n",
   str% "        <!-- 9-10 digit toll free numbers. -->\n",
   str% "        <numberFormat pattern=\"(\\d{3})(\\d{3})(\\d{3,4})\">\n",
   str% "          <leadingDigits>8</leadingDigits>\n",
   str% "          <format>$1 $2 $3</format>\n",
   str% "        </numberFormat>\n",
   str% "      </availableFormats>\n",
   str% "      <generalDesc>\n",
   str% "        <nationalNumberPattern>\n",
   str% "          (?:\n",
   str% "            6|\n",
   str% "            8\\d\\d\n",
   str% "          )\\d{7}|\n",
   str% "          [1-9]\\d{6}(?:\n",
   str% "            \\d{2}\n",
   str% "          )?|\n",
   str% "          [26]\\d{5}\n",
   str% "        </nationalNumberPattern>\n",
   str% "      </generalDesc>\n",
   str% "      <!-- The plan says all geographical numbers are 9 digits; but we found customer service\n",
   str% "           numbers 19XXX that can be diallable along with valid area code and are 7 digits\n",
   str% "           instead, so we support those numbers too. See:\n",
   str% "           http://www.polskasiectaxi.pl/pst/pst-partnerzy.\n",
   str% "           Numbers which start with 26 are allocated for the military, see:\n",
   str% "           http://www.sgwp.wp.mil.pl/pl/1_1225.html.\n",
   str% "           Numbers which start with 47 are allocated for police, see:\n",
   str% "           https://policja.pl/pol/aktualnosci/185570,Uwaga-Zmieniaja-sie-numery-telefonow-do-jednostek-Policji-w-calym-kraju.html -->\n",
   str% "      <fixedLine>\n",
   str% "        <possibleLengths national=\"7,9\"/>\n",
   str% "        <exampleNumber>123456789</exampleNumber>\n",
   str% "        <nationalNumberPattern>\n",
   str% "          (?:\n",
   str% "            30|\n",
   str% "            47\\d\\d\n",
   str% "          )\\d{5}|\n",
   str% "          (?:\n",
   str% "            1[2-8]|\n",
   str% "            2[2-69]|\n",
   str% "            3[2-4]|\n",
   str% "            4[1-468]|\n",
   str% "            5[24-689]|\n",
   str% "            6[1-3578]|\n",
   str% "            7[14-7]|\n",
   str% "            8[1-79]|\n",
   str% "            9[145]\n",
   str% "          )(?:\n",
   str% "            [02-9]\\d{6}|\n",
   str% "            1(?:\n",
   str% "              [0-8]\\d{5}|\n",
   str% "              9\\d{3}(?:\n",
   str% "                \\d{2}\n",
   str% "              )?\n",
   str% "            )\n",
   str% "          )\n",
   str% "        </nationalNumberPattern>\n",
   str% "      </fixedLine>\n",
   str% "      <mobile>\n",
   str% "        <possibleLengths national=\"9\"/>\n",
   str% "        <exampleNumber>512345678</exampleNumber>\n",
   str% "        <nationalNumberPattern>\n",
   str% "          21(?:\n",
   str% "            1[013-5]|\n",
   str% "            2\\d|\n",
   str% "            3[1-9]\n",
   str% "          )\\d{5}|\n",
   str% "          (?:\n",
   str% "            45|\n",
   str% "            5[0137]|\n",
   str% "            6[069]|\n",
   str% "            7[2389]|\n",
   str% "            88\n",
   str% "          )\\d{7}\n",
   str% "        </nationalNumberPattern>\n",
   str% "      </mobile>\n",
   str% "      <pager>\n",
   str% "        <possibleLengths national=\"[6-9]\"/>\n",
   str% "        <exampleNumber>641234567</exampleNumber>\n",
   str% "        <nationalNumberPattern>64\\d{4,7}</nationalNumberPattern>\n",
   str% "      </pager>\n",
   str% "      <!-- Prefix 800 with 10 digits added based on user report. -->\n",
   str% "      <tollFree>\n",
   str% "        <possibleLengths national=\"9,10\"/>\n",
   str% "        <exampleNumber>800123456</exampleNumber>\n",
   str% "        <nationalNumberPattern>800\\d{6,7}</nationalNumberPattern>\n",
   str% "      </tollFree>\n",
   str% "      <premiumRate>\n",
   str% "        <possibleLengths national=\"9\"/>\n",
   str% "        <exampleNumber>701234567</exampleNumber>\n",
   str% "        <nationalNumberPattern>70[01346-8]\\d{6}</nationalNumberPattern>\n",
   str% "      </premiumRate>\n",
   str% "      <sharedCost>\n",
   str% "        <possibleLengths national=\"9\"/>\n",
   str% "        <exampleNumber>801234567</exampleNumber>\n",
   str% "        <nationalNumberPattern>801\\d{6}</nationalNumberPattern>\n",
   str% "      </sharedCost>\n",
   str% "      <voip>\n",
   str% "        <possibleLengths national=\"9\"/>\n",
   str% "        <exampleNumber>391234567</exampleNumber>\n",
   str% "        <nationalNumberPattern>39\\d{7}</nationalNumberPattern>\n",
   str% "      </voip>\n",
   str% "      <uan>\n",
   str% "        <possibleLengths national=\"9\"/>\n",
   str% "        <exampleNumber>804123456</exampleNumber>\n",
   str% "        <nationalNumberPattern>804\\d{6}</nationalNumberPattern>\n",
   str% "      </uan>\n",
   str% "    </territory>"]

/-- the text up to the end of territory id=PM countryCode=508 -/
noncomputable def PM : List Str :=
  [str% "\n",
   str% "\n",
   str% "    <!-- St. Pierre & Miquelon (PM) -->\n",
   str% "    <!-- http://www.itu.int/oth/T02020000B2/en -->\n",
   str% "    <territory id=\"PM\" countryCode=\"508\" internationalPrefix=\"00\" nationalPrefix=\"0\">\n",
   str% "      <availableFormats>\n",
   str% "        <numberFormat pattern=\"(\\d{2})(\\d{2})(\\d{2})\" nationalPrefixFormattingRule=\"$NP$FG\">\n",
   str% "          <leadingDigits>[2-9]</leadingDigits>\n",
   str% "          <format>$1 $2 $3</format>\n",
   str% "        </numberFormat>\n",
   str% "        <numberFormat pattern=\"(\\d{3})(\\d{3})(\\d{3})\">\n",
   str% "          <leadingDigits>7</leadingDigits>\n",
   str% "          <format>$1 $2 $3</format>\n",
   str% "        </numberFormat>\n",
   str% "        <numberFormat pattern=\"(\\d{3})(\\d{2})(\\d{2})(\\d{2})\" nationalPrefixFormattingRule=\"$NP$FG\">\n",
   str% "          <leadingDigits>8</leadingDigits>\n",
   str% "          <format>$1 $2 $3 $4</format>\n",
   str% "        </numberFormat>\n",
   str% "      </availableFormats>\n",
   str% "      <generalDesc>\n",
   str% "        <nationalNumberPattern>\n",
   str% "          [78]\\d{8}|\n",
   str% "          [2-9]\\d{5}\n",
   str% "        </nationalNumberPattern>\n",
   str% "      </generalDesc>\n",
   str% "      <!-- Fixed-line and mobile numbers do not include any main prefix (like country code)\n",
   str% "           before subscriber number unlike other French territories as they can be dialled\n",
   str% "           directly using subscriber number after country code in E.164 format. 4[23] and 50\n",
   str% "           ranges are added to both fixed-line and mobile categories as it is not clear in ITU\n",
   str% "           doc. -->\n",
   str% "      <fixedLine>\n",
   str% "        <possibleLengths national=\"6,9\"/>\n",
   str% "        <exampleNumber>430123</exampleNumber>\n",
   str% "        <nationalNumberPattern>\n",
   str% "          80[6-9]\\d{6}|\n",
   str% "          (?:\n",
   str% "            [236-9]\\d|\n",
   str% "            4[1-35-9]|\n",
   str% "            5[0-47-9]\n",
   str% "          )\\d{4}\n",
   str% "        </nationalNumberPattern>\n",
   str% "      </fixedLine>\n",
   str% "      <!-- 44 XXXX might be a mobile range as it is assigned to Globaltel. Category is not\n",
   str% "           mentioned in the ITU doc. -->\n",
   str% "      <mobile>\n",
   str% "        <possibleLengths national=\"6,9\"/>\n",
   str% "        <exampleNumber>551234</exampleNumber>\n",
   str% "        <nationalNumberPattern>\n",
   str% "          708(?:\n",
   str% "            4[0-5]|\n",
   str% "            5[0-6]\n",
   str% "          )\\d{4}|\n",
   str% "          (?:\n",
   str% "            [236-9]\\d|\n",
   str% "            4[02-489]|\n",
   str% "            5[02-9]\n",
   str% "          )\\d{4}\n",
   str% "        </nationalNumberPattern>\n",
   str% "      </mobile>\n",
   str% "      <!-- As per ARCEP, mainland France and overseas territories use 0800 to 0805 as Toll-free\n",
   str% "           numbers. -->\n",
   str% "      <tollFree>\n",
   str% "        <possibleLengths national=\"9\"/>\n",
   str% "        <exampleNumber>800012345</exampleNumber>\n",
   str% "        <nationalNumberPattern>80[0-5]\\d{6}</nationalNumberPattern>\n",
   str% "      </tollFree>\n",
   str% "      <premiumRate>\n",
   str% "        <possibleLengths national=\"9\"/>\n",
   str% "        <exampleNumber>810123456</exampleNumber>\n",
   str% "        <nationalNumberPattern>8[129]\\d{7}</nationalNumberPattern>\n",
   str% "      </premiumRate>\n",
   str% "    </territory>"]

/-- the text up to the end of territory id=PR countryCode=1 -/
noncomputable def PR : List Str :=
  [str% "\n",
   str% "\n",
   str% "    <!-- Puerto Rico (PR) -->\n",
   str% "    <!-- Calling code and formatting shared with 'US' -->\n",
   str% "    <!-- http://www.itu.int/oth/T02020000AA/en -->\n",
   str% "    <territory id=\"PR\" countryCode=\"1\" leadingDigits=\"787|939\" internationalPrefix=\"011\"\n",
   str% "               nationalPrefix=\"1\" mobileNumberPortableRegion=\"true\">\n",
   str% "      <generalDesc>\n",
   str% "        <nationalNumberPattern>\n",
   str% "          (?:\n",
   str% "            [589]\\d\\d|\n",
   str% "            787\n",
   str% "          )\\d{7}\n",
   str% "        </nationalNumberPattern>\n",
   str% "      </generalDesc>\n",
   str% "      <fixedLine>\n",
   str% "        <possibleLengths national=\"10\" localOnly=\"7\"/>\n",
   str% "        <exampleNumber>7872345678</exampleNumber>\n",
   str% "        <nationalNumberPattern>\n",
   str% "          (?:\n",
   str% "            787|\n",
   str% "            939\n",
   str% "          )[2-9]\\d{6}\n",
   str% "        </nationalNumberPattern>\n",
   str% "      </fixedLine>\n",
   str% "      <mobile>\n",
   str% "        <possibleLengths national=\"10\" localOnly=\"7\"/>\n",
   str% "        <exampleNumber>7872345678</exampleNumber>\n",
   str% "        <nationalNumberPattern>\n",
   str% "          (?:\n",
   str% "            787|\n",
   str% "            939\n",
   str% "          )[2-9]\\d{6}\n",
   str% "        </nationalNumberPattern>\n",
   str% "      </mobile>\n",
   str% "      <tollFree>\n",
   str% "        <possibleLengths national=\"10\"/>\n",
   str% "        <exampleNumber>8002345678</exampleNumber>\n",
   str% "        <nationalNumberPattern>\n",
   str% "          8(?:\n",
   str% "            00|\n",
   str% "            33|\n",
   str% "            44|\n",
   str% "            55|\n",
   str% "            66|\n",
   str% "            77|\n",
   str% "            88\n",
   str% "          )[2-9]\\d{6}\n",
   str% "        </nationalNumberPattern>\n",
   str% "      </tollFree>\n",
   str% "      <premiumRate>\n",
   str% "        <possibleLengths national=\"10\"/>\n",
   str% "        <exampleNumber>9002345678</exampleNumber>\n",
   str% "        <nationalNumberPattern>900[2-9]\\d{6}</nationalNumberPattern>\n",
   str% "      </premiumRate>\n",
   str% "      <!-- https://www.nationalnanpa.com/number_resource_info/5XX_codes.html -->\n",
   str% "      <personalNumber>\n",
   str% "        <possibleLengths national=\"10\"/>\n",
   str% "        <exampleNumber>5002345678</exampleNumber>\n",
   str% "        <nationalNumberPattern>\n",
   str% "          52(?:\n",
   str% "            3(?:\n",
   str% "              [2-46-9][02-9]\\d|\n",
   str% "              5(?:\n",
   str% "                [02-46-9]\\d|\n",
   str% "                5[0-46-9]\n",
   str% "              )\n",
   str% "            )|\n",
   str% "            4(?:\n",
   str% "              [2-478][02-9]\\d|\n",
   str% "              5(?:\n",
   str% "                [034]\\d|\n",
   str% "                2[024-9]|\n",
   str% "                5[0-46-9]\n",
   str% "              )|\n",
   str% "              6(?:\n",
   str% "                0[1-9]|\n",
   str% "                [2-9]\\d\n",
   str% "              )|\n",
   str% "              9(?:\n",
   str% "                [05-9]\\d|\n",
   str% "                2[0-5]|\n",
   str% "                49\n",
   str% "              )\n",
   str% "            )\n",
   str% "          )\\d{4}|\n",
   str% "          52[34][2-9]1[02-9]\\d{4}|\n",
   str% "          5(?:\n",
   str% "            00|\n",
   str% "            2[125-9]|\n",
   str% "            3[23]|\n",
   str% "            44|\n",
   str% "            66|\n",
   str% "            77|\n",
   str% "            88\n",
   str% "          )[2-9]\\d{6}\n",
   str% "        </nationalNumberPattern>\n",
   str% "      </personalNumber>\n",
   str% "    </territory>"]

/-- the text up to the end of territory id=PS countryCode=970 -/
noncomputable def PS : List Str :=
  [str% "\n",
   str% "\n",
   str% "    <!-- Palestine (PS) -->\n",
   str% "    <!-- Palestinian phone numbers can be reached through the Israeli country code (972) in addition\n",
   str% "         to the Palestinian country code (970) and so Palestinian landlines and mobile lines are a\n",
   str% "         subset of the Israeli formats. -->\n",
   str% "    <!-- http://en.wikipedia.org/wiki/%2B970 -->\n",
   str% "    <!-- http://www.wtng.info/wtng-970-ps.html -->\n",
   str% "    <!-- http://www.paltel.ps -->\n",
   str% "    <territory id=\"PS\" countryCode=\"970\" internationalPrefix=\"00\" nationalPrefix=\"0\">\n",
   str% "      <availableFormats>\n",
   str% "        <numberFormat pattern=\"(\\d)(\\d{3})(\\d{4})\" nationalPrefixFormattingRule=\"$NP$FG\">\n",
   str% "          <leadingDigits>[2489]</leadingDigits>\n",
   str% "          <format>$1 $2 $3</format>\n",
   str% "        </numberFormat>\n",
   str% "        <numberFormat pattern=\"(\\d{3})(\\d{3})(\\d{3})\" nationalPrefixFormattingRule=\"$NP$FG\">\n",
   str% "          <leadingDigits>5</leadingDigits>\n",
   str% "          <format>$1 $2 $3</format>\n",
   str% "        </numberFormat>\n",
   str% "        <numberFormat pattern=\"(\\d{4})(\\d{3})(\\d{3})\">\n",
   str% "          <leadingDigits>1</leadingDigits>\n",
   str% "          <format>$1 $2 $3</format>\n",
   str% "        </numberFormat>\n",
   str% "      </availableFormats>\n",
   str% "      <generalDesc>\n",
   str% "        <nationalNumberPattern>\n",
   str% "          [2489]2\\d{6}|\n",
   str% "          (?:\n",
   str% "            1\\d|\n",
   str% "            5\n",
   str% "          )\\d{8}\n",
   str% "        </nationalNumberPattern>\n",
   str% "      </generalDesc>\n",
   str% "      <fixedLine>\n",
   str% "        <possibleLengths national=\"8\" localOnly=\"7\"/>\n",
   str% "        <exampleNumber>22234567</exampleNumber>\n",
   str% "        <nationalNumberPattern>\n",
   str% "          (?:\n",
   str% "            22[2-47-9]|\n",
   str% "            42[45]|\n",
   str% "            82[014-68]|\n",
   str% "            92[3569]\n",
   str% "          )\\d{5}\n",
   str% "        </nationalNumberPattern>\n",
   str% "      </fixedLine>\n",
   str% "      <mobile>\n",
   str% "        <possibleLengths national=\"9\"/>\n",
   str% "        <exampleNumber>599123456</exampleNumber>\n",
   str% "        <nationalNumberPattern>5[69]\\d{7}</nationalNumberPattern>\n",
   str% "      </mobile>\n",
   str% "      <tollFree>\n",
   str% "        <possibleLengths national=\"10\"/>\n",
   str% "        <exampleNumber>1800123456</exampleNumber>\n",
   str% "        <nationalNumberPattern>1800\\d{6}</nationalNumberPattern>\n",
   str% "      </tollFree>\n",
   str% "      <sharedCost>\n",
   str% "        <possibleLengths national=\"10\"/>\n",
   str% "        <exampleNumber>1700123456</exampleNumber>\n",
   str% "        <nationalNumberPattern>1700\\d{6}</nationalNumberPattern>\n",
   str% "      </sharedCost>\n",
   str% "    </territory>"]

/-- the text up to the end of territory id=PT countryCode=351 -/
noncomputable def PT : List Str :=
  [str% "\n",
   str% "\n",
   str% "    <!-- Portugal (PT) -->\n",
   str% "    <!-- http://www.anacom.pt/render.jsp?categoryId=279098 -->\n",
   str% "    <territory id=\"PT\" countryCode=\"351\" internationalPrefix=\"00\" mobileNumberPortableRegion=\"true\">\n",
   str% "      <availableFormats>\n",
   str% "        <!-- Note: the wikipedia page suggests that mobile numbers may also be formatted with only\n",
   str% "             two digits in the first group; however, this doesn't seem to be majority usage based on\n",
   str% "             searches online. -->\n",
   str% "        <numberFormat pattern=\"(\\d{2})(\\d{3})(\\d{4})\">\n",
   str% "          <leadingDigits>2[12]</leadingDigits>\n",
   str% "          <format>$1 $2 $3</format>\n",
   str% "        </numberFormat>\n",
   str% "        <numberFormat pattern=\"(\\d{3})(\\d{3})(\\d{3})\">\n",
   str% "          <leadingDigits>\n",
   str% "            16|\n",
   str% "            [236-9]\n",
   str% "          </leadingDigits>\n",
   str% "          <format>$1 $2 $3</format>\n",
   str% "        </numberFormat>\n",
   str% "      </availableFormats>\n",
   str% "      <generalDesc>\n",
   str% "        <nationalNumberPattern>\n",
   str% "          1693\\d{5}|\n",
   str% "          (?:\n",
   str% "            [26-9]\\d|\n",
   str% "            30\n",
   str% "          )\\d{7}\n",
   str% "        </nationalNumberPattern>\n",
   str% "      </generalDesc>\n",
   str% "      <fixedLine>\n",
   str% "        <possibleLengths national=\"9\"/>\n",
   str% "        <exampleNumber>212345678</exampleNumber>\n",
   str% "        <nationalNumberPattern>\n",
   str% "          2(?:\n",
   str% "            [12]\\d|\n",
   str% "            3[1-689]|\n",
   str% "            4[1-59]|\n",
   str% "            [57][1-9]|\n",
   str% "            6[1-35689]|\n",
   str% "            8[1-69]|\n",
   str% "            9[1256]\n",
   str% "          )\\d{6}\n",
   str% "        </nationalNumberPattern>\n",
   str% "      </fixedLine>\n",
   str% "      <mobile>\n",
   str% "        <possibleLengths national=\"9\"/>\n",
   str% "        <exampleNumber>912345678</exampleNumber>\n",
   str% "        <nationalNumberPattern>\n",
   str% "          6(?:\n",
   str% "            [06]92(?:\n",
   str% "              30|\n",
   str% "              9\\d\n",
   str% "            )|\n",
   str% "            [35]92(?:\n",
   str% "              [049]\\d|\n",
   str% "              3[034]\n",
   str% "            )\n",
   str% "          )\\d{3}|\n",
   str% "          (?:\n",
   str% "            (?:\n",
   str% "              16|\n",
   str% "              6[0356]\n",
   str% "            )93|\n",
   str% "            9(?:\n",
   str% "              [1-36]\\d\\d|\n",
   str% "              480\n",
   str% "            )\n",
   str% "          )\\d{5}\n",
   str% "        </nationalNumberPattern>\n",
   str% "      </mobile>\n",
   str% "      <pager>\n",
   str% "        <possibleLengths national=\"9\"/>\n",
   str% "        <exampleNumber>622212345</exampleNumber>\n",
   str% "        <nationalNumberPattern>\n",
   str% "          6(?:\n",
   str% "            222\\d|\n",
   str% "            89(?:\n",
   str% "              00|\n",
   str% "              88|\n",
   str% "              99\n",
   str% "            )\n",
   str% "          )\\d{4}\n",
   str% "        </nationalNumberPattern>\n",
   str% "      </pager>\n",
   str% "      <tollFree>\n",
   str% "        <possibleLengths national=\"9\"/>\n",
   str% "        <exampleNumber>800123456</exampleNumber>\n",
   str% "        <nationalNumberPattern>80[02]\\d{6}</nationalNumberPattern>\n",
   str% "      </tollFree>\n",
   str% "      <!-- Fixed maximum cost numbers: 761=0.60\u20AC, 761=1\u20AC, 762=2\u20AC. -->\n",
   str% "      <!-- Audio Text prefixes 601,607,608,646 and 648 added here -->\n",
   str% "      <premiumRate>\n",
   str% "        <possibleLengths national=\"9\"/>\n",
   str% "        <exampleNumber>760123456</exampleNumber>\n",
   str% "        <nationalNumberPattern>\n",
   str% "          (?:\n",
   str% "            6(?:\n",
   str% "              0[178]|\n",
   str% "              4[68]\n",
   str% "            )\\d|\n",
   str% "            76(?:\n",
   str% "              0[1-57]|\n",
   str% "              1[2-47]|\n",
   str% "              2[237]\n",
   str% "            )\n",
   str% "          )\\d{5}\n",
   str% "        </nationalNumberPattern>\n",
   str% "      </premiumRate>\n",
   str% "      <!-- 808 are priced as local calls, 809 are national calls. -->\n",
   str% "      <sharedCost>\n",
   str% "        <possibleLengths national=\"9\"/>\n",
   str% "        <exampleNumber>808123456</exampleNumber>\n",
   str% "        <nationalNumberPattern>\n",
   str% "          80(?:\n",
   str% "            8\\d|\n",
   str% "            9[1579]\n",
   str% "          )\\d{5}\n",
   str% "        </nationalNumberPattern>\n",
   str% "      </sharedCost>\n",
   str% "      <personalNumber>\n",
   str% "        <possibleLengths national=\"9\"/>\n",
   str% "        <exampleNumber>884123456</exampleNumber>\n",
   str% "        <nationalNumberPattern>884[0-4689]\\d{5}</nationalNumberPattern>\n",
   str% "      </personalNumber>\n",
   str% "      <voip>\n",
   str% "        <possibleLengths national=\"9\"/>\n",
   str% "        <exampleNumber>301234567</exampleNumber>\n",
   str% "        <nationalNumberPattern>30\\d{7}</nationalNumberPattern>\n",
   str% "      </voip>\n",
   str% "      <uan>\n",
   str% "        <possibleLengths national=\"9\"/>\n",
   str% "        <exampleNumber>707123456</exampleNumber>\n",
   str% "        <nationalNumberPattern>\n",
   str% "          70(?:\n",
   str% "            38[01]|\n",
   str% "            596|\n",
   str% "            (?:\n",
   str% "              7\\d|\n",
   str% "              8[17]\n",
   str% "            )\\d\n",
   str% "          )\\d{4}\n",
   str% "        </nationalNumberPattern>\n",
   str% "      </uan>\n",
   str% "      <voicemail>\n",
   str% "        <possibleLengths national=\"9\"/>\n",
   str% "        <exampleNumber>600110000</exampleNumber>\n",
   str% "        <nationalNumberPattern>\n",
   str% "          600\\d{6}|\n",
   str% "          6[06]92(?:\n",
   str% "            0\\d|\n",
   str% "            3[349]|\n",
   str% "            49\n",
   str% "          )\\d{3}\n",
   str% "        </nationalNumberPattern>\n",
   str% "      </voicemail>\n",
   str% "    </territory>"]

/-- the text up to the end of territory id=PW countryCode=680 -/
noncomputable def PW : List Str :=
  [str% "\n",
   str% "\n",
   str% "    <!-- Palau (PW) -->\n",
   str% "    <!-- http://www.itu.int/oth/T02020000A2/en -->\n",
   str% "    <territory id=\"PW\" countryCode=\"680\" internationalPrefix=\"01[12]\">\n",
   str% "      <availableFormats>\n",
   str% "        <numberFormat pattern=\"(\\d{3})(\\d{4})\">\n",
   str% "          <leadingDigits>[2-9]</leadingDigits>\n",
   str% "          <format>$1 $2</format>\n",
   str% "        </numberFormat>\n",
   str% "      </availableFormats>\n",
   str% "      <generalDesc>\n",
   str% "        <nationalNumberPattern>\n",
   str% "          (?:\n",
   str% "            [24-8]\\d\\d|\n",
   str% "            345|\n",
   str% "            900\n",
   str% "          )\\d{4}\n",
   str% "        </nationalNumberPattern>\n",
   str% "      </generalDesc>\n",
   str% "      <!-- 900XXXX is mentioned as fixed-line and \"PNCC/Operator Services\". Might be carrier\n",
   str% "           specific services of PNCC network. As we do not have carrier specific category in phone\n",
   str% "           metadata, adding support to it here. -->\n",
   str% "      <fixedLine>\n",
   str% "        <possibleLengths national=\"7\"/>\n",
   str% "        <exampleNumber>2771234</exampleNumber>\n",
   str% "        <nationalNumberPattern>\n",
   str% "          (?:\n",
   str% "            2(?:\n",
   str% "              55|\n",
   str% "              77\n",
   str% "            )|\n",
   str% "            345|\n",
   str% "            488|\n",
   str% "            5(?:\n",
   str% "              35|\n",
   str% "              44|\n",
   str% "              87\n",
   str% "            )|\n",
   str% "            6(?:\n",
   str% "              22|\n",
   str% "              54|\n",
   str% "              79\n",
   str% "            )|\n",
   str% "            7(?:\n",
   str% "              33|\n",
   str% "              47\n",
   str% "            )|\n",
   str% "            8(?:\n",
   str% "              24|\n",
   str% "              55|\n",
   str% "              76\n",
   str% "            )|\n",
   str% "            900\n",
   str% "          )\\d{4}\n",
   str% "        </nationalNumberPattern>\n",
   str% "      </fixedLine>\n",
   str% "      <mobile>\n",
   str% "        <possibleLengths national=\"7\"/>\n",
   str% "        <exampleNumber>6201234</exampleNumber>\n",
   str% "        <nationalNumberPattern>\n",
   str% "          (?:\n",
   str% "            (?:\n",
   str% "              46|\n",
   str% "              83\n",
   str% "            )[0-5]|\n",
   str% "            (?:\n",
   str% "              6[2-4689]|\n",
   str% "              78\n",
   str% "            )0\n",
   str% "          )\\d{4}|\n",
   str% "          (?:\n",
   str% "            45|\n",
   str% "            77|\n",
   str% "            88\n",
   str% "          )\\d{5}\n",
   str% "        </nationalNumberPattern>\n",
   str% "      </mobile>\n",
   str% "    </territory>"]

/-- the text up to the end of territory id=PY countryCode=595 -/
noncomputable def PY : List Str :=
  [str% "\n",
   str% "\n",
   str% "    <!-- Paraguay (PY) -->\n",
   str% "    <!-- http://en.wikipedia.org/wiki/Telephone_numbers_in_Paraguay -->\n",
   str% "    <!-- http://www.itu.int/oth/T02020000A5/en -->\n",
   str% "    <!-- http://www.copaco.com.py/portal/index.php/component/content/article/8-empresa/74-codigos-de-area.html -->\n",
   str% "    <!-- Number formats of landline numbers are based on online references. -->\n",
   str% "    <territory id=\"PY\" countryCode=\"595\" internationalPrefix=\"00\" nationalPrefix=\"0\"\n",
   str% "               mobileNumberPortableRegion=\"true\">\n",
   str% "      <availableFormats>\n",
   str% "        <!-- Block format for Shortcodes -->\n",
   str% "        <numberFormat pattern=\"(\\d{6,7})\">\n",
   str% "          <leadingDigits>\n",
   str% "            [125]|\n",
   str% "            4[01]\n",
   str% "          </leadingDigits>\n",
   str% "          <format>$1</format>\n",
   str% "          <intlFormat>NA</intlFormat>\n",
   str% "        </numberFormat>\n",
   str% "        <numberFormat pattern=\"(\\d{3})(\\d{3,6})\" nationalPrefixFormattingRule=\"$NP$FG\">\n",
   str% "          <leadingDigits>[2-9]0</leadingDigits>\n",
   str% "          <format>$1 $2</format>\n",
   str% "        </numberFormat>\n",
   str% "        <!-- 7-digit fixed line -->\n",
   str% "        <numberFormat pattern=\"(\\d{2})(\\d{5})\" nationalPrefixFormattingRule=\"($NP$FG)\">\n",
   str% "          <leadingDigits>\n",
   str% "            3[289]|\n",
   str% "            4[246-8]|\n",
   str% "            61|\n",
   str% "            7[1-3]|\n",
   str% "            8[1-36]\n",
   str% "          </leadingDigits>\n",
   str% "          <format>$1 $2</format>\n",
   str% "        </numberFormat>\n",
   str% "        <!-- 7 or 8-digit fixed line numbers (without a 9-digit variant) -->\n",
   str% "        <numberFormat pattern=\"(\\d{3})(\\d{4,5})\" nationalPrefixFormattingRule=\"($NP$FG)\">\n",
   str% "          <leadingDigits>\n",
   str% "            2[279]|\n",
   str% "            3[13-5]|\n",
   str% "            4[359]|\n",
   str% "            5|\n",
   str% "            6(?:\n",
   str% "              [34]|\n",
   str% "              7[1-46-8]\n",
   str% "            )|\n",
   str% "            7[46-8]|\n",
   str% "            85\n",
   str% "          </leadingDigits>\n",
   str% "          <format>$1 $2</format>\n",
   str% "        </numberFormat>\n",
   str% "        <!-- 8 or 9-digit fixed line numbers where a 7-digit variant exists -->\n",
   str% "        <numberFormat pattern=\"(\\d{2})(\\d{3})(\\d{3,4})\" nationalPrefixFormattingRule=\"($NP$FG)\">\n",
   str% "          <leadingDigits>\n",
   str% "            2[14-68]|\n",
   str% "            3[26-9]|\n",
   str% "            4[1246-8]|\n",
   str% "            6(?:\n",
   str% "              1|\n",
   str% "              75\n",
   str% "            )|\n",
   str% "            7[1-35]|\n",
   str% "            8[1-36]\n",
   str% "          </leadingDigits>\n",
   str% "          <format>$1 $2 $3</format>\n",
   str% "        </numberFormat>\n",
   str% "        <!-- Format seen in examples found online. -->\n",
   str% "        <numberFormat pattern=\"(\\d{2})(\\d{3})(\\d{4})\">\n",
   str% "          <leadingDigits>87</leadingDigits>\n",
   str% "          <format>$1 $2 $3</format>\n",
   str% "        </numberFormat>\n",
   str% "        <numberFormat pattern=\"(\\d{3})(\\d{6})\" nationalPrefixFormattingRule=\"$NP$FG\">\n",
   str% "          <leadingDigits>\n",
   str% "            9(?:\n",
   str% "              [5-79]|\n",
   str% "              8[1-7]\n",
   str% "            )\n",
   str% "          </leadingDigits>\n",
   str% "          <format>$1 $2</format>\n",
   str% "        </numberFormat>\n",
   str% "        <numberFormat pattern=\"(\\d{3})(\\d{3})(\\d{3})\" nationalPrefixFormattingRule=\"$NP$FG\">\n",
   str% "          <leadingDigits>[2-8]</leadingDigits>\n",
   str% "          <format>$1 $2 $3</format>\n",
   str% "        </numberFormat>\n",
   str% "        <!-- 11 digit toll free numbers -->\n",
   str% "        <numberFormat pattern=\"(\\d{4})(\\d{3})(\\d{4})\">\n",
   str% "          <leadingDigits>9</leadingDigits>\n",
   str% "          <format>$1 $2 $3</format>\n",
   str% "        </numberFormat>\n",
   str% "      </availableFormats>\n",
   str% "      <generalDesc>\n",
   str% "        <nationalNumberPattern>\n",
   str% "          [36-8]\\d{5,8}|\n",
   str% "          4\\d{6,8}|\n",
   str% "          59\\d{6}|\n",
   str% "          9\\d{5,10}|\n",
   str% "          (?:\n",
   str% "            2\\d|\n",
   str% "            5[0-8]\n",
   str% "          )\\d{6,7}\n",
   str% "        </nationalNumberPattern>\n",
   str% "      </generalDesc>\n",
   str% "      <fixedLine>\n",
   str% "        <possibleLengths national=\"[7-9]\" localOnly=\"5,6\"/>\n",
   str% "        <exampleNumber>212345678</exampleNumber>\n",
   str% "        <nationalNumberPattern>\n",
   str% "          (?:\n",
   str% "            3[289]|\n",
   str% "            4[246-8]|\n",
   str% "            61|\n",
   str% "            7[1-3]|\n",
   str% "            8[1-36]\n",
   str% "          )\\d{5,7}|\n",
   str% "          (?:\n",
   str% "            2(?:\n",
   str% "              [14-68]\\d|\n",
   str% "              2[4-68]|\n",
   str% "              7[15]|\n",
   str% "              9[1-5]\n",
   str% "            )|\n",
   str% "            3(?:\n",
   str% "              18|\n",
   str% "              3[167]|\n",
   str% "              4[2357]|\n",
   str% "              51|\n",
   str% "              [67]\\d\n",
   str% "            )|\n",
   str% "            4(?:\n",
   str% "              1\\d|\n",
   str% "              3[12]|\n",
   str% "              5[13]|\n",
   str% "              9[1-47]\n",
   str% "            )|\n",
   str% "            5(?:\n",
   str% "              [1-4]\\d|\n",
   str% "              5[02-4]\n",
   str% "            )|\n",
   str% "            6(?:\n",
   str% "              3[1-3]|\n",
   str% "              44|\n",
   str% "              7[1-8]\n",
   str% "            )|\n",
   str% "            7(?:\n",
   str% "              4[0-4]|\n",
   str% "              5\\d|\n",
   str% "              6[1-578]|\n",
   str% "              75|\n",
   str% "              8[0-8]\n",
   str% "            )|\n",
   str% "            858\n",
   str% "          )\\d{5,6}\n",
   str% "        </nationalNumberPattern>\n",
   str% "      </fixedLine>\n",
   str% "      <mobile>\n",
   str% "        <possibleLengths national=\"9\"/>\n",
   str% "        <exampleNumber>961456789</exampleNumber>\n",
   str% "        <nationalNumberPattern>\n",
   str% "          9(?:\n",
   str% "            51|\n",
   str% "            6[129]|\n",
   str% "            7[1-6]|\n",
   str% "            8[1-7]|\n",
   str% "            9[1-5]\n",
   str% "          )\\d{6}\n",
   str% "        </nationalNumberPattern>\n",
   str% "      </mobile>\n",
   str% "      <tollFree>\n",
   str% "        <possibleLengths national=\"[9-11]\"/>\n",
   str% "        <exampleNumber>98000123456</exampleNumber>\n",
   str% "        <nationalNumberPattern>9800\\d{5,7}</nationalNumberPattern>\n",
   str% "      </tollFree>\n",
   str% "      <voip>\n",
   str% "        <possibleLengths national=\"9\"/>\n",
   str% "        <exampleNumber>870012345</exampleNumber>\n",
   str% "        <nationalNumberPattern>8700[0-4]\\d{4}</nationalNumberPattern>\n",
   str% "      </voip>\n",
   str% "      <uan>\n",
   str% "        <possibleLengths national=\"[6-9]\"/>\n",
   str% "        <exampleNumber>201234567</exampleNumber>\n",
   str% "        <nationalNumberPattern>\n",
   str% "          [245]0\\d{6,7}|\n",
   str% "          [36-9]0\\d{4,7}\n",
   str% "        </nationalNumberPattern>\n",
   str% "      </uan>\n",
   str% "    </territory>"]

/-- the text up to the end of territory id=QA countryCode=974 -/
noncomputable def QA : List Str :=
  [str% "\n",
   str% "\n",
   str% "    <!-- Qatar (QA) -->\n",
   str% "    <!-- No premiumRate information can be found. -->\n",
   str% "    <!-- http://www.itu.int/oth/T02020000AB/en -->\n",
   str% "    <!-- http://wtng.info/wtng-qq.html -->\n",
   str% "    <territory id=\"QA\" countryCode=\"974\" internationalPrefix=\"00\" mobileNumberPortableRegion=\"true\">\n",
   str% "      <availableFormats>\n",
   str% "        <numberFormat pattern=\"(\\d{3})(\\d{4})\">\n",
   str% "          <leadingDigits>\n",
   str% "            2[136]|\n",
   str% "            8\n",
   str% "          </leadingDigits>\n",
   str% "          <format>$1 $2</format>\n",
   str% "        </numberFormat>\n",
   str% "        <numberFormat pattern=\"(\\d{4})(\\d{4})\">\n",
   str% "          <leadingDigits>[3-7]</leadingDigits>\n",
   str% "          <format>$1 $2</format>\n",
   str% "        </numberFormat>\n",
   str% "      </availableFormats>\n",
   str% "      <generalDesc>\n",
   str% "        <nationalNumberPattern>\n",
   str% "          800\\d{4}|\n",
   str% "          (?:\n",
   str% "            2|\n",
   str% "            800\n",
   str% "          )\\d{6}|\n",
   str% "          (?:\n",
   str% "            0080|\n",
   str% "            [3-7]\n",
   str% "          )\\d{7}\n",
   str% "        </nationalNumberPattern>\n",
   str% "      </generalDesc>\n",
   str% "      <!-- The prefix 40 has now been allocated, based on numbers seen online.\n",
   str% "           Prefix 414[1-4] is added based on user report and online numbers. -->\n",
   str% "      <fixedLine>\n",
   str% "        <possibleLengths national=\"8\"/>\n",
   str% "        <exampleNumber>44123456</exampleNumber>\n",
   str% "        <nationalNumberPattern>\n",
   str% "          4(?:\n",
   str% "            (?:\n",
   str% "              [014]\\d\\d|\n",
   str% "              999\n",
   str% "            )\\d|\n",
   str% "            2022\n",
   str% "          )\\d{3}\n",
   str% "        </nationalNumberPattern>\n",
   str% "      </fixedLine>\n",
   str% "      <mobile>\n",
   str% "        <possibleLengths national=\"8\"/>\n",
   str% "        <exampleNumber>33123456</exampleNumber>\n",
   str% "        <nationalNumberPattern>[35-7]\\d{7}</nationalNumberPattern>\n",
   str% "      </mobile>\n",
   str% "      <pager>\n",
   str% "        <possibleLengths national=\"7\"/>\n",
   str% "        <exampleNumber>2123456</exampleNumber>\n",
   str% "        <nationalNumberPattern>2[136]\\d{5}</nationalNumberPattern>\n",
   str% "      </pager>\n",
   str% "      <!-- Prefix 800 with 9 digit length is added based on user report. -->\n",
   str% "      <tollFree>\n",
   str% "        <possibleLengths national=\"7,9,11\"/>\n",
   str% "        <exampleNumber>8001234</exampleNumber>\n",
   str% "        <nationalNumberPattern>\n",
   str% "          800\\d{4}|\n",
   str% "          (?:\n",
   str% "            0080[01]|\n",
   str% "            800\n",
   str% "          )\\d{6}\n",
   str% "        </nationalNumberPattern>\n",
   str% "      </tollFree>\n",
   str% "    </territory>"]

/-- the text up to the end of territory id=RE countryCode=262 -/
noncomputable def RE : List Str :=
  [str% "\n",
   str% "\n",
   str% "    <!-- R\u00E9union (RE) -->\n",
   str% "    <!-- Main region for 'YT' -->\n",
   str% "    <!-- http://www.itu.int/oth/T020200004B/en -->\n",
   str% "    <!-- http://www.arcep.fr/index.php?id=2137&bloc=0596&CMD=RESULTS_NUMEROTATION -->\n",
   str% "    <territory id=\"RE\" mainCountryForCode=\"true\" countryCode=\"262\" internationalPrefix=\"00\"\n",
   str% "               nationalPrefix=\"0\">\n",
   str% "      <availableFormats>\n",
   str% "        <numberFormat pattern=\"(\\d{3})(\\d{2})(\\d{2})(\\d{2})\" nationalPrefixFormattingRule=\"$NP$FG\">\n",
   str% "          <leadingDigits>[26-9]</leadingDigits>\n",
   str% "          <format>$1 $2 $3 $4</format>\n",
   str% "        </numberFormat>\n",
   str% "      </availableFormats>\n",
   str% "      <generalDesc>\n",
   str% "        <nationalNumberPattern>\n",
   str% "          709\\d{6}|\n",
   str% "          (?:\n",
   str% "            26|\n",
   str% "            [689]\\d\n",
   str% "          )\\d{7}\n",
   str% "        </nationalNumberPattern>\n",
   str% "      </generalDesc>\n",
   str% "      <!-- 0876 numbers are mentioned in the plan, but none in use can be found. -->\n",
   str% "      <fixedLine>\n",
   str% "        <possibleLengths national=\"9\"/>\n",
   str% "        <exampleNumber>262161234</exampleNumber>\n",
   str% "        <nationalNumberPattern>\n",
   str% "          2631[0-6]\\d{4}|\n",
   str% "          26(?:\n",
   str% "            2\\d|\n",
   str% "            30|\n",
   str% "            88\n",
   str% "          )\\d{5}\n",
   str% "        </nationalNumberPattern>\n",
   str% "      </fixedLine>\n",
   str% "      <mobile>\n",
   str% "        <possibleLengths national=\"9\"/>\n",
   str% "        <exampleNumber>692123456</exampleNumber>\n",
   str% "        <nationalNumberPattern>\n",
   str% "          (?:\n",
   str% "            69(?:\n",
   str% "              2\\d\\d|\n",
   str% "              3(?:\n",
   str% "                [06][0-6]|\n",
   str% "                1[0-3]|\n",
   str% "                2[0-2]|\n",
   str% "                3[0-39]|\n",
   str% "                4\\d|\n",
   str% "                5[0-5]|\n",
   str% "                7[0-37]|\n",
   str% "                8[0-8]|\n",
   str% "                9[0-479]\n",
   str% "              )\n",
   str% "            )|\n",
   str% "            7092[0-3]\n",
   str% "          )\\d{4}\n",
   str% "        </nationalNumberPattern>\n",
   str% "      </mobile>\n",
   str% "      <!-- 08* Numbers in R\u00E9union are the same as those valid in France. -->\n",
   str% "      <tollFree>\n",
   str% "        <possibleLengths national=\"9\"/>\n",
   str% "        <exampleNumber>801234567</exampleNumber>\n",
   str% "        <nationalNumberPattern>80\\d{7}</nationalNumberPattern>\n",
   str% "      </tollFree>\n",
   str% "      <premiumRate>\n",
   str% "        <possibleLengths national=\"9\"/>\n",
   str% "        <exampleNumber>891123456</exampleNumber>\n",
   str% "        <nationalNumberPattern>89[1-37-9]\\d{6}</nationalNumberPattern>\n",
   str% "      </premiumRate>\n",
   str% "      <sharedCost>\n",
   str% "        <possibleLengths national=\"9\"/>\n",
   str% "        <exampleNumber>810123456</exampleNumber>\n",
   str% "        <nationalNumberPattern>\n",
   str% "          8(?:\n",
   str% "            1[019]|\n",
   str% "            2[0156]|\n",
   str% "            84|\n",
   str% "            90\n",
   str% "          )\\d{6}\n",
   str% "        </nationalNumberPattern>\n",
   str% "      </sharedCost>\n",
   str% "      <voip>\n",
   str% "        <possibleLengths national=\"9\"/>\n",
   str% "        <exampleNumber>939901234</exampleNumber>\n",
   str% "        <nationalNumberPattern>\n",
   str% "          9(?:\n",
   str% "            399[0-3]|\n",
   str% "            479[0-6]|\n",
   str% "            76(?:\n",
   str% "              2[278]|\n",
   str% "              3[0-37]\n",
   str% "            )\n",
   str% "          )\\d{4}\n",
   str% "        </nationalNumberPattern>\n",
   str% "      </voip>\n",
   str% "    </territory>"]

/-- the text up to the end of territory id=RO countryCode=40 -/
noncomputable def RO : List Str :=
  [str% "\n",
   str% "\n",
   str% "    <!-- Romania (RO) -->\n",
   str% "    <!-- Extension prefix found online, confirmed by a Romanian. -->\n",
   str% "    <!-- http://www.itu.int/oth/T02020000AC/en -->\n",
   str% "    <!-- http://en.wikipedia.org/wiki/Telephone_numbers_in_Romania -->\n",
   str% "    <!-- http://www.ancom.org.ro/en/presentation-of-romanian-national-numbering-plan-according-to-itu-t-recommendation-e129-_5523 -->\n",
   str% "    <territory id=\"RO\" countryCode=\"40\" internationalPrefix=\"00\" nationalPrefix=\"0\"\n",
   str% "               preferredExtnPrefix=\" int \" mobileNumberPortableRegion=\"true\">\n",
   str% "      <availableFormats>\n",
   str% "        <numberFormat pattern=\"(\\d{3})(\\d{3})\" nationalPrefixFormattingRule=\"$NP$FG\">\n",
   str% "          <leadingDigits>2[3-6]</leadingDigits>\n",
   str% "          <leadingDigits>2[3-6]\\d9</leadingDigits>\n",
   str% "          <format>$1 $2</format>\n",
   str% "        </numberFormat>\n",
   str% "        <numberFormat pattern=\"(\\d{2})(\\d{4})\" nationalPrefixFormattingRule=\"$NP$FG\">\n",
   str% "          <leadingDigits>\n",
   str% "            219|\n",
   str% "            31\n",
   str% "          </leadingDigits>\n",
   str% "          <format>$1 $2</format>\n",
   str% "        </numberFormat>\n",
   str% "        <numberFormat pattern=\"(\\d{2})(\\d{3})(\\d{4})\" nationalPrefixFormattingRule=\"$NP$FG\">\n",
   str% "          <leadingDigits>[23]1</leadingDigits>\n",
   str% "          <format>$1 $2 $3</format>\n",
   str% "        </numberFormat>\n",
   str% "        <!-- We format mobile numbers like this, even though ITU and wikipedia hint at\n",
   str% "             \\d{2}\\d{3}\\d{4} grouping, since the yellow pages (http://en.paginiaurii.ro/) and the\n",
   str% "             majority of numbers found online follow this convention. -->\n",
   str% "        <numberFormat pattern=\"(\\d{3})(\\d{3})(\\d{3})\" nationalPrefixFormattingRule=\"$NP$FG\">\n",
   str% "          <leadingDigits>[236-9]</leadingDigits>\n",
   str% "          <format>$1 $2 $3</format>\n",
   str% "        </numberFormat>\n",
   str% "      </availableFormats>\n",
   str% "      <generalDesc>\n",
   str% "        <nationalNumberPattern>\n",
   str% "          (?:\n",
   str% "            [236-8]\\d|\n",
   str% "            90\n",
   str% "          )\\d{7}|\n",
   str% "          [23]\\d{5}\n",
   str% "        </nationalNumberPattern>\n",
   str% "      </generalDesc>\n",
   str% "      <!-- We exclude three-digit short numbers for Bucharest (219\\d{2}) and four-digit short\n",
   str% "           numbers outside Bucharest (2[36]\\d9\\d{3}) even though ITU suggests these exist. We do\n",
   str% "           this based on numbers found online and the wikipedia article which indicate that these\n",
   str% "           are four digits long in Bucharest only, and three digits elsewhere. -->\n",
   str% "      <fixedLine>\n",
   str% "        <possibleLengths national=\"6,9\"/>\n",
   str% "        <exampleNumber>211234567</exampleNumber>\n",
   str% "        <nationalNumberPattern>\n",
   str% "          [23][13-6]\\d{7}|\n",
   str% "          (?:\n",
   str% "            2(?:\n",
   str% "              19\\d|\n",
   str% "              [3-6]\\d9\n",
   str% "            )|\n",
   str% "            31\\d\\d\n",
   str% "          )\\d\\d\n",
   str% "        </nationalNumberPattern>\n",
   str% "      </fixedLine>\n",
   str% "      <!-- http://www.enigma-system.net/business/customized-phone-number.html confirms that the\n",
   str% "           numbers are restricted to those starting with 07000. Mobile prefix 0799 added based on\n",
   str% "           open-source report and confirmation by existence of such numbers online.\n",
   str% "           As per Ancom official doc, mobile numbers can also begin with 6. However, we didn't\n",
   str% "           find any numbers online with this prefix, and the wikipedia source doesn't mention it,\n",
   str% "           so we do not support it for now. -->\n",
   str% "      <mobile>\n",
   str% "        <possibleLengths national=\"9\"/>\n",
   str% "        <exampleNumber>712034567</exampleNumber>\n",
   str% "        <nationalNumberPattern>\n",
   str% "          (?:\n",
   str% "            630|\n",
   str% "            702\n",
   str% "          )0\\d{5}|\n",
   str% "          (?:\n",
   str% "            6(?:\n",
   str% "              00|\n",
   str% "              2\\d\n",
   str% "            )|\n",
   str% "            7(?:\n",
   str% "              0[013-9]|\n",
   str% "              1[0-3]|\n",
   str% "              [2-7]\\d|\n",
   str% "              8[03-8]|\n",
   str% "              9[0-39]\n",
   str% "            )\n",
   str% "          )\\d{6}\n",
   str% "        </nationalNumberPattern>\n",
   str% "      </mobile>\n",
   str% "      <tollFree>\n",
   str% "        <possibleLengths national=\"9\"/>\n",
   str% "        <exampleNumber>800123456</exampleNumber>\n",
   str% "        <nationalNumberPattern>800\\d{6}</nationalNumberPattern>\n",
   str% "      </tollFree>\n",
   str% "      <premiumRate>\n",
   str% "        <possibleLengths national=\"9\"/>\n",
   str% "        <exampleNumber>900123456</exampleNumber>\n",
   str% "        <nationalNumberPattern>90[0136]\\d{6}</nationalNumberPattern>\n",
   str% "      </premiumRate>\n",
   str% "      <!-- 803\\d{6} shared cost number pattern is not included as we couldn't find any working\n",
   str% "           numbers online. -->\n",
   str% "      <sharedCost>\n",
   str% "        <possibleLengths national=\"9\"/>\n",
   str% "        <exampleNumber>801123456</exampleNumber>\n",
   str% "        <nationalNumberPattern>801\\d{6}</nationalNumberPattern>\n",
   str% "      </sharedCost>\n",
   str% "      <!-- http://www.ancom.org.ro/pnn_1300 refers to numbers beginning with 37, 38 or 39 as\n",
   str% "           location-independent national numbers. Only numbers beginning with 37 have been seen so\n",
   str% "           these are the only ones supported for now. -->\n",
   str% "      <uan>\n",
   str% "        <possibleLengths national=\"9\"/>\n",
   str% "        <exampleNumber>372123456</exampleNumber>\n",
   str% "        <nationalNumberPattern>\n",
   str% "          (?:\n",
   str% "            37\\d|\n",
   str% "            80[578]\n",
   str% "          )\\d{6}\n",
   str% "        </nationalNumberPattern>\n",
   str% "      </uan>\n",
   str% "    </territory>"]

/-- the text up to the end of territory id=RS countryCode=381 -/
noncomputable def RS : List Str :=
  [str% "\n",
   str% "\n",
   str% "    <!-- Serbia (RS) -->\n",
   str% "    <!-- http://www.itu.int/oth/T02020000B9/en -->\n",
   str% "    <!-- http://registar.ratel.rs/en/reg202 -->\n",
   str% "    <territory id=\"RS\" countryCode=\"381\" internationalPrefix=\"00\" nationalPrefix=\"0\"\n",
   str% "               mobileNumberPortableRegion=\"true\">\n",
   str% "      <availableFormats>\n",
   str% "        <!-- 3-digit prefix (fixed and mobile). -->\n",
   str% "        <numberFormat pattern=\"(\\d{3})(\\d{3,9})\" nationalPrefixFormattingRule=\"$NP$FG\">\n",
   str% "          <leadingDigits>\n",
   str% "            (?:\n",
   str% "              2[389]|\n",
   str% "              39\n",
   str% "            )0|\n",
   str% "            [7-9]\n",
   str% "          </leadingDigits>\n",
   str% "          <format>$1 $2</format>\n",
   str% "        </numberFormat>\n",
   str% "        <!-- 2-digit prefix (fixed line and mobile). -->\n",
   str% "        <numberFormat pattern=\"(\\d{2})(\\d{5,10})\" nationalPrefixFormattingRule=\"$NP$FG\">\n",
   str% "          <leadingDigits>[1-36]</leadingDigits>\n",
   str% "          <format>$1 $2</format>\n",
   str% "        </numberFormat>\n",
   str% "      </availableFormats>\n",
   str% "      <generalDesc>\n",
   str% "        <nationalNumberPattern>\n",
   str% "          38[02-9]\\d{6,9}|\n",
   str% "          6\\d{7,9}|\n",
   str% "          90\\d{4,8}|\n",
   str% "          38\\d{5,6}|\n",
   str% "          (?:\n",
   str% "            7\\d\\d|\n",
   str% "            800\n",
   str% "          )\\d{3,9}|\n",
   str% "          (?:\n",
   str% "            [12]\\d|\n",
   str% "            3[0-79]\n",
   str% "          )\\d{5,10}\n",
   str% "        </nationalNumberPattern>\n",
   str% "      </generalDesc>\n",
   str% "      <!-- Most subscriber numbers may not start with 0 or 1. Exceptionally, the prefix 11 1[5-7]\n",
   str% "           has been issused, so we allow 11 1X here. -->\n",
   str% "      <fixedLine>\n",
   str% "        <possibleLengths national=\"[7-12]\" localOnly=\"[4-6]\"/>\n",
   str% "        <exampleNumber>10234567</exampleNumber>\n",
   str% "        <nationalNumberPattern>\n",
   str% "          (?:\n",
   str% "            11[1-9]\\d|\n",
   str% "            (?:\n",
   str% "              2[389]|\n",
   str% "              39\n",
   str% "            )(?:\n",
   str% "              0[2-9]|\n",
   str% "              [2-9]\\d\n",
   str% "            )\n",
   str% "          )\\d{3,8}|\n",
   str% "          (?:\n",
   str% "            1[02-9]|\n",
   str% "            2[0-24-7]|\n",
   str% "            3[0-8]\n",
   str% "          )[2-9]\\d{4,9}\n",
   str% "        </nationalNumberPattern>\n",
   str% "      </fixedLine>\n",
   str% "      <mobile>\n",
   str% "        <possibleLengths national=\"[8-10]\"/>\n",
   str% "        <exampleNumber>601234567</exampleNumber>\n",
   str% "        <nationalNumberPattern>\n",
   str% "          6(?:\n",
   str% "            [0-689]|\n",
   str% "            7\\d\n",
   str% "          )\\d{6,7}\n",
   str% "        </nationalNumberPattern>\n",
   str% "      </mobile>\n",
   str% "      <tollFree>\n",
   str% "        <possibleLengths national=\"[6-12]\"/>\n",
   str% "        <exampleNumber>80012345</exampleNumber>\n",
   str% "        <nationalNumberPattern>800\\d{3,9}</nationalNumberPattern>\n",
   str% "      </tollFree>\n",
   str% "      <premiumRate>\n",
   str% "        <possibleLengths national=\"[6-10]\"/>\n",
   str% "        <exampleNumber>90012345</exampleNumber>\n",
   str% "        <nationalNumberPattern>\n",
   str% "          (?:\n",
   str% "            78\\d|\n",
   str% "            90[0169]\n",
   str% "          )\\d{3,7}\n",
   str% "        </nationalNumberPattern>\n",
   str% "      </premiumRate>\n",
   str% "      <uan>\n",
   str% "        <possibleLengths national=\"[6-12]\"/>\n",
   str% "        <exampleNumber>700123456</exampleNumber>\n",
   str% "        <nationalNumberPattern>7[06]\\d{4,10}</nationalNumberPattern>\n",
   str% "      </uan>\n",
   str% "    </territory>"]

/-- the text up to the end of territory id=RU countryCode=7 -/
noncomputable def RU : List Str :=
  [str% "\n",
   str% "\n",
   str% "    <!-- Russia (RU) -->\n",
   str% "    <!-- Main region for 'KZ' -->\n",
   str% "    <!-- http://www.itu.int/oth/T02020000AD/en -->\n",
   str% "    <!-- http://en.wikipedia.org/wiki/%2B7 -->\n",
   str% "    <!-- Formatting from wikipedia, confirmed on government websites such as\n",
   str% "         http://www.minjust.ru/ru/structure/contact/. Contains formatting instructions for\n",
   str% "         Kazakhstan as well. -->\n",
   str% "    <territory id=\"RU\" mainCountryForCode=\"true\" countryCode=\"7\" leadingDigits=\"[3489]\"\n",
   str% "               preferredInternationalPrefix=\"8~10\" internationalPrefix=\"810\" nationalPrefix=\"8\"\n",
   str% "               mobileNumberPortableRegion=\"true\">\n",
   str% "      <availableFormats>\n",
   str% "        <numberFormat pattern=\"(\\d{3})(\\d{2})(\\d{2})\">\n",
   str% "          <leadingDigits>[0-79]</leadingDigits>\n",
   str% "          <format>$1-$2-$3</format>\n",
   str% "          <intlFormat>NA</intlFormat>\n",
   str% "        </numberFormat>\n",
   str% "        <!-- Kazakhstan formatting only. -->\n",
   str% "        <numberFormat pattern=\"(\\d{4})(\\d{2})(\\d{2})(\\d{2})\"\n",
   str% "                      nationalPrefixFormattingRule=\"$NP ($FG)\"\n",
   str% "                      nationalPrefixOptionalWhenFormatting=\"true\">\n",
   str% "          <leadingDigits>\n",
   str% "            7(?:\n",
   str% "              1[0-8]|\n",
   str% "              2[1-9]\n",
   str% "            )\n",
   str% "          </leadingDigits>\n",
   str% "          <leadingDigits>\n",
   str% "            7(?:\n",
   str% "              1(?:\n",
   str% "                [0-356]2|\n",
   str% "                4[29]|\n",
   str% "                7|\n",
   str% "                8[27]\n",
   str% "              )|\n",
   str% "              2(?:\n",
   str% "                1[23]|\n",
   str% "                [2-9]2\n",
   str% "              )\n",
   str% "            )\n",
   str% "          </leadingDigits>\n",
   str% "          <leadingDigits>\n",
   str% "            7(?:\n",
   str% "              1(?:\n",
   str% "                [0-356]2|\n",
   str% "                4[29]|\n",
   str% "                7|\n",
   str% "                8[27]\n",
   str% "              )|\n",
   str% "              2(?:\n",
   str% "                13[03-69]|\n",
   str% "                62[013-9]\n",
   str% "              )\n",
   str% "            )|\n",
   str% "            72[1-57-9]2\n",
   str% "          </leadingDigits>\n",
   str% "          <format>$1 $2 $3 $4</format>\n",
   str% "        </numberFormat>\n",
   str% "        <!-- Kazakhstan formatting only. -->\n",
   str% "        <numberFormat pattern=\"(\\d{5})(\\d)(\\d{2})(\\d{2})\" nationalPrefixFormattingRule=\"$NP ($FG)\"\n",
   str% "                      nationalPrefixOptionalWhenFormatting=\"true\">\n",
   str% "          <leadingDigits>\n",
   str% "            7(?:\n",
   str% "              1[0-68]|\n",
   str% "              2[1-9]\n",
   str% "            )\n",
   str% "          </leadingDigits>\n",
   str% "          <leadingDigits>\n",
   str% "            7(?:\n",
   str% "              1(?:\n",
   str% "                [06][3-6]|\n",
   str% "                [18]|\n",
   str% "                2[35]|\n",
   str% "                [3-5][3-5]\n",
   str% "              )|\n",
   str% "              2(?:\n",
   str% "                [13][3-5]|\n",
   str% "                [24-689]|\n",
   str% "                7[457]\n",
   str% "              )\n",
   str% "            )\n",
   str% "          </leadingDigits>\n",
   str% "          <leadingDigits>\n",
   str% "            7(?:\n",
   str% "              1(?:\n",
   str% "                0(?:\n",
   str% "                  [356]|\n",
   str% "                  4[023]\n",
   str% "                )|\n",
   str% "                [18]|\n",
   str% "                2(?:\n",
   str% "                  3[013-9]|\n",
   str% "                  5\n",
   str% "                )|\n",
   str% "                3[45]|\n",
   str% "                43[013-79]|\n",
   str% "                5(?:\n",
   str% "                  3[1-8]|\n",
   str% "                  4[1-7]|\n",
   str% "                  5\n",
   str% "                )|\n",
   str% "                6(?:\n",
   str% "                  3[0-35-9]|\n",
   str% "                  [4-6]\n",
   str% "                )\n",
   str% "              )|\n",
   str% "              2(?:\n",
   str% "                1(?:\n",
   str% "                  3[178]|\n",
   str% "                  [45]\n",
   str% "                )|\n",
   str% "                [24-689]|\n",
   str% "                3[35]|\n",
   str% "                7[457]\n",
   str% "              )\n",
   str% "            )|\n",
   str% "            7(?:\n",
   str% "              14|\n",
   str% "              23\n",
   str% "            )4[0-8]|\n",
   str% "            71(?:\n",
   str% "              33|\n",
   str% "              45\n",
   str% "            )[1-79]\n",
   str% "          </leadingDigits>\n",
   str% "          <format>$1 $2 $3 $4</format>\n",
   str% "        </numberFormat>\n",
   str% "        <!-- Kazakhstan formatting only. -->\n",
   str% "        <numberFormat pattern=\"(\\d{3})(\\d{3})(\\d{4})\" nationalPrefixFormattingRule=\"$NP ($FG)\"\n",
   str% "                      nationalPrefixOptionalWhenFormatting=\"true\">\n",
   str% "          <leadingDigits>7</leadingDigits>\n",
   str% "          <format>$1 $2 $3</format>\n",
   str% "        </numberFormat>\n",
   str% "        <!-- Russian number formatting mostly, some minor overlap with shared ranges. -->\n",
   str% "        <numberFormat pattern=\"(\\d{3})(\\d{3})(\\d{2})(\\d{2})\"\n",
   str% "                      nationalPrefixFormattingRule=\"$NP ($FG)\"\n",
   str% "                      nationalPrefixOptionalWhenFormatting=\"true\">\n",
   str% "          <leadingDigits>\n",
   str% "            [349]|\n",
   str% "            8(?:\n",
   str% "              [02-7]|\n",
   str% "              1[1-8]\n",
   str% "            )\n",
   str% "          </leadingDigits>\n",
   str% "          <format>$1 $2-$3-$4</format>\n",
   str% "        </numberFormat>\n",
   str% "        <numberFormat pattern=\"(\\d{4})(\\d{4})(\\d{3})(\\d{3})\"\n",
   str% "                      nationalPrefixFormattingRule=\"$NP ($FG)\">\n",
   str% "          <leadingDigits>8</leadingDigits>\n",
   str% "          <format>$1 $2 $3 $4</format>\n",
   str% "        </numberFormat>\n",
   str% "      </availableFormats>\n",
   str% "      <generalDesc>\n",
   str% "        <nationalNumberPattern>\n",
   str% "          8\\d{13}|\n",
   str% "          [347-9]\\d{9}\n",
   str% "        </nationalNumberPattern>\n",
   str% "      </generalDesc>\n",
   str% "      <!-- The Ivanovo area code 493 was omitted on the official document, but this is still used\n",
   str% "           in the yellow pages, and on their own website and is listed on wikipedia. This applies\n",
   str% "           also to 395 (Irkutsk). Also including the 840 prefix for Abkhazia. -->\n",
   str% "      <fixedLine>\n",
   str% "        <possibleLengths national=\"10\" localOnly=\"7\"/>\n",
   str% "        <exampleNumber>3011234567</exampleNumber>\n",
   str% "        <nationalNumberPattern>\n",
   str% "          (?:\n",
   str% "            3(?:\n",
   str% "              0[12]|\n",
   str% "              36|\n",
   str% "              4[1-35-79]|\n",
   str% "              5[1-3]|\n",
   str% "              65|\n",
   str% "              8[1-58]|\n",
   str% "              9[0145]\n",
   str% "            )|\n",
   str% "            4(?:\n",
   str% "              01|\n",
   str% "              1[1356]|\n",
   str% "              2[13467]|\n",
   str% "              7[1-5]|\n",
   str% "              8[1-7]|\n",
   str% "              9[1-689]\n",
   str% "            )|\n",
   str% "            8(?:\n",
   str% "              1[1-8]|\n",
   str% "              2[01]|\n",
   str% "              3[13-6]|\n",
   str% "              4[0-8]|\n",
   str% "              5[15-7]|\n",
   str% "              6[0-35-79]|\n",
   str% "              7[1-37-9]\n",
   str% "            )\n",
   str% "          )\\d{7}\n",
   str% "        </nationalNumberPattern>\n",
   str% "      </fixedLine>\n",
   str% "      <mobile>\n",
   str% "        <possibleLengths national=\"10\"/>\n",
   str% "        <exampleNumber>9123456789</exampleNumber>\n",
   str% "        <nationalNumberPattern>9\\d{9}</nationalNumberPattern>\n",
   str% "      </mobile>\n",
   str% "      <!-- The metadata states that 804 numbers are UAN numbers, but\n",
   str% "           teleum.ru/numbers/toll_free_804 states that they are now being offered as toll-free\n",
   str% "           numbers. -->\n",
   str% "      <tollFree>\n",
   str% "        <possibleLengths national=\"10,14\"/>\n",
   str% "        <exampleNumber>8001234567</exampleNumber>\n",
   str% "        <nationalNumberPattern>\n",
   str% "          8(?:\n",
   str% "            0[04]|\n",
   str% "            108\\d{3}\n",
   str% "          )\\d{7}\n",
   str% "        </nationalNumberPattern>\n",
   str% "      </tollFree>\n",
   str% "      <!-- Covers tele-voting numbers as well. -->\n",
   str% "      <premiumRate>\n",
   str% "        <possibleLengths national=\"10\"/>\n",
   str% "        <exampleNumber>8091234567</exampleNumber>\n",
   str% "        <nationalNumberPattern>80[39]\\d{7}</nationalNumberPattern>\n",
   str% "      </premiumRate>\n",
   str% "      <!-- These are referred to as UPT numbers in the plan. -->\n",
   str% "      <personalNumber>\n",
   str% "        <possibleLengths national=\"10\"/>\n",
   str% "        <exampleNumber>8081234567</exampleNumber>\n",
   str% "        <nationalNumberPattern>808\\d{7}</nationalNumberPattern>\n",
   str% "      </personalNumber>\n",
   str% "    </territory>"]

/-- the text up to the end of territory id=RW countryCode=250 -/
noncomputable def RW : List Str :=
  [str% "\n",
   str% "\n",
   str% "    <!-- Rwanda (RW) -->\n",
   str% "    <!-- According to ITU, there is no national prefix. However, this is still used. As of June 3rd\n",
   str% "         2011, this was confirmed by a Rwandan local. It is also shown in this format on pages such\n",
   str% "         as http://www.tigo.co.rw \"Choose Your Number\" service. -->\n",
   str% "    <!-- http://www.rura.gov.rw/docs/RWANDA_NATIONAL_NUMBERING_PLAN.pdf -->\n",
   str% "    <!-- http://en.wikipedia.org/wiki/+250 -->\n",
   str% "    <territory id=\"RW\" countryCode=\"250\" internationalPrefix=\"00\" nationalPrefix=\"0\">\n",
   str% "      <availableFormats>\n",
   str% "        <numberFormat pattern=\"(\\d{2})(\\d{2})(\\d{2})(\\d{2})\">\n",
   str% "          <leadingDigits>0</leadingDigits>\n",
   str% "          <format>$1 $2 $3 $4</format>\n",
   str% "        </numberFormat>\n",
   str% "        <numberFormat pattern=\"(\\d{3})(\\d{3})(\\d{3})\">\n",
   str% "          <leadingDigits>2</leadingDigits>\n",
   str% "          <format>$1 $2 $3</format>\n",
   str% "        </numberFormat>\n",
   str% "        <numberFormat pattern=\"(\\d{3})(\\d{3})(\\d{3})\" nationalPrefixFormattingRule=\"$NP$FG\">\n",
   str% "          <leadingDigits>[7-9]</leadingDigits>\n",
   str% "          <format>$1 $2 $3</format>\n",
   str% "        </numberFormat>\n",
   str% "      </availableFormats>\n",
   str% "      <generalDesc>\n",
   str% "        <nationalNumberPattern>\n",
   str% "          (?:\n",
   str% "            06|\n",
   str% "            [27]\\d\\d|\n",
   str% "            [89]00\n",
   str% "          )\\d{6}\n",
   str% "        </nationalNumberPattern>\n",
   str% "      </generalDesc>\n",
   str% "      <!-- We support satellite numbers here, since they are in the plan, although no recent\n",
   str% "           online examples can be found. We also support fixed-line ranges that have been reserved\n",
   str% "           and paid for, even where no online numbers can be found. -->\n",
   str% "      <fixedLine>\n",
   str% "        <possibleLengths national=\"8,9\"/>\n",
   str% "        <exampleNumber>250123456</exampleNumber>\n",
   str% "        <nationalNumberPattern>\n",
   str% "          (?:\n",
   str% "            06|\n",
   str% "            2[23568]\\d\n",
   str% "          )\\d{6}\n",
   str% "        </nationalNumberPattern>\n",
   str% "      </fixedLine>\n",
   str% "      <!-- Removing 75 - that was Rwandatel but they had their license revoked. -->\n",
   str% "      <mobile>\n",
   str% "        <possibleLengths national=\"9\"/>\n",
   str% "        <exampleNumber>720123456</exampleNumber>\n",
   str% "        <nationalNumberPattern>7[237-9]\\d{7}</nationalNumberPattern>\n",
   str% "      </mobile>\n",
   str% "      <tollFree>\n",
   str% "        <possibleLengths national=\"9\"/>\n",
   str% "        <exampleNumber>800123456</exampleNumber>\n",
   str% "        <nationalNumberPattern>800\\d{6}</nationalNumberPattern>\n",
   str% "      </tollFree>\n",
   str% "      <premiumRate>\n",
   str% "        <possibleLengths national=\"9\"/>\n",
   str% "        <exampleNumber>900123456</exampleNumber>\n",
   str% "        <nationalNumberPattern>900\\d{6}</nationalNumberPattern>\n",
   str% "      </premiumRate>\n",
   str% "    </territory>"]

/-- the text up to the end of territory id=SA countryCode=966 -/
noncomputable def SA : List Str :=
  [str% "\n",
   str% "\n",
   str% "    <!-- Saudi Arabia (SA) -->\n",
   str% "    <!-- http://en.wikipedia.org/wiki/Telephone_numbers_in_Saudi_Arabia -->\n",
   str% "    <!-- http://www.itu.int/oth/T02020000B7/en -->\n",
   str% "    <territory id=\"SA\" countryCode=\"966\" internationalPrefix=\"00\" nationalPrefix=\"0\"\n",
   str% "               mobileNumberPortableRegion=\"true\">\n",
   str% "      <availableFormats>\n",
   str% "        <!-- It seems that the trunk prefix is not used for these numbers, based on wikipedia and on\n",
   str% "             the fact that no numbers of this form found online have a trunk prefix added. -->\n",
   str% "        <numberFormat pattern=\"(\\d{4})(\\d{5})\">\n",
   str% "          <leadingDigits>9</leadingDigits>\n",
   str% "          <format>$1 $2</format>\n",
   str% "        </numberFormat>\n",
   str% "        <numberFormat pattern=\"(\\d{2})(\\d{3})(\\d{4})\" nationalPrefixFormattingRule=\"$NP$FG\">\n",
   str% "          <leadingDigits>1</leadingDigits>\n",
   str% "          <format>$1 $2 $3</format>\n",
   str% "        </numberFormat>\n",
   str% "        <numberFormat pattern=\"(\\d{2})(\\d{3})(\\d{4})\" nationalPrefixFormattingRule=\"$NP$FG\">\n",
   str% "          <leadingDigits>5</leadingDigits>\n",
   str% "          <format>$1 $2 $3</format>\n",
   str% "        </numberFormat>\n",
   str% "        <numberFormat pattern=\"(\\d{3})(\\d{3})(\\d{4})\">\n",
   str% "          <leadingDigits>8</leadingDigits>\n",
   str% "          <format>$1 $2 $3</format>\n",
   str% "        </numberFormat>\n",
   str% "      </availableFormats>\n",
   str% "      <generalDesc>\n",
   str% "        <nationalNumberPattern>\n",
   str% "          (?:\n",
   str% "            [15]\\d|\n",
   str% "            800|\n",
   str% "            92\n",
   str% "          )\\d{7}\n",
   str% "        </nationalNumberPattern>\n",
   str% "      </generalDesc>\n",
   str% "      <fixedLine>\n",
   str% "        <possibleLengths national=\"9\" localOnly=\"7\"/>\n",
   str% "        <exampleNumber>112345678</exampleNumber>\n",
   str% "        <nationalNumberPattern>\n",
   str% "          1(?:\n",
   str% "            1\\d|\n",
   str% "            2[24-8]|\n",
   str% "            3[35-8]|\n",
   str% "            4[3-68]|\n",
   str% "            6[2-5]|\n",
   str% "            7[235-7]\n",
   str% "          )\\d{6}\n",
   str% "        </nationalNumberPattern>\n",
   str% "      </fixedLine>\n",
   str% "      <mobile>\n",
   str% "        <possibleLengths national=\"9\"/>\n",
   str% "        <exampleNumber>512345678</exampleNumber>\n",
   str% "        <nationalNumberPattern>\n",
   str% "          579[0-8]\\d{5}|\n",
   str% "          5(?:\n",
   str% "            [013-689]\\d|\n",
   str% "            7[0-8]\n",
   str% "          )\\d{6}\n",
   str% "        </nationalNumberPattern>\n",
   str% "      </mobile>\n",
   str% "      <tollFree>\n",
   str% "        <possibleLengths national=\"10\"/>\n",
   str% "        <exampleNumber>8001234567</exampleNumber>\n",
   str% "        <nationalNumberPattern>800\\d{7}</nationalNumberPattern>\n",
   str% "      </tollFree>\n",
   str% "      <!-- Contains shared revenue range 925, as calling these numbers involve charges from carrier\n",
   str% "           and the organization that you are calling. -->\n",
   str% "      <premiumRate>\n",
   str% "        <possibleLengths national=\"9\"/>\n",
   str% "        <exampleNumber>925012345</exampleNumber>\n",
   str% "        <nationalNumberPattern>925\\d{6}</nationalNumberPattern>\n",
   str% "      </premiumRate>\n",
   str% "      <sharedCost>\n",
   str% "        <possibleLengths national=\"9\"/>\n",
   str% "        <exampleNumber>920012345</exampleNumber>\n",
   str% "        <nationalNumberPattern>920\\d{6}</nationalNumberPattern>\n",
   str% "      </sharedCost>\n",
   str% "    </territory>"]

/-- the text up to the end of territory id=SB countryCode=677 -/
noncomputable def SB : List Str :=
  [str% "\n",
   str% "\n",
   str% "    <!-- Solomon Islands (SB) -->\n",
   str% "    <!-- http://www.itu.int/oth/T02020000BF/en -->\n",
   str% "    <!-- A single group is used to format 5-digit numbers. This formatting pattern follows\n",
   str% "         the guidelines in the ITU document. -->\n",
   str% "    <territory id=\"SB\" countryCode=\"677\" internationalPrefix=\"0[01]\">\n",
   str% "      <availableFormats>\n",
   str% "        <numberFormat pattern=\"(\\d{2})(\\d{5})\">\n",
   str% "          <leadingDigits>\n",
   str% "            6[89]|\n",
   str% "            7|\n",
   str% "            8[4-9]|\n",
   str% "            9(?:\n",
   str% "              [1-8]|\n",
   str% "              9[0-8]\n",
   str% "            )\n",
   str% "          </leadingDigits>\n",
   str% "          <format>$1 $2</format>\n",
   str% "        </numberFormat>\n",
   str% "      </availableFormats>\n",
   str% "      <generalDesc>\n",
   str% "        <nationalNumberPattern>\n",
   str% "          [6-9]\\d{6}|\n",
   str% "          [1-6]\\d{4}\n",
   str% "        </nationalNumberPattern>\n",
   str% "      </generalDesc>\n",
   str% "      <!-- Although not mentioned in the 2011 update, it seems likely that the range 67300-67699\n",
   str% "           is still used for Sasamunga, Shortland, Poitete and Ringgi as per the 2010 plan. -->\n",
   str% "      <fixedLine>\n",
   str% "        <possibleLengths national=\"5\"/>\n",
   str% "        <exampleNumber>40123</exampleNumber>\n",
   str% "        <nationalNumberPattern>\n",
   str% "          (?:\n",
   str% "            1[4-79]|\n",
   str% "            [23]\\d|\n",
   str% "            4[0-2]|\n",
   str% "            5[03]|\n",
   str% "            6[0-37]\n",
   str% "          )\\d{3}\n",
   str% "        </nationalNumberPattern>\n",
   str% "      </fixedLine>\n",
   str% "      <mobile>\n",
   str% "        <possibleLengths national=\"5,7\"/>\n",
   str% "        <exampleNumber>7421234</exampleNumber>\n",
   str% "        <nationalNumberPattern>\n",
   str% "          48\\d{3}|\n",
   str% "          (?:\n",
   str% "            (?:\n",
   str% "              6[89]|\n",
   str% "              7[1-9]|\n",
   str% "              8[4-9]\n",
   str% "            )\\d|\n",
   str% "            9(?:\n",
   str% "              1[2-9]|\n",
   str% "              2[013-9]|\n",
   str% "              3[0-2]|\n",
   str% "              [46]\\d|\n",
   str% "              5[0-46-9]|\n",
   str% "              7[0-689]|\n",
   str% "              8[0-79]|\n",
   str% "              9[0-8]\n",
   str% "            )\n",
   str% "          )\\d{4}\n",
   str% "        </nationalNumberPattern>\n",
   str% "      </mobile>\n",
   str% "      <tollFree>\n",
   str% "        <possibleLengths national=\"5\"/>\n",
   str% "        <exampleNumber>18123</exampleNumber>\n",
   str% "        <nationalNumberPattern>1[38]\\d{3}</nationalNumberPattern>\n",
   str% "      </tollFree>\n",
   str% "      <voip>\n",
   str% "        <possibleLengths national=\"5\"/>\n",
   str% "        <exampleNumber>51123</exampleNumber>\n",
   str% "        <nationalNumberPattern>5[12]\\d{3}</nationalNumberPattern>\n",
   str% "      </voip>\n",
   str% "    </territory>"]

/-- the text up to the end of territory id=SC countryCode=248 -/
noncomputable def SC : List Str :=
  [str% "\n",
   str% "\n",
   str% "    <!-- Seychelles (SC) -->\n",
   str% "    <!-- http://www.itu.int/oth/T02020000BA/en -->\n",
   str% "    <!-- http://en.wikipedia.org/wiki/Telephone_numbers_in_Seychelles -->\n",
   str% "    <territory id=\"SC\" countryCode=\"248\" preferredInternationalPrefix=\"00\"\n",
   str% "               internationalPrefix=\"010|0[0-2]\">\n",
   str% "      <availableFormats>\n",
   str% "        <numberFormat pattern=\"(\\d)(\\d{3})(\\d{3})\">\n",
   str% "          <leadingDigits>\n",
   str% "            [246]|\n",
   str% "            9[57]\n",
   str% "          </leadingDigits>\n",
   str% "          <format>$1 $2 $3</format>\n",
   str% "        </numberFormat>\n",
   str% "      </availableFormats>\n",
   str% "      <generalDesc>\n",
   str% "        <nationalNumberPattern>\n",
   str% "          (?:\n",
   str% "            [2489]\\d|\n",
   str% "            64\n",
   str% "          )\\d{5}\n",
   str% "        </nationalNumberPattern>\n",
   str% "      </generalDesc>\n",
   str% "      <!-- We are putting Fixed Services numbers here for now, as we cannot find any evidence that\n",
   str% "           they are more expensive to call than other Fixed Line services. ISDN and DID services\n",
   str% "           are here too, since they seem to be also fixed-line phone numbers. -->\n",
   str% "      <fixedLine>\n",
   str% "        <possibleLengths national=\"7\"/>\n",
   str% "        <exampleNumber>4217123</exampleNumber>\n",
   str% "        <nationalNumberPattern>4[2-46]\\d{5}</nationalNumberPattern>\n",
   str% "      </fixedLine>\n",
   str% "      <!-- Includes Fixed Cellular. -->\n",
   str% "      <mobile>\n",
   str% "        <possibleLengths national=\"7\"/>\n",
   str% "        <exampleNumber>2510123</exampleNumber>\n",
   str% "        <nationalNumberPattern>2[125-8]\\d{5}</nationalNumberPattern>\n",
   str% "      </mobile>\n",
   str% "      <tollFree>\n",
   str% "        <possibleLengths national=\"7\"/>\n",
   str% "        <exampleNumber>8000000</exampleNumber>\n",
   str% "        <nationalNumberPattern>800[08]\\d{3}</nationalNumberPattern>\n",
   str% "      </tollFree>\n",
   str% "      <premiumRate>\n",
   str% "        <possibleLengths national=\"7\"/>\n",
   str% "        <exampleNumber>8512345</exampleNumber>\n",
   str% "        <nationalNumberPattern>85\\d{5}</nationalNumberPattern>\n",
   str% "      </premiumRate>\n",
   str% "      <!-- Includes prefix 971,95[0-9] which is assigned to Audiotext ,International Audiotext\n",
   str% "           Services. -->\n",
   str% "      <voip>\n",
   str% "        <possibleLengths national=\"7\"/>\n",
   str% "        <exampleNumber>6412345</exampleNumber>\n",
   str% "        <nationalNumberPattern>\n",
   str% "          971\\d{4}|\n",
   str% "          (?:\n",
   str% "            64|\n",
   str% "            95\n",
   str% "          )\\d{5}\n",
   str% "        </nationalNumberPattern>\n",
   str% "      </voip>\n",
   str% "    </territory>"]

/-- the text of this module -/
noncomputable def chunk12 : List (List Str) :=
  [PK, PL, PM, PR, PS, PT, PW, PY, QA, RE, RO, RS, RU, RW, SA, SB, SC]

end Phone.Data.S
