import Verif.Data.S00
import Verif.Data.S01
import Verif.Data.S02
import Verif.Data.S03
import Verif.Data.S04
import Verif.Data.S05
import Verif.Data.S06
import Verif.Data.S07
import Verif.Data.S08
import Verif.Data.S09
import Verif.Data.S10
import Verif.Data.S11
import Verif.Data.S12
import Verif.Data.S13
import Verif.Data.S14
import Verif.Data.S15
/-! The text of `/repo/assets/PhoneNumberMetadata.xml`. Generated by `tools/gen_xml.py`; do not edit. -/

set_option maxRecDepth 100000
namespace Phone.Data.S

/-- the text up to the start tag of `territories` -/
noncomputable def head : List Str :=
  [str% " <!-- Copyright (C) 2009 The Libphonenumber Authors\n",
   str% "\n",
   str% "     Licensed under the Apache License, Version 2.0 (the \"License\");\n",
   str% "     you may not use this file except in compliance with the License.\n",
   str% "     You may obtain a copy of the License at\n",
   str% "     http://www.apache.org/licenses/LICENSE-2.0\n",
   str% "\n",
   str% "     Unless required by applicable law or agreed to in writing, software\n",
   str% "     distributed under the License is distributed on an \"AS IS\" BASIS,\n",
   str% "     WITHOUT WARRANTIES OR CONDITIONS OF ANY KIND, either express or implied.\n",
   str% "     See the License for the specific language governing permissions and\n",
   str% "     limitations under the License.\n",
   str% "\n",
   str% "     @author: Shaopeng Jia\n",
   str% "\n",
   str% "     Metadata on Phone Number Plan and formatting rules\n",
   str% "     Note: Territories are in alphabetical order by their IDs, which are based on CLDR\n",
   str% "           two-letter region codes (or are set to \"001\" for non-geographical entities, which\n",
   str% "           represents \"World\" in the UN M.49 standard). The country names in the comments are the\n",
   str% "           official short names in English according to CLDR.\n",
   str% "\n",
   str% "     For more information on what each element represents, see\n",
   str% "     resources/phonemetadata.proto\n",
   str% "\n",
   str% "     Note that if you want to add validation metadata, the generalDesc nationalNumberPattern must be\n",
   str% "     provided. If this is missing, then the country will be considered to have no more specific\n",
   str% "     phone-number type metadata (fixedLine, mobile etc) and hence only basic validation rules\n",
   str% "     (numbers should be between 3 and 15 digits long) will be applied.\n",
   str% "\n",
   str% "     If adding an element for a non-geographical entity, please add an example number element to the\n",
   str% "     general description.\n",
   str% "\n",
   str% "     Country code, international and national prefix information main source:\n",
   str% "     http://www.itu.int/pub/T-SP-E.164C-2011\n",
   str% "\n",
   str% "     Known omissions:\n",
   str% "     * French Southern Territories (id=\"TF\" countryCode=\"262\")\n",
   str% "       This is not covered due to lack of information about its numbering plan. It has 140\n",
   str% "       temporary inhabitants.\n",
   str% "\n",
   str% "     * Pitcairn Island (id=\"PN\")\n",
   str% "       This is not supported since evidence seems to be that the 50 inhabitants use satellite\n",
   str% "       phones.\n",
   str% "\n",
   str% "     See also:\n",
   str% "       https://github.com/google/libphonenumber/blob/master/FAQ.md#unsupported\n",
   str% "     -->\n",
   str% "\n",
   str% "<!DOCTYPE phoneNumberMetadata [\n",
   str% "    <!ELEMENT phoneNumberMetadata (territories)>\n",
   str% "    <!ELEMENT territories (territory+)>\n",
   str% "    <!ELEMENT territory (references?, availableFormats?, generalDesc, noInternationalDialling?,\n",
   str% "        fixedLine?, mobile?, pager?, tollFree?, premiumRate?,\n",
   str% "        sharedCost?, personalNumber?, voip?, uan?, voicemail?)>\n",
   str% "    <!ELEMENT references (sourceUrl+)>\n",
   str% "    <!ELEMENT generalDesc (nationalNumberPattern)>\n",
   str% "    <!ELEMENT noInternationalDialling (possibleLengths, nationalNumberPattern)>\n",
   str% "    <!ELEMENT fixedLine (possibleLengths, exampleNumber, nationalNumberPattern)>\n",
   str% "    <!ELEMENT mobile (possibleLengths, exampleNumber, nationalNumberPattern)>\n",
   str% "    <!ELEMENT pager (possibleLengths, exampleNumber, nationalNumberPattern)>\n",
   str% "    <!ELEMENT tollFree (possibleLengths, exampleNumber, nationalNumberPattern)>\n",
   str% "    <!ELEMENT premiumRate (possibleLengths, exampleNumber, nationalNumberPattern)>\n",
   str% "    <!ELEMENT sharedCost (possibleLengths, exampleNumber, nationalNumberPattern)>\n",
   str% "    <!ELEMENT personalNumber (possibleLengths, exampleNumber, nationalNumberPattern)>\n",
   str% "    <!ELEMENT voip (possibleLengths, exampleNumber, nationalNumberPattern)>\n",
   str% "    <!ELEMENT uan (possibleLengths, exampleNumber, nationalNumberPattern)>\n",
   str% "    <!ELEMENT voicemail (possibleLengths, exampleNumber, nationalNumberPattern)>\n",
   str% "    <!ELEMENT sourceUrl (#PCDATA)>\n",
   str% "    <!ELEMENT availableFormats (numberFormat+)>\n",
   str% "    <!ELEMENT nationalNumberPattern (#PCDATA)>\n",
   str% "    <!ELEMENT exampleNumber (#PCDATA)>\n",
   str% "    <!ELEMENT numberFormat (leadingDigits*, format, intlFormat*)>\n",
   str% "    <!ELEMENT format (#PCDATA)>\n",
   str% "    <!ELEMENT intlFormat (#PCDATA)>\n",
   str% "    <!ELEMENT leadingDigits (#PCDATA)>\n",
   str% "    <!ELEMENT possibleLengths EMPTY>\n",
   str% "\n",
   str% "    <!ATTLIST territory id CDATA #REQUIRED>\n",
   str% "    <!ATTLIST territory countryCode CDATA #REQUIRED>\n",
   str% "    <!ATTLIST territory mainCountryForCode (true) #IMPLIED>\n",
   str% "    <!ATTLIST territory leadingDigits CDATA #IMPLIED>\n",
   str% "    <!ATTLIST territory preferredInternationalPrefix CDATA #IMPLIED>\n",
   str% "    <!ATTLIST territory internationalPrefix CDATA #IMPLIED>\n",
   str% "    <!ATTLIST territory nationalPrefix CDATA #IMPLIED>\n",
   str% "    <!ATTLIST territory nationalPrefixForParsing CDATA #IMPLIED>\n",
   str% "    <!ATTLIST territory nationalPrefixTransformRule CDATA #IMPLIED>\n",
   str% "    <!ATTLIST territory preferredExtnPrefix CDATA #IMPLIED>\n",
   str% "    <!ATTLIST territory nationalPrefixFormattingRule CDATA #IMPLIED>\n",
   str% "    <!ATTLIST territory nationalPrefixOptionalWhenFormatting (true) #IMPLIED>\n",
   str% "    <!ATTLIST territory carrierCodeFormattingRule CDATA #IMPLIED>\n",
   str% "    <!ATTLIST territory mobileNumberPortableRegion (true) #IMPLIED>\n",
   str% "    <!ATTLIST possibleLengths national CDATA #REQUIRED>\n",
   str% "    <!ATTLIST possibleLengths localOnly CDATA #IMPLIED>\n",
   str% "    <!ATTLIST numberFormat nationalPrefixFormattingRule CDATA #IMPLIED>\n",
   str% "    <!ATTLIST numberFormat nationalPrefixOptionalWhenFormatting (true) #IMPLIED>\n",
   str% "    <!ATTLIST numberFormat carrierCodeFormattingRule CDATA #IMPLIED>\n",
   str% "    <!ATTLIST numberFormat pattern CDATA #REQUIRED>\n",
   str% "]>\n",
   str% "\n",
   str% "<phoneNumberMetadata>\n",
   str% "  <territories>"]
/-- the text after the last territory -/
noncomputable def last : List Str :=
  [str% "\n",
   str% "\n",
   str% "  </territories>\n",
   str% "</phoneNumberMetadata>\n"]
/-- the text of the territories -/
noncomputable def body : List (List Str) :=
  chunk00 ++
  chunk01 ++
  chunk02 ++
  chunk03 ++
  chunk04 ++
  chunk05 ++
  chunk06 ++
  chunk07 ++
  chunk08 ++
  chunk09 ++
  chunk10 ++
  chunk11 ++
  chunk12 ++
  chunk13 ++
  chunk14 ++
  chunk15
/-- the whole text -/
noncomputable def text : Str := head.flatten ++ (body.flatten.flatten ++ last.flatten)

end Phone.Data.S
