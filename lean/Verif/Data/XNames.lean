import Verif.Spec.Loader
/-! Names and recurring nodes of `/repo/assets/PhoneNumberMetadata.xml`. Generated by `tools/gen_xml.py`; do not edit. -/

namespace Phone.Xml

/-- white space -/
def Node.s4 : Node := .text (str% "\n    ")
/-- white space -/
def Node.s6 : Node := .text (str% "\n      ")
/-- white space -/
def Node.s8 : Node := .text (str% "\n        ")
/-- white space -/
def Node.s10 : Node := .text (str% "\n          ")
/-- white space -/
def Node.l4 : Node := .text (str% "\n\n    ")
/-- an element with nothing but a text in it -/
def Node.leaf (name s : Str) : Node := .elem name [] [.text s]

namespace n
/-- a name -/
def availableFormats : Str := str% "availableFormats"
/-- a name -/
def carrierCodeFormattingRule : Str := str% "carrierCodeFormattingRule"
/-- a name -/
def countryCode : Str := str% "countryCode"
/-- a name -/
def exampleNumber : Str := str% "exampleNumber"
/-- a name -/
def fixedLine : Str := str% "fixedLine"
/-- a name -/
def format : Str := str% "format"
/-- a name -/
def generalDesc : Str := str% "generalDesc"
/-- a name -/
def id : Str := str% "id"
/-- a name -/
def internationalPrefix : Str := str% "internationalPrefix"
/-- a name -/
def intlFormat : Str := str% "intlFormat"
/-- a name -/
def leadingDigits : Str := str% "leadingDigits"
/-- a name -/
def localOnly : Str := str% "localOnly"
/-- a name -/
def mainCountryForCode : Str := str% "mainCountryForCode"
/-- a name -/
def mobile : Str := str% "mobile"
/-- a name -/
def mobileNumberPortableRegion : Str := str% "mobileNumberPortableRegion"
/-- a name -/
def national : Str := str% "national"
/-- a name -/
def nationalNumberPattern : Str := str% "nationalNumberPattern"
/-- a name -/
def nationalPrefix : Str := str% "nationalPrefix"
/-- a name -/
def nationalPrefixForParsing : Str := str% "nationalPrefixForParsing"
/-- a name -/
def nationalPrefixFormattingRule : Str := str% "nationalPrefixFormattingRule"
/-- a name -/
def nationalPrefixOptionalWhenFormatting : Str := str% "nationalPrefixOptionalWhenFormatting"
/-- a name -/
def nationalPrefixTransformRule : Str := str% "nationalPrefixTransformRule"
/-- a name -/
def noInternationalDialling : Str := str% "noInternationalDialling"
/-- a name -/
def numberFormat : Str := str% "numberFormat"
/-- a name -/
def pager : Str := str% "pager"
/-- a name -/
def pattern : Str := str% "pattern"
/-- a name -/
def personalNumber : Str := str% "personalNumber"
/-- a name -/
def phoneNumberMetadata : Str := str% "phoneNumberMetadata"
/-- a name -/
def possibleLengths : Str := str% "possibleLengths"
/-- a name -/
def preferredExtnPrefix : Str := str% "preferredExtnPrefix"
/-- a name -/
def preferredInternationalPrefix : Str := str% "preferredInternationalPrefix"
/-- a name -/
def premiumRate : Str := str% "premiumRate"
/-- a name -/
def sharedCost : Str := str% "sharedCost"
/-- a name -/
def territories : Str := str% "territories"
/-- a name -/
def territory : Str := str% "territory"
/-- a name -/
def tollFree : Str := str% "tollFree"
/-- a name -/
def uan : Str := str% "uan"
/-- a name -/
def voicemail : Str := str% "voicemail"
/-- a name -/
def voip : Str := str% "voip"
end n

end Phone.Xml
