import Verif.Model.Database
/-! # Specification of the conversion of one territory

Field by field: texts, numbers and flags are kept, patterns are compiled. -/

namespace Phone.Spec
variable (compile : Str → Option Regex)

/-- `b` is what `a` becomes under `R`; a missing value stays missing. -/
inductive OptionRel {α β : Type} (R : α → β → Prop) : Option α → Option β → Prop where
  | none : OptionRel R none none
  | some {a : α} {b : β} : R a b → OptionRel R (some a) (some b)

/-- The lists have the same length and correspond item by item. -/
inductive ListRel {α β : Type} (R : α → β → Prop) : List α → List β → Prop where
  | nil : ListRel R [] []
  | cons {a : α} {b : β} {as : List α} {bs : List β} : R a b → ListRel R as bs → ListRel R (a :: as) (b :: bs)

/-- The pattern text and its compiled form. -/
def Compiled (s : Str) (r : Regex) : Prop := compile s = some r

/-- A descriptor of the document and the descriptor of the database. -/
structure DescriptorOf (d : Loader.Descriptor) (e : Descriptor) : Prop where
  pattern : ∃ s, d.nationalNumber = some s ∧ compile s = some e.nationalNumber
  possibleLength : e.possibleLength = d.possibleLength
  possibleLocalLength : e.possibleLocalLength = d.possibleLocalLength
  example? : e.example? = d.example?

/-- A format of the document and the format of the database. -/
structure FormatOf (f : Loader.Format) (g : Format) : Prop where
  pattern : ∃ s, f.pattern = some s ∧ compile s = some g.pattern
  format : f.format = some g.format
  leadingDigits : ListRel (Compiled compile) f.leadingDigits g.leadingDigits
  nationalPrefix : g.nationalPrefix = f.nationalPrefixFormattingRule
  nationalPrefixOptional : g.nationalPrefixOptional = f.nationalPrefixOptionalWhenFormatting
  domesticCarrier : g.domesticCarrier = f.domesticCarrier

/-- A territory of the document and the entry of the database. -/
structure EntryOf (m : Loader.Metadata) (md : Metadata) : Prop where
  id : m.id = some md.id
  countryCode : m.countryCode = some md.countryCode
  mainCountryForCode : md.mainCountryForCode = m.mainCountryForCode
  mobileNumberPortable : md.mobileNumberPortable = m.mobileNumberPortable
  nationalPrefix : md.nationalPrefix = m.nationalPrefix
  preferredInternationalPrefix : md.preferredInternationalPrefix = m.preferredInternationalPrefix
  preferredExtensionPrefix : md.preferredExtensionPrefix = m.preferredExtensionPrefix
  nationalPrefixTransformRule : md.nationalPrefixTransformRule = m.nationalPrefixTransformRule
  internationalPrefix : OptionRel (Compiled compile) m.internationalPrefix md.internationalPrefix
  nationalPrefixForParsing : OptionRel (Compiled compile) m.nationalPrefixForParsing md.nationalPrefixForParsing
  leadingDigits : OptionRel (Compiled compile) m.leadingDigits md.leadingDigits
  general : ∃ d, m.general = some d ∧ DescriptorOf compile d md.descriptors.general
  fixedLine : OptionRel (DescriptorOf compile) m.fixedLine md.descriptors.fixedLine
  mobile : OptionRel (DescriptorOf compile) m.mobile md.descriptors.mobile
  tollFree : OptionRel (DescriptorOf compile) m.tollFree md.descriptors.tollFree
  premiumRate : OptionRel (DescriptorOf compile) m.premiumRate md.descriptors.premiumRate
  sharedCost : OptionRel (DescriptorOf compile) m.sharedCost md.descriptors.sharedCost
  personalNumber : OptionRel (DescriptorOf compile) m.personalNumber md.descriptors.personalNumber
  voip : OptionRel (DescriptorOf compile) m.voip md.descriptors.voip
  pager : OptionRel (DescriptorOf compile) m.pager md.descriptors.pager
  uan : OptionRel (DescriptorOf compile) m.uan md.descriptors.uan
  emergency : OptionRel (DescriptorOf compile) m.emergency md.descriptors.emergency
  voicemail : OptionRel (DescriptorOf compile) m.voicemail md.descriptors.voicemail
  shortCode : OptionRel (DescriptorOf compile) m.shortCode md.descriptors.shortCode
  standardRate : OptionRel (DescriptorOf compile) m.standardRate md.descriptors.standardRate
  carrier : OptionRel (DescriptorOf compile) m.carrier md.descriptors.carrier
  noInternational : OptionRel (DescriptorOf compile) m.noInternational md.descriptors.noInternational
  formats : ListRel (FormatOf compile) m.formats md.formats
  internationalFormats : ListRel (FormatOf compile) m.internationalFormats md.internationalFormats

end Phone.Spec
