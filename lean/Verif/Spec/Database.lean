import Verif.Model.Database
/-! # Specification of the metadata database

What a list of territories means, independently of how the code builds its hash maps. -/

namespace Phone

/-- All descriptors present in a loaded territory. -/
def Loader.Metadata.descs (m : Loader.Metadata) : List Loader.Descriptor :=
  [m.general, m.fixedLine, m.mobile, m.tollFree, m.premiumRate, m.sharedCost, m.personalNumber, m.voip, m.pager, m.uan,
   m.emergency, m.voicemail, m.shortCode, m.standardRate, m.carrier, m.noInternational].filterMap fun o => o

namespace Spec
variable (compile : Str → Option Regex)

/-- A descriptor with a pattern that compiles. -/
def DescriptorComplete (d : Loader.Descriptor) : Prop := ∃ p, d.nationalNumber = some p ∧ (compile p).isSome

/-- A format with a pattern that compiles, a template, and leading digit patterns that compile. -/
def FormatComplete (f : Loader.Format) : Prop :=
  (∃ p, f.pattern = some p ∧ (compile p).isSome) ∧ f.format.isSome ∧ ∀ l ∈ f.leadingDigits, (compile l).isSome

/-- A territory with id, calling code, general descriptor, and no broken descriptor, format or pattern. -/
structure TerritoryComplete (m : Loader.Metadata) : Prop where
  id : m.id.isSome
  countryCode : m.countryCode.isSome
  general : m.general.isSome
  descs : ∀ d ∈ m.descs, DescriptorComplete compile d
  internationalPrefix : ∀ p, m.internationalPrefix = some p → (compile p).isSome
  parsing : ∀ p, m.nationalPrefixForParsing = some p → (compile p).isSome
  leadingDigits : ∀ p, m.leadingDigits = some p → (compile p).isSome
  formats : ∀ f ∈ m.formats, FormatComplete compile f
  internationalFormats : ∀ f ∈ m.internationalFormats, FormatComplete compile f

/-- The entries for one calling code in the order in which they are listed: main countries first (the last one flagged in the
document comes first), then the others in document order. -/
def listed {α : Type} (main : α → Bool) (entries : List α) : List α :=
  (entries.filter main).reverse ++ entries.filter fun e => !main e

end Spec
end Phone
