import Verif.Model.Database
/-! # What is wrong with a list of territories

The faults of the entries of a list, in the order in which `Database::from` comes to them. -/

namespace Phone
namespace Spec

/-- One fault. -/
inductive Fault where
  /-- A value that has to be there is not: the kind of thing it belongs to and its name. -/
  | missing (kind name : Str)
  /-- A text that is not a regular expression. -/
  | pattern (text : Str)
  /-- A description of numbers without a pattern. -/
  | bare
  deriving DecidableEq, Repr

/-- What a fault does to the attempt to build a database: an error that names the missing value, an error of the regular expression
compiler, or a panic. -/
def Fault.effect {α : Type} : Fault → Outcome LoadErr α
  | .missing kind name => .err (.metadata (.missingValue kind name))
  | .pattern _ => .err .regex
  | .bare => .panic .unwrap

section
variable (isRegex : Str → Bool)

/-- A text that should be a regular expression. -/
def patternFaults (s : Str) : List Fault := if isRegex s then [] else [.pattern s]

/-- An optional text that should be a regular expression. -/
def optionalFaults : Option Str → List Fault
  | none => []
  | some s => patternFaults isRegex s

/-- A description of numbers. -/
def descriptionFaults (d : Loader.Descriptor) : List Fault :=
  match d.nationalNumber with
  | none => [.bare]
  | some s => patternFaults isRegex s

/-- An optional description. -/
def optionalDescriptionFaults : Option Loader.Descriptor → List Fault
  | none => []
  | some d => descriptionFaults isRegex d

/-- A format: pattern, template, leading digits. -/
def formatFaults (f : Loader.Format) : List Fault :=
  (match f.pattern with
    | none => [.missing (str% "format") (str% "pattern")]
    | some s => patternFaults isRegex s) ++
  (if f.format.isNone then [.missing (str% "format") (str% "format")] else []) ++
  f.leadingDigits.flatMap (patternFaults isRegex)

/-- A territory: the general description, the others, id, calling code, prefixes, formats, leading digits. -/
def territoryFaults (m : Loader.Metadata) : List Fault :=
  (match m.general with
    | none => [.missing (str% "metadata") (str% "generalDesc")]
    | some d => descriptionFaults isRegex d) ++
  [m.fixedLine, m.mobile, m.tollFree, m.premiumRate, m.sharedCost, m.personalNumber, m.voip, m.pager, m.uan, m.emergency,
    m.voicemail, m.shortCode, m.standardRate, m.carrier, m.noInternational].flatMap (optionalDescriptionFaults isRegex) ++
  (if m.id.isNone then [.missing (str% "metadata") (str% "id")] else []) ++
  (if m.countryCode.isNone then [.missing (str% "metadata") (str% "countryCode")] else []) ++
  optionalFaults isRegex m.internationalPrefix ++
  optionalFaults isRegex m.nationalPrefixForParsing ++
  m.formats.flatMap (formatFaults isRegex) ++
  m.internationalFormats.flatMap (formatFaults isRegex) ++
  optionalFaults isRegex m.leadingDigits

/-- All faults of a list of territories. -/
def faults (ms : List Loader.Metadata) : List Fault := ms.flatMap (territoryFaults isRegex)

end

end Spec
end Phone
