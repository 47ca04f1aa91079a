import Verif.Spec.RoundTrip
import Verif.Spec.Format
import Verif.Spec.Natural
/-! # Specification for reading back what is written in international format -/

namespace Phone.Spec

/-- A format that only puts blanks, hyphens, stops, parentheses and slashes between the groups of digits. -/
def Punctuates (f : Format) : Prop := Faithful f ∧ ∀ c ∈ f.format, c = '$' ∨ isDigit c = true ∨ c ∈ (str% " -.()/")

/-- The template ends with a group that is never empty. -/
def EndsInGroup [UnicodeTables] (f : Format) : Prop :=
  ∃ a d, f.format = a ++ ['$', d] ∧ isDigit d = true ∧ ∀ v m, f.pattern.find v = some m → m.get (digitVal d) ≠ some []

/-- A text after which digits are taken for an extension: blanks or commas, one of the words, an optional colon or stop, blanks,
commas or hyphens. -/
def Introduces (p : Str) : Prop :=
  ∃ sep1 w colon sep2, p = sep1 ++ (w ++ (colon ++ sep2)) ∧ (∀ c ∈ sep1, c ∈ [' ', ' ', '\t', ',']) ∧ w.map fold ∈ extWords ∧
    (colon = [] ∨ ∃ c ∈ [':', '.', '．'], colon = [c]) ∧ ∀ c ∈ sep2, c ∈ [' ', ' ', '\t', ',', '-']

/-- What is written before the extension of a number of the region. -/
def extensionPrefix (md : Metadata) : Str := md.preferredExtensionPrefix.getD (str% " ext. ")

end Phone.Spec
