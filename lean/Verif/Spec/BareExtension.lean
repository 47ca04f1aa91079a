import Verif.Spec.Natural
/-! # Specification: the mark of an extension without an extension -/

namespace Phone.Spec
variable [UnicodeTables]

/-- A text after which an extension is expected, even if none follows: blanks or commas, one of the words (other than `#`) if it ends
with a letter or the like, and characters that do not belong to a number, such as a stop or blanks. -/
def Announces (p : Str) : Prop :=
  ∃ sep w after, p = sep ++ (w ++ after) ∧ (∀ c ∈ sep, c ∈ [' ', '\u00A0', '\t', ',']) ∧ w.map fold ∈ extWords ∧ w ≠ ['#'] ∧
    (∃ c, w.getLast? = some c ∧ endsNumber c = true) ∧ ∀ c ∈ after, endsNumber c = false

end Phone.Spec
