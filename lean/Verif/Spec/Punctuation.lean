import Verif.Spec.Viable
/-! # Specification: digits among punctuation of every kind -/

namespace Phone.Spec

/-- A character that may stand among the digits of a number and does nothing there: punctuation (as in `isPunct`) or a star, other than
the `x` and the tildes, which may introduce an extension. -/
def isIdle (c : Char) : Bool := isFill c && !(c ∈ (str% "x~～"))

/-- Digits and characters that do nothing. -/
def Dressed (s : Str) : Prop := ∀ c ∈ s, isDigit c = true ∨ isIdle c = true

end Phone.Spec
