import Verif.Spec.LetterCase
import Verif.Spec.Punctuation
/-! # Specification: words after a number -/

namespace Phone.Spec

/-- Letters, digits and idle characters that end in a letter and do not look like an extension or a second number: no x follows a
slash, and the end is not one of the words that announce an extension. -/
structure Words (w : Str) : Prop where
  chars : ∀ c ∈ w, isAlpha c = true ∨ isDigit c = true ∨ isIdle c = true
  last : ∃ t c, w = t ++ [c] ∧ isAlpha c = true
  silent : ∀ e ∈ extWords, ¬ e <:+ w.map fold
  noSlashX : NoSlashX w

end Phone.Spec
