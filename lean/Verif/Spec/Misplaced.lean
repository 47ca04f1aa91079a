import Verif.Spec.Natural
/-! # Specification: characters that have no place in a number -/

namespace Phone.Spec

/-- A character that can be neither in a number nor in its extension: no plus sign, punctuation, star, digit (of any script) or ASCII
letter, and none of the signs with which extensions are written. Line feeds, `&`, `@`, `?` and quotation marks are such characters. -/
def Misplaced [UnicodeTables] (c : Char) : Prop :=
  isPlus c = false ∧ isFill c = false ∧ isNd c = false ∧ isAlpha c = false ∧ c ∉ (str% ",;:#=\t") ∧ c ∉ wideExt

end Phone.Spec
