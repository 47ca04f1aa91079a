import Verif.Spec.Natural
import Verif.Spec.Rfc3966
/-! # Specification: texts that differ in the case of letters -/

namespace Phone.Spec

/-- ASCII letters in lower case. -/
def lower (c : Char) : Char := if 65 ≤ c.toNat ∧ c.toNat ≤ 90 then Char.ofNat (c.toNat + 32) else c

/-- The texts differ at most in the case of ASCII letters. -/
def SameButCase (s t : Str) : Prop := s.map lower = t.map lower

/-- In the text an x after the beginning of the number comes only after three digits. -/
def LateX [UnicodeTables] (s : Str) : Prop :=
  ∀ a c b, s = a ++ c :: b → c = 'x' ∨ c = 'X' → (∀ d ∈ a, startsNumber d = false) ∨ 3 ≤ a.countP isDigit

/-- No slash or backslash has an x after it, nor spaces and an x. -/
def NoSlashX (s : Str) : Prop :=
  ∀ a c sp d b, s = a ++ c :: (sp ++ d :: b) → c = '/' ∨ c = '\\' → (∀ e ∈ sp, e = ' ') → d ≠ 'x' ∧ d ≠ 'X'

/-- The names between `;` and `=` are the same at the same places of both texts. -/
def NamesAlike (s t : Str) : Prop :=
  ∀ a k b a' k' b', s = a ++ ';' :: (k ++ '=' :: b) → t = a' ++ ';' :: (k' ++ '=' :: b') → a.length = a'.length → k.length = k'.length →
    (∀ c ∈ k, isNameCharacter c = true) → k = k'

end Phone.Spec
