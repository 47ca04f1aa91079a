import Verif.Basic.StrLemmas
/-! # Specification of `tel:` texts (RFC 3966, as far as the parser supports it) -/

namespace Phone.Spec

/-- A separator of RFC 3966 digits. -/
def isSeparator (c : Char) : Bool := c ∈ (str% "-.()")

/-- A character of the number part: hexadecimal digit or separator. -/
def isPhoneDigit (c : Char) : Bool :=
  isDigit c || ('a'.toNat ≤ c.toNat && c.toNat ≤ 'f'.toNat) || ('A'.toNat ≤ c.toNat && c.toNat ≤ 'F'.toNat) || isSeparator c

/-- A character of a parameter name. -/
def isNameCharacter (c : Char) : Bool := isAlpha c || isDigit c || c == '-'

/-- A character of a parameter value (without percent encoding). -/
def isValueCharacter (c : Char) : Bool := isAlpha c || isDigit c || c ∈ (str% "-_.!~*'()[]/:&+$")

/-- The parts of a `tel:` text. -/
structure Tel where
  /-- the calling code written after a plus, if any -/
  pref : Option Str
  number : Str
  params : List (Str × Str)

/-- One parameter as text. -/
def paramText (p : Str × Str) : Str := ';' :: p.1 ++ '=' :: p.2

/-- The whole text. -/
def Tel.text (t : Tel) : Str :=
  (match t.pref with | some p => '+' :: p | none => []) ++ t.number ++ t.params.flatMap paramText

/-- The parts are made of the right characters; a number after a prefix starts with a separator. -/
structure Tel.WellFormed (t : Tel) : Prop where
  pref : ∀ p, t.pref = some p → Digits p ∧ p ≠ [] ∧ ∃ c s, t.number = c :: s ∧ isSeparator c = true
  number : t.number ≠ [] ∧ ∀ c ∈ t.number, isPhoneDigit c = true
  params : ∀ p ∈ t.params, (∀ c ∈ p.1, isNameCharacter c = true) ∧ ∀ c ∈ p.2, isValueCharacter c = true

/-- The value of the last parameter with the given name. -/
def Tel.last (t : Tel) (name : Str) : Option Str := ((t.params.filter fun p => p.1 == name).getLast?).map Prod.snd

/-- Without the leading plus, if there is one. -/
def dropPlus (s : Str) : Str := if s.head? = some '+' then s.tail else s

/-- The calling code: the one written before the number, or the last `phone-context`. -/
def Tel.context (t : Tel) : Option Str :=
  match t.pref with
  | some p => some p
  | none => (t.last (str% "phone-context")).map dropPlus

/-- `tel:` in any letter case. -/
def telScheme (s : Str) : Prop :=
  ∃ a b c, s = [a, b, c, ':'] ∧ (a = 't' ∨ a = 'T') ∧ (b = 'e' ∨ b = 'E') ∧ (c = 'l' ∨ c = 'L')

end Phone.Spec
