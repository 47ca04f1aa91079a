import Verif.Basic.StrLemmas
/-! # Specification of a viable number -/

namespace Phone.Spec

/-- Punctuation allowed in a phone number: ASCII and typographic hyphens and dashes, `x`, spaces, brackets, dot, slash, tilde
and their wide variants. (The fullwidth full stop U+FF0E is not included, although `VALID_PUNCTUATION` in
`/repo/src/consts.rs:242` has it.) -/
def isPunct (c : Char) : Bool :=
  c ∈ (str% "-x ()[]./~") || (0x2010 ≤ c.toNat && c.toNat ≤ 0x2015) ||
  c.toNat ∈ [0x2212, 0x30FC, 0xFF0D, 0xFF0F, 0x00A0, 0x00AD, 0x200B, 0x2060, 0x3000, 0xFF08, 0xFF09, 0xFF3B, 0xFF3D,
    0x2053, 0x223C, 0xFF5E]

/-- ASCII or fullwidth plus sign. -/
def isPlus (c : Char) : Bool := c == '+' || c.toNat == 0xFF0B

/-- Punctuation or star. -/
def isFill (c : Char) : Bool := isPunct c || c == '*'

/-- Two digits, or: plus signs, three digits each preceded by any amount of punctuation or stars, then any mix of punctuation,
stars, digits and letters. -/
def Viable (s : Str) : Prop :=
  (∃ a b, s = [a, b] ∧ isDigit a = true ∧ isDigit b = true) ∨
  ∃ p f1 d1 f2 d2 f3 d3 rest, s = p ++ (f1 ++ d1 :: (f2 ++ d2 :: (f3 ++ d3 :: rest))) ∧
    (∀ c ∈ p, isPlus c = true) ∧
    (∀ c ∈ f1, isFill c = true) ∧ (∀ c ∈ f2, isFill c = true) ∧ (∀ c ∈ f3, isFill c = true) ∧
    isDigit d1 = true ∧ isDigit d2 = true ∧ isDigit d3 = true ∧
    ∀ c ∈ rest, isFill c = true ∨ isDigit c = true ∨ isAlpha c = true

end Phone.Spec
