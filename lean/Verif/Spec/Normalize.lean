import Verif.Basic.Str
/-! # Specification of character normalisation -/

namespace Phone.Spec

/-- The supported non-ASCII decimal digit blocks: script and code point of its digit zero. -/
def digitBlocks : List (String × Nat) :=
  [("Arabic-Indic", 0x0660), ("Extended Arabic-Indic", 0x06F0), ("NKo", 0x07C0), ("Devanagari", 0x0966),
   ("Bengali", 0x09E6), ("Gurmukhi", 0x0A66), ("Gujarati", 0x0AE6), ("Oriya", 0x0B66), ("Tamil", 0x0BE6),
   ("Telugu", 0x0C66), ("Kannada", 0x0CE6), ("Malayalam", 0x0D66), ("Thai", 0x0E50), ("Lao", 0x0ED0),
   ("Fullwidth", 0xFF10)]

/-- `c` is a decimal digit with value `i` in ASCII or one of the supported blocks. -/
def DigitValue (c : Char) (i : Nat) : Prop := i < 10 ∧ (c.toNat = 48 + i ∨ ∃ b ∈ digitBlocks, c.toNat = b.2 + i)

/-- The letters on each key of a telephone keypad. -/
def keys : List (Nat × String) :=
  [(2, "abcABC"), (3, "defDEF"), (4, "ghiGHI"), (5, "jklJKL"), (6, "mnoMNO"), (7, "pqrsPQRS"), (8, "tuvTUV"),
   (9, "wxyzWXYZ")]

/-- The key on which a letter is printed. -/
def OnKey (c : Char) (i : Nat) : Prop := ∃ k ∈ keys, k.1 = i ∧ c ∈ k.2.toList

/-- A vanity number contains at least three ASCII letters. -/
def vanity (s : Str) : Bool := decide (3 ≤ s.countP isAlpha)

/-- `Digitised v s ds`: `ds` are the digits of `s` in order, where letters count as keypad digits if `v` and are dropped
otherwise, and all other characters are dropped. -/
inductive Digitised (v : Bool) : Str → Str → Prop where
  | nil : Digitised v [] []
  | digit {c i s ds} : DigitValue c i → Digitised v s ds → Digitised v (c :: s) (digitChar i :: ds)
  | letter {c i s ds} : v = true → OnKey c i → Digitised v s ds → Digitised v (c :: s) (digitChar i :: ds)
  | drop {c s ds} : (∀ i, ¬ DigitValue c i) → (v = true → ∀ i, ¬ OnKey c i) → Digitised v s ds → Digitised v (c :: s) ds

end Phone.Spec
