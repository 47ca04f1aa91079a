import Verif.Model.NationalNumber
/-! # Specification of reading a national number from any text -/

namespace Phone.Spec

/-- What a text means as a national number: zeros first, counted modulo 256, then perhaps a plus sign, then digits. -/
inductive NationalRead : Str → Outcome ParseErr NationalNumber → Prop where
  | number {z : Nat} {sign ds : Str} {n : NationalNumber} : (sign = [] ∨ sign = ['+']) → ds ≠ [] → (∀ c ∈ ds, isDigit c = true) →
      (sign = [] → ds.head? ≠ some '0') → decVal ds < 2 ^ 56 → n.value.toNat = decVal ds → n.zeros.toNat = z % 256 →
      NationalRead (List.replicate z '0' ++ (sign ++ ds)) (.ok n)
  /-- The number has more than 56 bits. -/
  | long {z : Nat} {sign ds : Str} : (sign = [] ∨ sign = ['+']) → ds ≠ [] → (∀ c ∈ ds, isDigit c = true) →
      (sign = [] → ds.head? ≠ some '0') → 2 ^ 56 ≤ decVal ds → decVal ds < 2 ^ 64 → NationalRead (List.replicate z '0' ++ (sign ++ ds)) (.err .tooLong)
  /-- The digits up to some place form a number of more than 64 bits, whatever follows. -/
  | huge {z : Nat} {sign ds rest : Str} : (sign = [] ∨ sign = ['+']) → (∀ c ∈ ds, isDigit c = true) →
      (sign = [] → ds.head? ≠ some '0') → 2 ^ 64 ≤ decVal ds →
      NationalRead (List.replicate z '0' ++ (sign ++ (ds ++ rest))) (.err (.malformedInteger .posOverflow))
  /-- There is nothing but zeros. -/
  | nothing {z : Nat} : NationalRead (List.replicate z '0') (.err (.malformedInteger .empty))
  /-- Before the number gets too large there is another character; a plus sign counts if nothing follows it. -/
  | character {z : Nat} {sign ds rest : Str} {c : Char} : (sign = [] ∨ sign = ['+']) → (∀ c ∈ ds, isDigit c = true) →
      (sign = [] → ds.head? ≠ some '0') → decVal ds < 2 ^ 64 → isDigit c = false → (sign = [] → ds = [] → c = '+' → rest = []) →
      NationalRead (List.replicate z '0' ++ (sign ++ (ds ++ c :: rest))) (.err (.malformedInteger .invalidDigit))

end Phone.Spec
