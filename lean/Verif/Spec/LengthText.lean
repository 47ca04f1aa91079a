import Verif.Model.Loader
/-! # What any text of a length list comes to (C98), stated without the loader's functions -/

namespace Phone.Xml.LengthText

/-- The text is a number below 65536: digits, perhaps after one plus sign. -/
def Num (t : Str) (n : Nat) : Prop :=
  n < 65536 ∧ ∃ ds, (t = ds ∨ t = '+' :: ds) ∧ ds ≠ [] ∧ (∀ c ∈ ds, '0' ≤ c ∧ c ≤ '9') ∧
    ds.foldl (fun v c => 10 * v + (c.toNat - '0'.toNat)) 0 = n

/-- The text is no such number. -/
def NoNum (t : Str) : Prop := ∀ n, ¬ Num t n

/-- The code points of white space. -/
def White (c : Char) : Prop :=
  c.toNat ∈ [9, 10, 11, 12, 13, 0x20, 0x85, 0xA0, 0x1680, 0x2000, 0x2001, 0x2002, 0x2003, 0x2004, 0x2005, 0x2006, 0x2007,
    0x2008, 0x2009, 0x200A, 0x2028, 0x2029, 0x202F, 0x205F, 0x3000]

/-- `t` is `s` without the white space around it. -/
def Trimmed (s t : Str) : Prop :=
  ∃ w w', s = w ++ t ++ w' ∧ (∀ c ∈ w, White c) ∧ (∀ c ∈ w', White c) ∧ (∀ c, t.head? = some c → ¬ White c) ∧
    ∀ c, t.getLast? = some c → ¬ White c

/-- Nothing, or something after a further hyphen. -/
def Rest (r : Str) : Prop := r = [] ∨ ∃ r', r = '-' :: r'

/-- What one item, without white space around it, comes to. -/
inductive Item : Str → Outcome LoadErr (List Nat) → Prop where
  /-- An empty item crashes. -/
  | empty : Item [] (.panic .index)
  /-- A number is that length. -/
  | single {c t n} : c ≠ '[' → Num (c :: t) n → Item (c :: t) (.ok [n])
  /-- Anything else that does not begin with a bracket is an error. -/
  | noNumber {c t} : c ≠ '[' → NoNum (c :: t) → Item (c :: t) (.err .integer)
  /-- A bracket without a hyphen is passed over in silence, whatever comes after it. -/
  | ignored {t} : '-' ∉ t → Item ('[' :: t) (.ok [])
  /-- A range that does not begin with a number is an error. -/
  | badStart {a r} : '-' ∉ a → NoNum a → Item ('[' :: a ++ '-' :: r) (.err .integer)
  /-- A range without anything between the first hyphen and its end, or the next hyphen, crashes. -/
  | noEnd {a r x} : '-' ∉ a → Num a x → Rest r → Item ('[' :: a ++ '-' :: r) (.panic .overflow)
  /-- A range crashes if the character in the place of the closing bracket is not ASCII. -/
  | wide {a b r c x} : '-' ∉ a → Num a x → '-' ∉ b → c ≠ '-' → 128 ≤ c.toNat → Rest r →
      Item ('[' :: a ++ '-' :: b ++ c :: r) (.panic .slice)
  /-- A range that does not end with a number is an error. -/
  | badEnd {a b r c x} : '-' ∉ a → Num a x → '-' ∉ b → c ≠ '-' → c.toNat < 128 → Rest r → NoNum b →
      Item ('[' :: a ++ '-' :: b ++ c :: r) (.err .integer)
  /-- A range that ends with the largest number crashes. -/
  | overflow {a b r c x} : '-' ∉ a → Num a x → '-' ∉ b → c ≠ '-' → c.toNat < 128 → Rest r → Num b 65535 →
      Item ('[' :: a ++ '-' :: b ++ c :: r) (.panic .overflow)
  /-- A range stands for the lengths from the first number to the last. The closing bracket may be any ASCII character, and what
  comes after a further hyphen does not matter. -/
  | range {a b r c x y} : '-' ∉ a → Num a x → '-' ∉ b → c ≠ '-' → c.toNat < 128 → Rest r → Num b y → y < 65535 →
      Item ('[' :: a ++ '-' :: b ++ c :: r) (.ok ((List.range (y + 1)).filter fun n => x ≤ n))

/-- What a list text comes to: the items between the commas from the left; the first that is not read decides. -/
inductive Reads : Str → Outcome LoadErr (List Nat) → Prop where
  /-- The last item. -/
  | last {s t o} : ',' ∉ s → Trimmed s t → Item t o → Reads s o
  /-- An item before a comma that is not read. -/
  | stop {s t r o} : ',' ∉ s → Trimmed s t → Item t o → (∀ l, o ≠ .ok l) → Reads (s ++ ',' :: r) o
  /-- An item before a comma, and all is read. -/
  | both {s t r l m} : ',' ∉ s → Trimmed s t → Item t (.ok l) → Reads r (.ok m) → Reads (s ++ ',' :: r) (.ok (l ++ m))
  /-- An item before a comma that is read, but something after it is not. -/
  | later {s t r l o} : ',' ∉ s → Trimmed s t → Item t (.ok l) → Reads r o → (∀ l, o ≠ .ok l) → Reads (s ++ ',' :: r) o

end Phone.Xml.LengthText
