import Verif.Basic.Str
/-! # Facts about strings, byte offsets and decimal numbers -/

namespace Phone

theorem utf8Size_pos (c : Char) : 0 < c.utf8Size := Char.utf8Size_pos c

@[simp] theorem byteLen_nil : byteLen [] = 0 := rfl
@[simp] theorem byteLen_cons (c : Char) (s : Str) : byteLen (c :: s) = c.utf8Size + byteLen s := rfl

@[simp] theorem byteLen_append (a b : Str) : byteLen (a ++ b) = byteLen a + byteLen b := by
  induction a with
  | nil => simp
  | cons c a ih => simp [ih]; omega

theorem byteLen_eq_zero {s : Str} : byteLen s = 0 ↔ s = [] := by
  cases s with
  | nil => simp
  | cons c s => have := utf8Size_pos c; simp; omega

theorem length_le_byteLen (s : Str) : s.length ≤ byteLen s := by
  induction s with
  | nil => simp
  | cons c s ih => have := utf8Size_pos c; simp; omega

@[simp] theorem dropBytes_zero (s : Str) : dropBytes s 0 = some s := by cases s <;> simp [dropBytes]
@[simp] theorem takeBytes_zero (s : Str) : takeBytes s 0 = some [] := by cases s <;> simp [takeBytes]

@[simp] theorem dropBytes_append (a b : Str) : dropBytes (a ++ b) (byteLen a) = some b := by
  induction a with
  | nil => simp
  | cons c a ih =>
    have := utf8Size_pos c
    rw [List.cons_append, byteLen_cons, dropBytes, if_neg (by omega), if_pos (by omega), Nat.add_sub_cancel_left, ih]

@[simp] theorem takeBytes_append (a b : Str) : takeBytes (a ++ b) (byteLen a) = some a := by
  induction a with
  | nil => simp
  | cons c a ih =>
    have := utf8Size_pos c
    rw [List.cons_append, byteLen_cons, takeBytes, if_neg (by omega), if_pos (by omega), Nat.add_sub_cancel_left, ih]
    rfl

theorem dropBytes_eq_some {s : Str} {n : Nat} {r : Str} (h : dropBytes s n = some r) :
    ∃ p, s = p ++ r ∧ byteLen p = n := by
  induction s generalizing n with
  | nil =>
    simp only [dropBytes] at h
    split at h
    · cases h; exact ⟨[], by simp_all⟩
    · cases h
  | cons c s ih =>
    simp only [dropBytes] at h
    split at h
    · cases h; exact ⟨[], by simp_all⟩
    · split at h
      · obtain ⟨p, rfl, hp⟩ := ih h
        exact ⟨c :: p, by simp, by simp; omega⟩
      · cases h

theorem takeBytes_eq_some {s : Str} {n : Nat} {p : Str} (h : takeBytes s n = some p) :
    ∃ r, s = p ++ r ∧ byteLen p = n := by
  induction s generalizing n p with
  | nil =>
    simp only [takeBytes] at h
    split at h
    · cases h; exact ⟨[], by simp_all⟩
    · cases h
  | cons c s ih =>
    simp only [takeBytes] at h
    split at h
    · cases h; exact ⟨c :: s, by simp_all⟩
    · split at h
      · simp only [Option.map_eq_some_iff] at h
        obtain ⟨q, hq, rfl⟩ := h
        obtain ⟨r, rfl, hp⟩ := ih hq
        exact ⟨r, by simp, by simp; omega⟩
      · cases h

theorem stripPrefix_eq_some {p s r : Str} : stripPrefix p s = some r ↔ s = p ++ r := by
  induction p generalizing s with
  | nil => simp [stripPrefix, eq_comm]
  | cons c p ih =>
    cases s with
    | nil => simp [stripPrefix]
    | cons d s =>
      simp only [stripPrefix]
      split
      · rename_i h; subst h; simp [ih]
      · rename_i h
        simp only [reduceCtorEq, List.cons_append, List.cons.injEq, false_iff, not_and]
        intro h'; exact absurd h'.symm h

theorem startsWith_iff {s p : Str} : startsWith s p = true ↔ ∃ r, s = p ++ r := by
  simp only [startsWith, Option.isSome_iff_exists, stripPrefix_eq_some]

theorem startsWith_eq_isPrefixOf (s p : Str) : startsWith s p = p.isPrefixOf s := by
  rw [Bool.eq_iff_iff, startsWith_iff, List.isPrefixOf_iff_prefix]
  exact ⟨fun ⟨r, h⟩ => ⟨r, h.symm⟩, fun ⟨r, h⟩ => ⟨r, h.symm⟩⟩

/-- All characters are ASCII digits. -/
def Digits (s : Str) : Prop := ∀ c ∈ s, isDigit c = true

instance (s : Str) : Decidable (Digits s) := by unfold Digits; infer_instance

theorem digits_iff_all {s : Str} : Digits s ↔ s.all isDigit = true := by simp [Digits]

@[simp] theorem digits_nil : Digits [] := by simp [Digits]
@[simp] theorem digits_cons {c : Char} {s : Str} : Digits (c :: s) ↔ isDigit c = true ∧ Digits s := by simp [Digits]
@[simp] theorem digits_append {a b : Str} : Digits (a ++ b) ↔ Digits a ∧ Digits b := by
  simp only [Digits, List.mem_append]
  exact ⟨fun h => ⟨fun c hc => h c (.inl hc), fun c hc => h c (.inr hc)⟩, fun h c hc => hc.elim (h.1 c) (h.2 c)⟩

theorem isDigit_iff {c : Char} : isDigit c = true ↔ 48 ≤ c.toNat ∧ c.toNat ≤ 57 := by simp [isDigit]

theorem utf8Size_of_ascii {c : Char} (h : c.toNat < 128) : c.utf8Size = 1 := by
  rw [Char.utf8Size_eq_one_iff]
  exact UInt32.le_iff_toNat_le.2 (by have : c.val.toNat = c.toNat := rfl; rw [this]; show c.toNat ≤ 127; omega)

theorem utf8Size_of_isDigit {c : Char} (h : isDigit c = true) : c.utf8Size = 1 :=
  utf8Size_of_ascii (by rw [isDigit_iff] at h; omega)

theorem Digits.byteLen {s : Str} (h : Digits s) : byteLen s = s.length := by
  induction s with
  | nil => rfl
  | cons c s ih => simp at h; simp [utf8Size_of_isDigit h.1, ih h.2]; omega

theorem Digits.dropBytes {s : Str} (h : Digits s) {n : Nat} (hn : n ≤ s.length) :
    dropBytes s n = some (s.drop n) := by
  have h1 : Digits (s.take n) := fun c hc => h c (List.mem_of_mem_take hc)
  have h2 : Phone.byteLen (s.take n) = n := by rw [h1.byteLen]; simp; omega
  have := dropBytes_append (s.take n) (s.drop n)
  rwa [List.take_append_drop, h2] at this

theorem Digits.takeBytes {s : Str} (h : Digits s) {n : Nat} (hn : n ≤ s.length) :
    takeBytes s n = some (s.take n) := by
  have h1 : Digits (s.take n) := fun c hc => h c (List.mem_of_mem_take hc)
  have h2 : Phone.byteLen (s.take n) = n := by rw [h1.byteLen]; simp; omega
  have := takeBytes_append (s.take n) (s.drop n)
  rwa [List.take_append_drop, h2] at this

theorem Digits.take {s : Str} (h : Digits s) (n : Nat) : Digits (s.take n) := fun c hc => h c (List.mem_of_mem_take hc)
theorem Digits.drop {s : Str} (h : Digits s) (n : Nat) : Digits (s.drop n) := fun c hc => h c (List.mem_of_mem_drop hc)

/-! ## Decimal numbers -/

theorem digitVal_lt {c : Char} (h : isDigit c = true) : digitVal c < 10 := by
  rw [isDigit_iff] at h; unfold digitVal; omega

theorem toNat_ofNat_small {n : Nat} (h : n < 128) : (Char.ofNat n).toNat = n := by
  have : n.isValidChar := Or.inl (by omega)
  simp [Char.ofNat, this, Char.toNat, Char.ofNatAux]

theorem digitChar_toNat {d : Nat} (h : d < 10) : (digitChar d).toNat = 48 + d := toNat_ofNat_small (by omega)

@[simp] theorem isDigit_digitChar {d : Nat} (h : d < 10) : isDigit (digitChar d) = true := by
  rw [isDigit_iff, digitChar_toNat h]; omega

theorem digitVal_digitChar {d : Nat} (h : d < 10) : digitVal (digitChar d) = d := by
  unfold digitVal; rw [digitChar_toNat h]; omega

theorem char_eq_of_toNat {a b : Char} (h : a.toNat = b.toNat) : a = b := Char.toNat_inj.1 h

theorem digitChar_digitVal {c : Char} (h : isDigit c = true) : digitChar (digitVal c) = c := by
  apply char_eq_of_toNat
  rw [digitChar_toNat (digitVal_lt h)]
  rw [isDigit_iff] at h; unfold digitVal; omega

theorem digitVal_eq_zero {c : Char} (h : isDigit c = true) : digitVal c = 0 ↔ c = '0' := by
  constructor
  · intro h0; rw [← digitChar_digitVal h, h0]; rfl
  · rintro rfl; rfl

@[simp] theorem decVal_nil : decVal [] = 0 := rfl

theorem decVal_concat (s : Str) (c : Char) : decVal (s ++ [c]) = 10 * decVal s + digitVal c := by simp [decVal]

theorem foldl_dec (s : Str) (n : Nat) :
    s.foldl (fun n c => 10 * n + digitVal c) n = n * 10 ^ s.length + decVal s := by
  induction s generalizing n with
  | nil => simp
  | cons c s ih =>
    simp only [List.foldl_cons, List.length_cons, decVal]
    rw [ih, ih (10 * 0 + digitVal c)]
    grind

theorem decVal_append (a b : Str) : decVal (a ++ b) = decVal a * 10 ^ b.length + decVal b := by
  rw [decVal, List.foldl_append, foldl_dec]; rfl

theorem decVal_cons (c : Char) (s : Str) : decVal (c :: s) = digitVal c * 10 ^ s.length + decVal s := by
  rw [show c :: s = [c] ++ s from rfl, decVal_append]; simp [decVal]

theorem decVal_lt {s : Str} (h : Digits s) : decVal s < 10 ^ s.length := by
  induction s with
  | nil => simp
  | cons c s ih =>
    simp at h
    have h1 := digitVal_lt h.1
    have h2 := ih h.2
    rw [decVal_cons, List.length_cons, Nat.pow_succ]
    have : digitVal c * 10 ^ s.length ≤ 9 * 10 ^ s.length := Nat.mul_le_mul_right _ (by omega)
    omega

@[simp] theorem decVal_replicate_zero (n : Nat) (s : Str) : decVal (List.replicate n '0' ++ s) = decVal s := by
  induction n with
  | zero => simp
  | succ n ih => rw [List.replicate_succ, List.cons_append, decVal_cons, ih]; simp [digitVal]

theorem decAux_append (f n : Nat) (acc : Str) : decAux f n acc = decAux f n [] ++ acc := by
  induction f generalizing n acc with
  | zero => simp [decAux]
  | succ f ih =>
    simp only [decAux]
    split
    · simp
    · rw [ih, ih (n / 10) [digitChar (n % 10)]]; simp

theorem decAux_fuel {f g n : Nat} (hf : n < f) (hg : n < g) (acc : Str) : decAux f n acc = decAux g n acc := by
  induction f generalizing g n acc with
  | zero => omega
  | succ f ih =>
    cases g with
    | zero => omega
    | succ g =>
      simp only [decAux]
      split
      · rfl
      · exact ih (by omega) (by omega) _

theorem decStr_small {n : Nat} (h : n < 10) : decStr n = [digitChar n] := by simp [decStr, decAux, h]

theorem decStr_step {n : Nat} (h : 10 ≤ n) : decStr n = decStr (n / 10) ++ [digitChar (n % 10)] := by
  have h' : ¬ n < 10 := by omega
  rw [decStr, decAux, if_neg h', decAux_append, decStr]
  rw [decAux_fuel (f := n) (g := n / 10 + 1) (by omega) (by omega)]

theorem digits_decStr (n : Nat) : Digits (decStr n) := by
  induction n using Nat.strongRecOn with
  | _ n ih =>
    by_cases h : n < 10
    · rw [decStr_small h]; simp [isDigit_digitChar h]
    · rw [decStr_step (by omega)]
      simp [ih (n / 10) (by omega), isDigit_digitChar (Nat.mod_lt n (by omega))]

@[simp] theorem decVal_decStr (n : Nat) : decVal (decStr n) = n := by
  induction n using Nat.strongRecOn with
  | _ n ih =>
    by_cases h : n < 10
    · rw [decStr_small h]; simp [decVal, digitVal_digitChar h]
    · rw [decStr_step (by omega), decVal_concat, ih (n / 10) (by omega),
        digitVal_digitChar (Nat.mod_lt n (by omega))]
      omega

theorem decStr_ne_nil (n : Nat) : decStr n ≠ [] := by
  by_cases h : n < 10
  · rw [decStr_small h]; simp
  · rw [decStr_step (by omega)]; simp

theorem decStr_injective {a b : Nat} (h : decStr a = decStr b) : a = b := by
  rw [← decVal_decStr a, h, decVal_decStr]

theorem decVal_pos_of_head {c : Char} {s : Str} (hc : isDigit c = true) (h0 : c ≠ '0') :
    10 ^ s.length ≤ decVal (c :: s) := by
  rw [decVal_cons]
  have : 1 ≤ digitVal c := by
    have := mt (digitVal_eq_zero hc).1 h0; omega
  have : 1 * 10 ^ s.length ≤ digitVal c * 10 ^ s.length := Nat.mul_le_mul_right _ this
  omega

/-- Printing the value of a digit string without leading zero gives the string back. -/
theorem decStr_decVal {s : Str} (h : Digits s) (h1 : s ≠ []) (h0 : s.head? ≠ some '0') : decStr (decVal s) = s := by
  generalize hn : s.length = n
  induction n generalizing s with
  | zero => exact absurd (List.eq_nil_of_length_eq_zero hn) h1
  | succ n ih =>
    obtain ⟨s, c, rfl⟩ : ∃ t c, s = t ++ [c] := ⟨s.dropLast, s.getLast h1, (List.dropLast_concat_getLast h1).symm⟩
    simp at h hn
    cases s with
    | nil => simp [decVal, decStr_small (digitVal_lt h.2), digitChar_digitVal h.2]
    | cons d s =>
      simp only [List.cons_append, List.head?_cons, ne_eq, Option.some.injEq] at h0
      have ih := ih h.1 (by simp) (by simpa using h0) (by simpa using hn)
      have hpos : 1 ≤ decVal (d :: s) := by
        have := decVal_pos_of_head (s := s) (digits_cons.1 h.1).1 h0
        have := Nat.one_le_pow s.length 10 (by omega)
        omega
      have hv := digitVal_lt h.2
      rw [decVal_concat, decStr_step (by omega)]
      rw [show (10 * decVal (d :: s) + digitVal c) / 10 = decVal (d :: s) by omega, ih,
        show (10 * decVal (d :: s) + digitVal c) % 10 = digitVal c by omega, digitChar_digitVal h.2]

theorem decStr_head_ne_zero {n : Nat} (h : n ≠ 0) : (decStr n).head? ≠ some '0' := by
  induction n using Nat.strongRecOn with
  | _ n ih =>
    by_cases h10 : n < 10
    · rw [decStr_small h10]
      intro h'
      simp only [List.head?_cons, Option.some.injEq] at h'
      have := congrArg Char.toNat h'
      rw [digitChar_toNat h10] at this
      have h48 : ('0' : Char).toNat = 48 := rfl
      omega
    · rw [decStr_step (by omega)]
      have := ih (n / 10) (by omega) (by omega)
      cases hd : decStr (n / 10) with
      | nil => exact absurd hd (decStr_ne_nil _)
      | cons c s => rw [hd] at this; simpa using this

theorem length_decStr_lt {n k : Nat} (h : n < 10 ^ k) (hk : 0 < k) : (decStr n).length ≤ k := by
  induction k generalizing n with
  | zero => omega
  | succ k ih =>
    by_cases h10 : n < 10
    · rw [decStr_small h10]; simp
    · rw [decStr_step (by omega)]
      have hk' : 0 < k := by
        cases k with
        | zero => simp at h; omega
        | succ k => omega
      have := ih (n := n / 10) (by rw [Nat.pow_succ] at h; omega) hk'
      simp; omega

theorem optPlus_digits {s : Str} (h : Digits s) : optPlus s = s := by
  unfold optPlus
  split
  · simp [isDigit] at h
  · rfl

theorem optPlus_cases (s : Str) : s = optPlus s ∨ s = '+' :: optPlus s := by
  unfold optPlus
  split
  · right; rfl
  · left; rfl

theorem parseUInt_digits {b : Nat} {s : Str} (h : Digits s) (h1 : s ≠ []) :
    parseUInt b s = if decVal s < b then some (decVal s) else none := by
  simp [parseUInt, optPlus_digits h, h1, digits_iff_all.1 h]

theorem parseUInt_eq_some {b : Nat} {s : Str} {v : Nat} (h : parseUInt b s = some v) :
    v < b ∧ ∃ ds, (s = ds ∨ s = '+' :: ds) ∧ ds ≠ [] ∧ Digits ds ∧ decVal ds = v := by
  simp only [parseUInt] at h
  split at h
  · rename_i hc
    cases h
    exact ⟨hc.2.2, _, optPlus_cases s, hc.1, digits_iff_all.2 hc.2.1, rfl⟩
  · cases h

theorem intScan_overflow {b acc : Nat} {s : Str} (h : Digits s) (ha : acc < b)
    (hv : b ≤ s.foldl (fun n c => 10 * n + digitVal c) acc) : intScan b acc s = .posOverflow := by
  induction s generalizing acc with
  | nil => simp at hv; omega
  | cons c cs ih =>
    rw [intScan, if_pos (h c (by simp))]
    split
    · rename_i hlt
      exact ih (fun x hx => h x (by simp [hx])) hlt hv
    · rfl

/-- Digits that are no number of the type are none or too large. -/
theorem intErr_digits {b : Nat} {s : Str} (hb : 0 < b) (h : Digits s) (hn : parseUInt b s = none) :
    (s = [] ∧ intErr b s = .empty) ∨ (s ≠ [] ∧ b ≤ decVal s ∧ intErr b s = .posOverflow) := by
  by_cases h1 : s = []
  · subst h1; exact .inl ⟨rfl, rfl⟩
  · rw [parseUInt_digits h h1] at hn
    have hv : b ≤ decVal s := by
      split at hn
      · cases hn
      · omega
    refine .inr ⟨h1, hv, ?_⟩
    rw [intErr, optPlus_digits h]
    exact intScan_overflow h hb hv

theorem parseUInt_decStr {b n : Nat} (h : n < b) : parseUInt b (decStr n) = some n := by
  rw [parseUInt_digits (digits_decStr n) (decStr_ne_nil n)]; simp [h]

end Phone
