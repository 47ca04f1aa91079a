import Verif.Model.Parse
import Verif.Spec.Normalize
import Verif.Regex.Lang
import Verif.Basic.KernelRfl
/-! # C15, C16: normalisation of digits and letters -/

namespace Phone
open Helper

/-! ## Single characters -/

theorem digitZeros_eq : digitZeros = Spec.digitBlocks.map Prod.snd := rfl

theorem digitChar_inj {i j : Nat} (hi : i < 10) (hj : j < 10) (h : digitChar i = digitChar j) : i = j := by
  have := congrArg Char.toNat h
  rw [digitChar_toNat hi, digitChar_toNat hj] at this; omega

/-- The blocks are far apart from each other and from ASCII. -/
theorem blocks_disjoint : ∀ a ∈ digitZeros, ∀ b ∈ digitZeros, a = b ∨ a + 10 ≤ b ∨ b + 10 ≤ a := by decide
theorem blocks_high : ∀ a ∈ digitZeros, 128 ≤ a := by decide

theorem asDecDigit_eq_some {c d : Char} : asDecDigit c = some d ↔ ∃ i, Spec.DigitValue c i ∧ d = digitChar i := by
  unfold asDecDigit Spec.DigitValue
  by_cases hd : isDigit c = true
  · simp only [hd, if_true, Option.some.injEq]
    have hc := isDigit_iff.1 hd
    constructor
    · rintro rfl
      refine ⟨digitVal c, ⟨digitVal_lt hd, .inl ?_⟩, (digitChar_digitVal hd).symm⟩
      unfold digitVal; omega
    · rintro ⟨i, ⟨hi, h | ⟨b, hb, h⟩⟩, rfl⟩
      · apply char_eq_of_toNat; rw [digitChar_toNat hi]; omega
      · have := blocks_high b.2 (by rw [digitZeros_eq]; exact List.mem_map_of_mem hb)
        omega
  · simp only [hd, Bool.false_eq_true, if_false, Option.map_eq_some_iff]
    constructor
    · rintro ⟨z, hz, rfl⟩
      have hmem := List.mem_of_find?_eq_some hz
      have hp := List.find?_some hz
      simp only [Bool.and_eq_true, decide_eq_true_eq] at hp
      rw [digitZeros_eq, List.mem_map] at hmem
      obtain ⟨b, hb, rfl⟩ := hmem
      exact ⟨c.toNat - b.2, ⟨by omega, .inr ⟨b, hb, by omega⟩⟩, rfl⟩
    · rintro ⟨i, ⟨hi, h | ⟨b, hb, h⟩⟩, rfl⟩
      · exfalso; apply hd; rw [isDigit_iff]; omega
      · have hmem : b.2 ∈ digitZeros := by rw [digitZeros_eq]; exact List.mem_map_of_mem hb
        cases hf : digitZeros.find? fun z => z ≤ c.toNat && c.toNat ≤ z + 9 with
        | none =>
          have := List.find?_eq_none.1 hf _ hmem
          simp at this; omega
        | some z =>
          refine ⟨z, rfl, ?_⟩
          have hz := List.mem_of_find?_eq_some hf
          have hp := List.find?_some hf
          simp only [Bool.and_eq_true, decide_eq_true_eq] at hp
          rcases blocks_disjoint z hz _ hmem with h1 | h1 | h1
          · congr 1; omega
          · omega
          · omega

theorem asDecDigit_eq_none {c : Char} : asDecDigit c = none ↔ ∀ i, ¬ Spec.DigitValue c i := by
  constructor
  · intro h i hi
    rw [asDecDigit_eq_some.2 ⟨i, hi, rfl⟩] at h; cases h
  · intro h
    cases hc : asDecDigit c with
    | none => rfl
    | some d => obtain ⟨i, hi, _⟩ := asDecDigit_eq_some.1 hc; exact absurd hi (h i)

theorem isDigit_of_asDecDigit {c d : Char} (h : asDecDigit c = some d) : isDigit d = true := by
  obtain ⟨i, ⟨hi, _⟩, rfl⟩ := asDecDigit_eq_some.1 h
  exact isDigit_digitChar hi

theorem asDecDigit_of_isDigit {c : Char} (h : isDigit c = true) : asDecDigit c = some c := by simp [asDecDigit, h]

/-- A mapping all of whose values are digits. -/
def DigitMap (m : List (Char × Char)) : Prop := ∀ p ∈ m, isDigit p.2 = true

theorem digitMap_ascii : DigitMap Consts.asciiMappings := by unfold DigitMap; decide
theorem digitMap_alpha : DigitMap Consts.alphaPhoneMappings := by unfold DigitMap; decide

theorem mapGet_mem {m : List (Char × Char)} {c d : Char} (h : mapGet m c = some d) : (c, d) ∈ m := by
  simp only [mapGet, Option.map_eq_some_iff] at h
  obtain ⟨p, hp, rfl⟩ := h
  have := List.find?_some hp
  simp only [beq_iff_eq] at this
  subst this
  exact List.mem_of_find?_eq_some hp

theorem isDigit_normChar {m : List (Char × Char)} (hm : DigitMap m) {c d : Char} (h : normChar m c = some d) :
    isDigit d = true := by
  unfold normChar at h
  cases hc : asDecDigit c with
  | none => rw [hc] at h; exact hm _ (mapGet_mem h)
  | some e => rw [hc] at h; cases h; exact isDigit_of_asDecDigit hc

theorem normChar_of_isDigit {m : List (Char × Char)} {c : Char} (h : isDigit c = true) : normChar m c = some c := by
  simp [normChar, asDecDigit_of_isDigit h]

/-- ASCII mappings add nothing to the digit conversion. -/
theorem mapGet_ascii {c d : Char} (h : mapGet Consts.asciiMappings c = some d) : isDigit c = true := by
  have := mapGet_mem h
  simp only [Consts.asciiMappings, List.mem_cons, Prod.mk.injEq, List.not_mem_nil, or_false] at this
  rcases this with h | h | h | h | h | h | h | h | h | h <;> (rw [h.1]; rfl)

theorem normChar_ascii (c : Char) : normChar Consts.asciiMappings c = asDecDigit c := by
  unfold normChar
  cases hc : asDecDigit c with
  | some d => rfl
  | none =>
    cases hm : mapGet Consts.asciiMappings c with
    | none => simp
    | some d => rw [asDecDigit_of_isDigit (mapGet_ascii hm)] at hc; cases hc

instance (c : Char) (i : Nat) : Decidable (Spec.OnKey c i) := by unfold Spec.OnKey; infer_instance

/-- Boolean comparison of the letter table with the keypad for one code point below 128. -/
def keyOk (n : Nat) : Bool :=
  match mapGet Consts.alphaPhoneMappings (Char.ofNat n) with
  | some d => isDigit (Char.ofNat n) || ((List.range 10).any fun i => decide (Spec.OnKey (Char.ofNat n) i) && d == digitChar i)
  | none => (List.range 10).all fun i => !decide (Spec.OnKey (Char.ofNat n) i)

theorem keyOk_all : (List.range 128).all keyOk = true := by kernel_rfl

theorem keys_low : ∀ k ∈ Spec.keys, k.1 < 10 ∧ ∀ c ∈ k.2.toList, c.toNat < 128 ∧ isDigit c = false := by
  intro k hk
  simp only [Spec.keys, List.mem_cons, List.not_mem_nil, or_false] at hk
  rcases hk with rfl | rfl | rfl | rfl | rfl | rfl | rfl | rfl <;> exact ⟨by decide, by decide⟩

theorem onKey_low {c : Char} {i : Nat} (h : Spec.OnKey c i) : i < 10 ∧ c.toNat < 128 ∧ isDigit c = false := by
  obtain ⟨k, hk, rfl, hc⟩ := h
  exact ⟨(keys_low k hk).1, (keys_low k hk).2 c hc⟩

/-- Keys do not share letters. -/
def keyUnique (n : Nat) : Bool :=
  (List.range 10).all fun i => (List.range 10).all fun j =>
    !(decide (Spec.OnKey (Char.ofNat n) i) && decide (Spec.OnKey (Char.ofNat n) j)) || i == j

theorem keyUnique_all : (List.range 128).all keyUnique = true := by kernel_rfl

theorem onKey_unique {c : Char} {i j : Nat} (hi : Spec.OnKey c i) (hj : Spec.OnKey c j) : i = j := by
  have h1 := onKey_low hi
  have h2 := onKey_low hj
  have := List.all_eq_true.1 keyUnique_all c.toNat (by simp; omega)
  unfold keyUnique at this
  rw [Char.ofNat_toNat] at this
  have := List.all_eq_true.1 this i (by simp; omega)
  have := List.all_eq_true.1 this j (by simp; omega)
  simpa [hi, hj] using this

theorem not_digitValue_of_onKey {c : Char} {i j : Nat} (hi : Spec.OnKey c i) : ¬ Spec.DigitValue c j := by
  have h1 := onKey_low hi
  rintro ⟨hj, h | ⟨b, hb, h⟩⟩
  · have : isDigit c = true := by rw [isDigit_iff]; omega
    rw [this] at h1; simp at h1
  · have := blocks_high b.2 (by rw [digitZeros_eq]; exact List.mem_map_of_mem hb)
    omega

theorem normChar_alpha_eq_some {c d : Char} : normChar Consts.alphaPhoneMappings c = some d ↔
    ∃ i, (Spec.DigitValue c i ∨ Spec.OnKey c i) ∧ d = digitChar i := by
  unfold normChar
  cases hc : asDecDigit c with
  | some e =>
    obtain ⟨i, hi, rfl⟩ := asDecDigit_eq_some.1 hc
    simp only [Option.orElse_some, Option.some.injEq]
    constructor
    · rintro rfl; exact ⟨i, .inl hi, rfl⟩
    · rintro ⟨j, hj | hj, rfl⟩
      · have := asDecDigit_eq_some.2 ⟨j, hj, rfl⟩
        rw [hc] at this; exact Option.some.inj this
      · exact absurd hi (not_digitValue_of_onKey hj)
  | none =>
    have hn := asDecDigit_eq_none.1 hc
    have hnd : isDigit c = false := by
      cases h : isDigit c with
      | false => rfl
      | true => rw [asDecDigit_of_isDigit h] at hc; cases hc
    simp only [Option.orElse_none]
    by_cases hlow : c.toNat < 128
    · have hk := List.all_eq_true.1 keyOk_all c.toNat (by simp; omega)
      unfold keyOk at hk
      rw [Char.ofNat_toNat] at hk
      cases hm : mapGet Consts.alphaPhoneMappings c with
      | some e =>
        rw [hm] at hk
        simp only [hnd, Bool.false_or, List.any_eq_true, List.mem_range, Bool.and_eq_true, decide_eq_true_eq,
          beq_iff_eq] at hk
        obtain ⟨i, _, hi, rfl⟩ := hk
        simp only [Option.some.injEq]
        constructor
        · rintro rfl; exact ⟨i, .inr hi, rfl⟩
        · rintro ⟨j, hj | hj, rfl⟩
          · exact absurd hj (hn j)
          · rw [onKey_unique hi hj]
      | none =>
        rw [hm] at hk
        simp only [List.all_eq_true, List.mem_range, Bool.not_eq_true', decide_eq_false_iff_not] at hk
        constructor
        · intro h; cases h
        · rintro ⟨j, hj | hj, rfl⟩
          · exact absurd hj (hn j)
          · exact absurd hj (hk j (onKey_low hj).1)
    · constructor
      · intro h
        have hmem := mapGet_mem h
        have : ∀ p ∈ Consts.alphaPhoneMappings, p.1.toNat < 128 := by decide
        exact absurd (this _ hmem) hlow
      · rintro ⟨j, hj | hj, rfl⟩
        · exact absurd hj (hn j)
        · exact absurd (onKey_low hj).2.1 hlow

/-! ## Strings -/

/-- Keeping leading ASCII digits is the same as converting every character. -/
theorem act_eq_filterMap (m : List (Char × Char)) (s : Str) : act m s = s.filterMap (normChar m) := by
  induction s with
  | nil => rfl
  | cons c s ih =>
    unfold act at ih ⊢
    by_cases h : isDigit c = true
    · simp [h, ih, normChar_of_isDigit h]
    · simp [h]

theorem act_digits {m : List (Char × Char)} (hm : DigitMap m) (s : Str) : Digits (act m s) := by
  rw [act_eq_filterMap]
  intro c hc
  obtain ⟨d, _, hd⟩ := List.mem_filterMap.1 hc
  exact isDigit_normChar hm hd

theorem act_of_digits {m : List (Char × Char)} {s : Str} (h : Digits s) : act m s = s := by
  rw [act_eq_filterMap]
  induction s with
  | nil => rfl
  | cons c s ih =>
    simp only [digits_cons] at h
    simp [normChar_of_isDigit h.1, ih h.2]

theorem act_append (m : List (Char × Char)) (a b : Str) : act m (a ++ b) = act m a ++ act m b := by
  simp [act_eq_filterMap]

/-- The digit mapping used for a string. -/
def mapFor (v : Bool) : List (Char × Char) := if v then Consts.alphaPhoneMappings else Consts.asciiMappings

theorem digitMap_mapFor (v : Bool) : DigitMap (mapFor v) := by
  cases v
  · exact digitMap_ascii
  · exact digitMap_alpha

theorem act_iff_digitised {v : Bool} {s ds : Str} : act (mapFor v) s = ds ↔ Spec.Digitised v s ds := by
  rw [act_eq_filterMap]
  have hs : ∀ {c d}, normChar (mapFor v) c = some d ↔ ∃ i, (Spec.DigitValue c i ∨ (v = true ∧ Spec.OnKey c i)) ∧ d = digitChar i := by
    intro c d
    cases v with
    | true => simp [mapFor, normChar_alpha_eq_some]
    | false => simp [mapFor, normChar_ascii, asDecDigit_eq_some]
  constructor
  · rintro rfl
    induction s with
    | nil => exact .nil
    | cons c s ih =>
      rw [List.filterMap_cons]
      cases hc : normChar (mapFor v) c with
      | none =>
        refine .drop ?_ ?_ ih
        · intro i hi; rw [hs.2 ⟨i, .inl hi, rfl⟩] at hc; cases hc
        · intro hv i hi; rw [hs.2 ⟨i, .inr ⟨hv, hi⟩, rfl⟩] at hc; cases hc
      | some d =>
        obtain ⟨i, hi | ⟨hv, hi⟩, rfl⟩ := hs.1 hc
        · exact .digit hi ih
        · exact .letter hv hi ih
  · intro h
    induction h with
    | nil => rfl
    | digit hi _ ih => rw [List.filterMap_cons, hs.2 ⟨_, .inl hi, rfl⟩, ih]
    | letter hv hi _ ih => rw [List.filterMap_cons, hs.2 ⟨_, .inr ⟨hv, hi⟩, rfl⟩, ih]
    | @drop c s ds h1 h2 _ ih =>
      rw [List.filterMap_cons]
      cases hc : normChar (mapFor v) c with
      | none => exact ih
      | some d =>
        obtain ⟨i, hi | ⟨hv, hi⟩, _⟩ := hs.1 hc
        · exact absurd hi (h1 i)
        · exact absurd hi (h2 hv i)

/-! ## The vanity pattern -/

section
variable [UnicodeTables]

theorem mem_dot {c : Char} : (Cls.mem ⟨true, [Consts.one '\n']⟩ c = true) ↔ c ≠ '\n' := by
  simp [Cls.mem, Consts.one]

theorem lang_star_dot {g : Bool} {p : Nat} {w q : Str} : Lang (.star g Consts.dot) p w q ↔ '\n' ∉ w := by
  rw [Consts.dot, lang_star_cls]
  simp only [mem_dot]
  exact ⟨fun h hm => h _ hm rfl, fun h c hc hn => h (hn ▸ hc)⟩

theorem lang_letter {p : Nat} {w q : Str} :
    Lang (Re.set [.range 'A' 'Z', .range 'a' 'z']) p w q ↔ ∃ c, w = [c] ∧ isAlpha c = true := by
  rw [lang_set]
  simp [CItem.mem, isAlpha]

omit [UnicodeTables] in
theorem three_letters {s : Str} : 3 ≤ s.countP isAlpha ↔ ∃ a x b y c z d, s = a ++ x :: b ++ y :: c ++ z :: d ∧
    isAlpha x = true ∧ isAlpha y = true ∧ isAlpha z = true := by
  have one : ∀ {n : Nat} {s : Str}, n + 1 ≤ s.countP isAlpha → ∃ a x r, s = a ++ x :: r ∧ isAlpha x = true ∧ n ≤ r.countP isAlpha := by
    intro n s
    induction s with
    | nil => simp
    | cons c s ih =>
      intro h
      rw [List.countP_cons] at h
      by_cases hc : isAlpha c = true
      · simp only [hc, if_true] at h
        exact ⟨[], c, s, rfl, hc, by omega⟩
      · simp only [hc] at h
        obtain ⟨a, x, r, rfl, hx, hr⟩ := ih (by simpa using h)
        exact ⟨c :: a, x, r, rfl, hx, hr⟩
  constructor
  · intro h
    obtain ⟨a, x, r, rfl, hx, h⟩ := one h
    obtain ⟨b, y, r, rfl, hy, h⟩ := one h
    obtain ⟨c, z, r, rfl, hz, h⟩ := one h
    exact ⟨a, x, b, y, c, z, r, by simp, hx, hy, hz⟩
  · rintro ⟨a, x, b, y, c, z, d, rfl, hx, hy, hz⟩
    simp [List.countP_append, hx, hy, hz]
    omega

/-- On text without line breaks the vanity pattern asks for three ASCII letters. -/
theorem validAlphaPhone_iff {s : Str} (hs : '\n' ∉ s) : Consts.validAlphaPhone.isMatch s = Spec.vanity s := by
  rw [Bool.eq_iff_iff, isMatch_iff]
  simp only [Spec.vanity, decide_eq_true_eq, three_letters, Consts.validAlphaPhone, Re.rep]
  constructor
  · rintro ⟨pre, rest, rfl, w, q, rfl, h⟩
    obtain ⟨u, v, rfl, h1, _⟩ := lang_cat.1 h
    obtain ⟨u1, v1, rfl, h1, h2⟩ := lang_cat.1 h1
    obtain ⟨u2, v2, rfl, h2, h3⟩ := lang_cat.1 h2
    obtain ⟨a, b, rfl, _, h1⟩ := lang_cat.1 h1
    obtain ⟨c, d, rfl, _, h2⟩ := lang_cat.1 h2
    obtain ⟨e, f, rfl, _, h3⟩ := lang_cat.1 h3
    obtain ⟨x, rfl, hx⟩ := lang_letter.1 h1
    obtain ⟨y, rfl, hy⟩ := lang_letter.1 h2
    obtain ⟨z, rfl, hz⟩ := lang_letter.1 h3
    exact ⟨pre ++ a, x, c, y, e, z, v ++ q, by simp, hx, hy, hz⟩
  · rintro ⟨a, x, b, y, c, z, d, rfl, hx, hy, hz⟩
    simp only [List.mem_append, List.mem_cons, not_or] at hs
    refine ⟨[], _, rfl, a ++ x :: b ++ y :: c ++ z :: d, [], by simp, ?_⟩
    refine lang_cat.2 ⟨a ++ x :: b ++ y :: c ++ [z], d, by simp, ?_, lang_star_dot.2 hs.2.2⟩
    refine lang_cat.2 ⟨a ++ [x], b ++ y :: c ++ [z], by simp, ?_, ?_⟩
    · exact lang_cat.2 ⟨a, [x], rfl, lang_star_dot.2 hs.1.1.1, lang_letter.2 ⟨x, rfl, hx⟩⟩
    refine lang_cat.2 ⟨b ++ [y], c ++ [z], by simp, ?_, ?_⟩
    · exact lang_cat.2 ⟨b, [y], rfl, lang_star_dot.2 hs.1.1.2.2, lang_letter.2 ⟨y, rfl, hy⟩⟩
    · exact lang_cat.2 ⟨c, [z], rfl, lang_star_dot.2 hs.1.2.2, lang_letter.2 ⟨z, rfl, hz⟩⟩

end

/-! ## C16 -/

/-- C16: a decimal digit of ASCII or of a supported block becomes the ASCII digit of the same value, anything else is not a
digit. -/
theorem C16_digit_value (c : Char) :
    (∀ i, Spec.DigitValue c i → asDecDigit c = some (digitChar i)) ∧ ((∀ i, ¬ Spec.DigitValue c i) → asDecDigit c = none) :=
  ⟨fun i h => asDecDigit_eq_some.2 ⟨i, h, rfl⟩, asDecDigit_eq_none.2⟩

example : Spec.DigitValue '٧' 7 ∧ Spec.DigitValue '９' 9 ∧ Spec.DigitValue '໑' 1 ∧ ∀ i, ¬ Spec.DigitValue '²' i := by
  refine ⟨⟨by decide, .inr ⟨("Arabic-Indic", 0x0660), by decide, by decide⟩⟩,
    ⟨by decide, .inr ⟨("Fullwidth", 0xFF10), by decide, by decide⟩⟩, ⟨by decide, .inr ⟨("Lao", 0x0ED0), by decide, by decide⟩⟩, ?_⟩
  exact asDecDigit_eq_none.1 (by decide)

/-- C16: normalisation with either table gives ASCII digits only, keeps digit strings and is idempotent. -/
theorem C16_normalize (v : Bool) (n : Number) :
    (∀ c ∈ (normalize n (mapFor v)).national, isDigit c = true) ∧
    ((∀ c ∈ n.national, isDigit c = true) → (normalize n (mapFor v)).national = n.national) ∧
    ∀ w, normalize (normalize n (mapFor v)) (mapFor w) = normalize n (mapFor v) := by
  refine ⟨act_digits (digitMap_mapFor v) _, act_of_digits, fun w => ?_⟩
  have h : ∀ o : Option Str, (o.map (act (mapFor v))).map (act (mapFor w)) = o.map (act (mapFor v)) := by
    intro o
    cases o with
    | none => rfl
    | some s => simp [act_of_digits (act_digits (digitMap_mapFor v) s)]
  simp [normalize, act_of_digits (act_digits (digitMap_mapFor v) _), h]

example : normalize { national := str% "(٠٣) 3x", extension := some (str% "１２") } (mapFor false) =
    { national := str% "033", extension := some (str% "12") } := by decide

end Phone
