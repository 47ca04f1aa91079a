import Verif.Model.Validator
import Verif.Spec.Viable
/-! # C14: the language of viable numbers -/

namespace Phone

theorem containsChar_iff {s : Str} {c : Char} : containsChar s c = true ↔ c ∈ s := by
  simp [containsChar]

theorem toNat_mem {s : Str} {c : Char} : c ∈ s ↔ c.toNat ∈ s.map Char.toNat := by
  simp only [List.mem_map]
  constructor
  · intro h; exact ⟨c, h, rfl⟩
  · rintro ⟨d, hd, h⟩; rwa [char_eq_of_toNat h] at hd

theorem eq_char_iff {c d : Char} : c = d ↔ c.toNat = d.toNat := ⟨fun h => h ▸ rfl, char_eq_of_toNat⟩

theorem punctuation_eq (c : Char) : Valid.punctuation c = Spec.isPunct c := by
  rw [Bool.eq_iff_iff]
  unfold Valid.punctuation
  rw [containsChar_iff, toNat_mem]
  simp only [Spec.isPunct, Bool.or_eq_true, decide_eq_true_eq, toNat_mem (s := str% "-x ()[]./~"), Bool.and_eq_true]
  have e1 : Valid.punctuationChars.map Char.toNat =
      [45, 120, 0x2010, 0x2011, 0x2012, 0x2013, 0x2014, 0x2015, 0x2212, 0x30FC, 0xFF0D, 45, 0xFF0F, 32, 0xA0, 0xAD, 0x200B,
       0x2060, 0x3000, 40, 41, 0xFF08, 0xFF09, 0xFF3B, 0xFF3D, 46, 91, 93, 47, 126, 0x2053, 0x223C, 0xFF5E] := by decide
  have e2 : (str% "-x ()[]./~").map Char.toNat = [45, 120, 32, 40, 41, 91, 93, 46, 47, 126] := by decide
  rw [e1, e2]
  simp only [List.mem_cons, List.not_mem_nil, or_false]
  omega

theorem plus_eq (c : Char) : Valid.plus c = Spec.isPlus c := by
  rw [Bool.eq_iff_iff]
  unfold Valid.plus
  rw [containsChar_iff]
  simp only [List.mem_cons, List.not_mem_nil, or_false, Spec.isPlus, Bool.or_eq_true, beq_iff_eq]
  constructor
  · rintro (rfl | rfl)
    · exact .inl rfl
    · exact .inr rfl
  · rintro (rfl | h)
    · exact .inl rfl
    · exact .inr (char_eq_of_toNat h)

theorem valid_digit_eq (c : Char) : Valid.digit c = isDigit c := by
  rw [Bool.eq_iff_iff]
  unfold Valid.digit
  rw [containsChar_iff, toNat_mem, isDigit_iff]
  have e : (str% "0123456789").map Char.toNat = [48, 49, 50, 51, 52, 53, 54, 55, 56, 57] := by decide
  rw [e]
  simp only [List.mem_cons, List.not_mem_nil, or_false]
  omega

theorem valid_alpha_eq (c : Char) : Valid.alpha c = isAlpha c := by
  rw [Bool.eq_iff_iff]
  unfold Valid.alpha
  rw [containsChar_iff, toNat_mem]
  have e : (str% "abcdefghijklmnopqrstuvwxyzABCDEFGHIJKLMNOPQRSTUVWXYZ").map Char.toNat =
    (List.range' 97 26) ++ (List.range' 65 26) := by decide
  rw [e, List.mem_append, List.mem_range'_1, List.mem_range'_1]
  simp only [isAlpha, Bool.or_eq_true, Bool.and_eq_true, decide_eq_true_eq]
  omega

theorem fill_eq (c : Char) : (Valid.punctuation c || Valid.star c) = Spec.isFill c := by
  rw [punctuation_eq]; rfl

theorem not_digit_of_fill {c : Char} (h : Spec.isFill c = true) : isDigit c = false := by
  cases hd : isDigit c with
  | false => rfl
  | true =>
    rw [isDigit_iff] at hd
    simp only [Spec.isFill, Spec.isPunct, Bool.or_eq_true, decide_eq_true_eq, Bool.and_eq_true, beq_iff_eq,
      toNat_mem (s := str% "-x ()[]./~")] at h
    have e2 : (str% "-x ()[]./~").map Char.toNat = [45, 120, 32, 40, 41, 91, 93, 46, 47, 126] := by decide
    rw [e2] at h
    simp only [List.mem_cons, List.not_mem_nil, or_false] at h
    have e : c = '*' ↔ c.toNat = 42 := eq_char_iff
    rw [e] at h
    omega

theorem not_plus_of_digit {c : Char} (h : isDigit c = true) : Spec.isPlus c = false := by
  cases hp : Spec.isPlus c with
  | false => rfl
  | true =>
    rw [isDigit_iff] at h
    simp only [Spec.isPlus, Bool.or_eq_true, beq_iff_eq] at hp
    have e : c = '+' ↔ c.toNat = 43 := eq_char_iff
    rw [e] at hp
    omega

theorem not_plus_of_fill {c : Char} (h : Spec.isFill c = true) : Spec.isPlus c = false := by
  cases hp : Spec.isPlus c with
  | false => rfl
  | true =>
    simp only [Spec.isPlus, Bool.or_eq_true, beq_iff_eq] at hp
    have e1 : c = '+' ↔ c.toNat = 43 := eq_char_iff
    rw [e1] at hp
    simp only [Spec.isFill, Spec.isPunct, Bool.or_eq_true, decide_eq_true_eq, Bool.and_eq_true, beq_iff_eq,
      toNat_mem (s := str% "-x ()[]./~")] at h
    have e2 : (str% "-x ()[]./~").map Char.toNat = [45, 120, 32, 40, 41, 91, 93, 46, 47, 126] := by decide
    rw [e2] at h
    simp only [List.mem_cons, List.not_mem_nil, or_false] at h
    have e : c = '*' ↔ c.toNat = 42 := eq_char_iff
    rw [e] at h
    omega

theorem dropWhile_append_stop {α : Type} {p : α → Bool} {a : List α} {x : α} {b : List α} (ha : ∀ c ∈ a, p c = true)
    (hx : p x = false) : (a ++ x :: b).dropWhile p = x :: b := by
  induction a with
  | nil => simp [hx]
  | cons c a ih =>
    rw [List.cons_append, List.dropWhile_cons, if_pos (ha c (by simp))]
    exact ih fun d hd => ha d (by simp [hd])

theorem takeWhile_append_stop {α : Type} {p : α → Bool} {a : List α} {x : α} {b : List α} (ha : ∀ c ∈ a, p c = true)
    (hx : p x = false) : (a ++ x :: b).takeWhile p = a := by
  induction a with
  | nil => simp [hx]
  | cons c a ih =>
    rw [List.cons_append, List.takeWhile_cons, if_pos (ha c (by simp)), ih fun d hd => ha d (by simp [hd])]

theorem takeWhile_all {α : Type} {p : α → Bool} (l : List α) : ∀ c ∈ l.takeWhile p, p c = true := by
  induction l with
  | nil => simp
  | cons a l ih =>
    intro c hc
    rw [List.takeWhile_cons] at hc
    split at hc
    · simp only [List.mem_cons] at hc
      rcases hc with rfl | hc
      · assumption
      · exact ih c hc
    · simp at hc

theorem dropWhile_eq_nil_iff {α : Type} {p : α → Bool} (l : List α) : l.dropWhile p = [] ↔ ∀ c ∈ l, p c = true := by
  induction l with
  | nil => simp
  | cons a l ih =>
    rw [List.dropWhile_cons]
    split <;> simp_all

theorem firstGroup_eq_some {s r : Str} : Valid.firstGroup s = some r ↔
    ∃ f d, s = f ++ d :: r ∧ (∀ c ∈ f, Spec.isFill c = true) ∧ isDigit d = true := by
  unfold Valid.firstGroup
  simp only [fill_eq]
  constructor
  · intro h
    have hs := List.takeWhile_append_dropWhile (p := Spec.isFill) (l := s)
    cases hd : s.dropWhile fun c => Spec.isFill c with
    | nil => rw [hd] at h; simp [Valid.oneDigit] at h
    | cons d t =>
      rw [hd] at h
      simp only [Valid.oneDigit, valid_digit_eq, Option.ite_none_right_eq_some] at h
      obtain ⟨h1, h2⟩ := h
      cases h2
      refine ⟨s.takeWhile Spec.isFill, d, ?_, takeWhile_all s, h1⟩
      rw [← hd]; exact hs.symm
  · rintro ⟨f, d, rfl, hf, hd⟩
    have : (f ++ d :: r).dropWhile (fun c => Spec.isFill c) = d :: r :=
      dropWhile_append_stop hf (by
        cases h : Spec.isFill d with
        | false => rfl
        | true => rw [not_digit_of_fill h] at hd; cases hd)
    rw [this]
    simp [Valid.oneDigit, valid_digit_eq, hd]

theorem ieof_eq_some {s : Str} : Valid.ieof s = some () ↔ s = [] := by
  cases s <;> simp [Valid.ieof]

theorem short_isSome {s : Str} : (Valid.short s).isSome ↔ ∃ a b, s = [a, b] ∧ isDigit a = true ∧ isDigit b = true := by
  rcases s with _ | ⟨a, _ | ⟨b, _ | ⟨c, s⟩⟩⟩
  · simp [Valid.short, Valid.oneDigit]
  · simp [Valid.short, Valid.oneDigit, valid_digit_eq]
  · simp only [Valid.short, Valid.oneDigit, valid_digit_eq]
    by_cases ha : isDigit a = true <;> by_cases hb : isDigit b = true <;>
      simp [ha, hb, Valid.ieof, List.cons.injEq, and_assoc]
  · simp only [Valid.short, Valid.oneDigit, valid_digit_eq]
    by_cases ha : isDigit a = true <;> by_cases hb : isDigit b = true <;>
      simp [ha, hb, Valid.ieof, List.cons.injEq]

theorem long_isSome {s : Str} : (Valid.long s).isSome ↔
    ∃ p f1 d1 f2 d2 f3 d3 rest, s = p ++ (f1 ++ d1 :: (f2 ++ d2 :: (f3 ++ d3 :: rest))) ∧
    (∀ c ∈ p, Spec.isPlus c = true) ∧
    (∀ c ∈ f1, Spec.isFill c = true) ∧ (∀ c ∈ f2, Spec.isFill c = true) ∧ (∀ c ∈ f3, Spec.isFill c = true) ∧
    isDigit d1 = true ∧ isDigit d2 = true ∧ isDigit d3 = true ∧
    ∀ c ∈ rest, Spec.isFill c = true ∨ isDigit c = true ∨ isAlpha c = true := by
  have htail : ∀ rest : Str, (((rest.dropWhile fun c => Valid.punctuation c || Valid.star c || Valid.digit c).dropWhile
      fun c => Valid.punctuation c || Valid.star c || Valid.digit c || Valid.alpha c) = []) ↔
      ∀ c ∈ rest, Spec.isFill c = true ∨ isDigit c = true ∨ isAlpha c = true := by
    intro rest
    rw [dropWhile_eq_nil_iff]
    simp only [fill_eq, valid_digit_eq, valid_alpha_eq, Bool.or_eq_true]
    constructor
    · intro h c hc
      rw [← List.takeWhile_append_dropWhile (p := fun c => Spec.isFill c || isDigit c) (l := rest), List.mem_append] at hc
      rcases hc with hc | hc
      · have := takeWhile_all rest c hc
        simp only [Bool.or_eq_true] at this
        rcases this with h | h
        · exact .inl h
        · exact .inr (.inl h)
      · have := h c hc
        rcases this with (h | h) | h
        · exact .inl h
        · exact .inr (.inl h)
        · exact .inr (.inr h)
    · intro h c hc
      have hc' : c ∈ rest := (List.dropWhile_sublist _).mem hc
      rcases h c hc' with h | h | h <;> simp [h]
  unfold Valid.long
  constructor
  · intro h
    obtain ⟨u, h⟩ := Option.isSome_iff_exists.1 h
    simp only [Option.bind_eq_bind, Option.bind_eq_some_iff] at h
    obtain ⟨r1, h1, r2, h2, r3, h3, h4⟩ := h
    rw [ieof_eq_some, htail] at h4
    obtain ⟨f1, d1, e1, hf1, hd1⟩ := firstGroup_eq_some.1 h1
    obtain ⟨f2, d2, rfl, hf2, hd2⟩ := firstGroup_eq_some.1 h2
    obtain ⟨f3, d3, rfl, hf3, hd3⟩ := firstGroup_eq_some.1 h3
    refine ⟨s.takeWhile Valid.plus, f1, d1, f2, d2, f3, d3, r3, ?_, ?_, hf1, hf2, hf3, hd1, hd2, hd3, h4⟩
    · rw [← e1]; exact List.takeWhile_append_dropWhile.symm
    · intro c hc; rw [← plus_eq]; exact takeWhile_all s c hc
  · rintro ⟨p, f1, d1, f2, d2, f3, d3, rest, rfl, hp, hf1, hf2, hf3, hd1, hd2, hd3, h4⟩
    have hdrop : (p ++ (f1 ++ d1 :: (f2 ++ d2 :: (f3 ++ d3 :: rest)))).dropWhile Valid.plus =
        f1 ++ d1 :: (f2 ++ d2 :: (f3 ++ d3 :: rest)) := by
      cases f1 with
      | nil =>
        exact dropWhile_append_stop (fun c hc => by rw [plus_eq]; exact hp c hc) (by rw [plus_eq]; exact not_plus_of_digit hd1)
      | cons a f1 =>
        exact dropWhile_append_stop (fun c hc => by rw [plus_eq]; exact hp c hc)
          (by rw [plus_eq]; exact not_plus_of_fill (hf1 a (by simp)))
    rw [hdrop]
    simp only [Option.bind_eq_bind]
    rw [firstGroup_eq_some.2 ⟨f1, d1, rfl, hf1, hd1⟩, Option.bind_some, firstGroup_eq_some.2 ⟨f2, d2, rfl, hf2, hd2⟩,
      Option.bind_some, firstGroup_eq_some.2 ⟨f3, d3, rfl, hf3, hd3⟩, Option.bind_some, ieof_eq_some.2 ((htail rest).2 h4)]
    rfl

/-- C14: `is_viable` accepts exactly the documented shape. -/
theorem C14_isViable_iff (s : Str) : isViable s = true ↔ Spec.Viable s := by
  have key : (Valid.phoneNumber s).isSome ↔ Spec.Viable s := by
    unfold Valid.phoneNumber Spec.Viable
    rw [← short_isSome, ← long_isSome]
    cases h : Valid.short s <;> simp
  unfold isViable
  split
  · rename_i h
    simp only [Bool.false_eq_true, false_iff]
    intro hv
    have h2 : 2 ≤ byteLen s := by
      rcases hv with ⟨a, b, rfl, _, _⟩ | ⟨p, f1, d1, f2, d2, f3, d3, rest, rfl, _⟩
      · have := utf8Size_pos a; have := utf8Size_pos b; simp; omega
      · have := utf8Size_pos d1; have := utf8Size_pos d2; simp; omega
    exact absurd h (by unfold Consts.minLengthForNsn; omega)
  · exact key

/-- Both kinds of viable strings, and strings that are not viable. -/
example : Spec.Viable (str% "12") ∧ Spec.Viable (str% "+1 (650) 253-0000 x12") ∧ ¬ Spec.Viable (str% "1") ∧
    ¬ Spec.Viable (str% "12+3") ∧ ¬ Spec.Viable (str% "1 abc 23") := by
  simp only [← C14_isViable_iff]
  decide

/-- A viable string contains only plus signs, punctuation, stars, ASCII digits and ASCII letters. -/
theorem Spec.Viable.chars {s : Str} (h : Spec.Viable s) :
    ∀ c ∈ s, Spec.isPlus c = true ∨ Spec.isFill c = true ∨ isDigit c = true ∨ isAlpha c = true := by
  rcases h with ⟨a, b, rfl, ha, hb⟩ | ⟨p, f1, d1, f2, d2, f3, d3, rest, rfl, hp, hf1, hf2, hf3, hd1, hd2, hd3, hr⟩
  · intro c hc
    simp only [List.mem_cons, List.not_mem_nil, or_false] at hc
    rcases hc with rfl | rfl
    · exact .inr (.inr (.inl ha))
    · exact .inr (.inr (.inl hb))
  · intro c hc
    simp only [List.mem_append, List.mem_cons] at hc
    rcases hc with hc | hc | rfl | hc | rfl | hc | rfl | hc
    · exact .inl (hp c hc)
    · exact .inr (.inl (hf1 c hc))
    · exact .inr (.inr (.inl hd1))
    · exact .inr (.inl (hf2 c hc))
    · exact .inr (.inr (.inl hd2))
    · exact .inr (.inl (hf3 c hc))
    · exact .inr (.inr (.inl hd3))
    · exact .inr (hr c hc)

theorem Spec.Viable.no_newline {s : Str} (h : Spec.Viable s) : '\n' ∉ s := by
  intro hm
  have := h.chars _ hm
  revert this
  decide

/-- A viable string contains at least two ASCII digits. -/
theorem Spec.Viable.two_digits {s : Str} (h : Spec.Viable s) : 2 ≤ s.countP isDigit := by
  rcases h with ⟨a, b, rfl, ha, hb⟩ | ⟨p, f1, d1, f2, d2, f3, d3, rest, rfl, _, _, _, _, hd1, hd2, hd3, _⟩
  · simp [ha, hb]
  · simp [List.countP_append, hd1, hd2, hd3]
    omega

end Phone
