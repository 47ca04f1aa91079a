import Verif.Props.Whole
/-! # C102: where digits of other scripts are understood -/

namespace Phone.Spec

/-- A decimal digit that is not one of the ASCII digits, from a script whose digits the crate converts. -/
def ForeignDigit (c : Char) : Prop := ∃ b ∈ digitBlocks, ∃ i, i < 10 ∧ c.toNat = b.2 + i

/-- The two texts differ only in the scripts of their digits. -/
inductive SameDigits : Str → Str → Prop where
  | nil : SameDigits [] []
  | same {c : Char} {t t' : Str} : SameDigits t t' → SameDigits (c :: t) (c :: t')
  | digit {c c' : Char} {i : Nat} {t t' : Str} : DigitValue c i → DigitValue c' i → SameDigits t t' → SameDigits (c :: t) (c' :: t')

/-- The same for texts that may be missing. -/
inductive SameDigitsOpt : Option Str → Option Str → Prop where
  | none : SameDigitsOpt none none
  | some {t t' : Str} : SameDigits t t' → SameDigitsOpt (some t) (some t')

end Phone.Spec

namespace Phone

theorem foreign_not_allowed {c : Char} (h : Spec.ForeignDigit c) :
    ¬ (Spec.isPlus c = true ∨ Spec.isFill c = true ∨ isDigit c = true ∨ isAlpha c = true) := by
  obtain ⟨b, hb, i, hi, hc⟩ := h
  have key : ∀ b ∈ Spec.digitBlocks, ∀ i, i < 10 → ∀ n, n = b.2 + i → n ∉ [43, 0xFF0B, 42, 45, 120, 32, 40, 41, 91, 93, 46, 47, 126, 0x2212, 0x30FC, 0xFF0D, 0xFF0F, 0x00A0, 0x00AD, 0x200B, 0x2060, 0x3000, 0xFF08, 0xFF09, 0xFF3B, 0xFF3D,
    0x2053, 0x223C, 0xFF5E] ∧ 128 ≤ n ∧ ¬ (0x2010 ≤ n ∧ n ≤ 0x2015) := by
    intro b hb i hi n hn
    simp only [Spec.digitBlocks, List.mem_cons, List.not_mem_nil, or_false] at hb
    rcases hb with rfl | rfl | rfl | rfl | rfl | rfl | rfl | rfl | rfl | rfl | rfl | rfl | rfl | rfl | rfl <;>
      simp only [List.mem_cons, List.not_mem_nil, or_false] <;> omega
  obtain ⟨k1, k2, k3⟩ := key b hb i hi _ hc
  have hlow : ∀ d : Char, d.toNat < 128 → c ≠ d := by
    rintro d hd rfl
    omega
  rintro (h | h | h | h)
  · simp only [Spec.isPlus, Bool.or_eq_true, beq_iff_eq] at h
    rcases h with h | h
    · exact hlow '+' (by decide) h
    · exact k1 (by rw [h]; decide)
  · simp only [Spec.isFill, Spec.isPunct, Bool.or_eq_true, Bool.and_eq_true, decide_eq_true_eq, beq_iff_eq] at h
    rcases h with ((h | h) | h) | h
    · revert h
      intro h
      have : ∀ d ∈ (str% "-x ()[]./~"), d.toNat < 128 := by decide
      exact hlow c (this c h) rfl
    · exact k3 h
    · refine k1 ?_
      revert h
      simp only [List.mem_cons, List.not_mem_nil, or_false]
      omega
    · exact hlow '*' (by decide) h
  · have := isDigit_iff.1 h
    omega
  · simp only [isAlpha, Bool.or_eq_true, Bool.and_eq_true, decide_eq_true_eq] at h
    have e1 : 'z'.toNat = 122 := rfl
    have e2 : 'Z'.toNat = 90 := rfl
    omega

theorem digitValue_unique {c : Char} {i j : Nat} (h1 : Spec.DigitValue c i) (h2 : Spec.DigitValue c j) : i = j := by
  have e1 := asDecDigit_eq_some.2 ⟨i, h1, rfl⟩
  have e2 := asDecDigit_eq_some.2 ⟨j, h2, rfl⟩
  rw [e1] at e2
  exact digitChar_inj h1.1 h2.1 (Option.some.inj e2)

theorem digitised_same {v : Bool} {t t' ds : Str} (h : Spec.SameDigits t t') (hd : Spec.Digitised v t ds) : Spec.Digitised v t' ds := by
  induction h generalizing ds with
  | nil => exact hd
  | same _ ih =>
    cases hd with
    | digit k1 k2 => exact .digit k1 (ih k2)
    | letter k0 k1 k2 => exact .letter k0 k1 (ih k2)
    | drop k0 k1 k2 => exact .drop k0 k1 (ih k2)
  | digit h1 h2 _ ih =>
    cases hd with
    | digit k1 k2 =>
      rw [digitValue_unique k1 h1]
      exact .digit h2 (ih k2)
    | letter k0 k1 k2 => exact absurd h1 (not_digitValue_of_onKey k1)
    | drop k0 k1 k2 => exact absurd h1 (k0 _)

variable [UnicodeTables]

theorem coded_same {db : Database} {country : Option Id} {r r' : Spec.Reading} {ds : Str} (hn : r'.number = r.number)
    (hc : Spec.SameDigitsOpt r.code r'.code) {o : Outcome ParseErr (Nat × Source × Str)} (h : Spec.Coded db country r ds o) :
    Spec.Coded db country r' ds o := by
  have some' : ∀ {t}, r.code = some t → ∃ t', r'.code = some t' ∧ Spec.SameDigits t t' := by
    intro t ht
    rw [ht] at hc
    cases hc' : r'.code with
    | none => rw [hc'] at hc; cases hc
    | some t' => rw [hc'] at hc; cases hc with | some h => exact ⟨t', rfl, h⟩
  have none' : r.code = none → r'.code = none := by
    intro ht
    rw [ht] at hc
    cases hc' : r'.code with
    | none => rfl
    | some t' => rw [hc'] at hc; cases hc
  cases h with
  | apartShort h1 h2 =>
    obtain ⟨t', k1, k2⟩ := some' h1
    exact .apartShort k1 h2
  | apartEmpty h1 h2 h3 =>
    obtain ⟨t', k1, k2⟩ := some' h1
    exact .apartEmpty k1 h2 (by rw [hn]; exact digitised_same k2 h3)
  | apartLarge h1 h2 h3 h4 =>
    obtain ⟨t', k1, k2⟩ := some' h1
    exact .apartLarge k1 h2 (by rw [hn]; exact digitised_same k2 h3) h4
  | apartUnknown h1 h2 h3 h4 h5 h6 =>
    obtain ⟨t', k1, k2⟩ := some' h1
    exact .apartUnknown k1 h2 (by rw [hn]; exact digitised_same k2 h3) h4 h5 h6
  | apart h1 h2 h3 h4 h5 h6 =>
    obtain ⟨t', k1, k2⟩ := some' h1
    exact .apart k1 h2 (by rw [hn]; exact digitised_same k2 h3) h4 h5 h6
  | short h1 h2 h3 => exact .short (none' h1) (by rw [hn]; exact h2) h3
  | unknown h1 h2 h3 h4 => exact .unknown (none' h1) (by rw [hn]; exact h2) h3 h4
  | known h1 h2 h3 h4 h5 => exact .known (none' h1) (by rw [hn]; exact h2) h3 h4 h5
  | nowhere h1 h2 h3 => exact .nowhere (none' h1) (by rw [hn]; exact h2) h3
  | own h1 h2 h3 h4 h5 h6 => exact .own (none' h1) (by rw [hn]; exact h2) h3 h4 h5 h6
  | national h1 h2 h3 h4 h5 => exact .national (none' h1) (by rw [hn]; exact h2) h3 h4 h5

omit [UnicodeTables] in
theorem Spec.Reading.toNumber_inj {r r' : Spec.Reading} (h : r.toNumber = r'.toNumber) : r = r' := by
  obtain ⟨a, b, c⟩ := r
  obtain ⟨a', b', c'⟩ := r'
  simp only [Spec.Reading.toNumber] at h
  injection h
  simp_all

theorem reads_unique {s : Str} (hs : Spec.MarksNotDigits s) {o o' : Option Spec.Reading} (h : Spec.Reads s o) (h' : Spec.Reads s o') :
    o = o' := by
  have e := (reads_sound hs h).symm.trans (reads_sound hs h')
  cases o <;> cases o' <;> simp only [Outcome.ok.injEq, reduceCtorEq] at e ⊢
  rw [Spec.Reading.toNumber_inj e]

/-- C102: if the part of the text that is read as the number has a digit of another script, the text is refused. -/
theorem C102_number (db : Database) (country : Option Id) (s : Str) (hs : Spec.MarksNotDigits s) (r : Spec.Reading)
    (hr : Spec.Reads s (some r)) (hd : ∃ c ∈ r.number, Spec.ForeignDigit c) : parseWith db country s = .err .noNumber := by
  obtain ⟨c, hc, hf⟩ := hd
  have hv : ¬ Spec.Viable r.number := fun h => foreign_not_allowed hf (h.chars c hc)
  rw [parseWith_eq, reads_sound hs hr]
  simp only [Outcome.bind_ok]
  unfold afterRead
  rw [if_pos]
  rw [show r.toNumber.national = r.number from rfl, Bool.not_eq_true', Bool.eq_false_iff, ne_eq, C14_isViable_iff]
  exact hv

/-- C102: in an extension and in a calling code written apart from the number, digits of any script count as the ASCII digits. -/
theorem C102_elsewhere {compile : Str → Option Regex} {ms : List Loader.Metadata} {db : Database} (hdb : Spec.Orderly compile ms db)
    (country : Option Id) (hk : ∀ c, country = some c → (db.byId c.asRef).isSome) (s s' : Str) (hs : Spec.MarksNotDigits s)
    (hs' : Spec.MarksNotDigits s') (r r' : Spec.Reading) (hr : Spec.Reads s (some r)) (hr' : Spec.Reads s' (some r'))
    (hn : r'.number = r.number) (hc : Spec.SameDigitsOpt r.code r'.code) (he : Spec.SameDigitsOpt r.extension r'.extension) :
    parseWith db country s' = parseWith db country s := by
  obtain ⟨o, h⟩ := C66_total hdb country hk s
  rw [C66_sound hdb country s hs o h]
  refine C66_sound hdb country s' hs' o ?_
  cases h with
  | nothing h => cases reads_unique hs h hr
  | notViable h h1 =>
    cases reads_unique hs h hr
    exact .notViable hr' (by rw [hn]; exact h1)
  | noCode h h1 h2 h3 =>
    cases reads_unique hs h hr
    exact .noCode hr' (by rw [hn]; exact h1) (by rw [hn]; exact h2) (coded_same hn hc h3)
  | judged h h1 h2 h3 h4 h5 h6 =>
    cases reads_unique hs h hr
    refine .judged hr' (by rw [hn]; exact h1) (by rw [hn]; exact h2) (coded_same hn hc h3) ?_ h5 h6
    rw [hn]
    revert h4 he
    cases r.extension <;> cases r'.extension <;> intro he h4
    · exact h4
    · cases he
    · cases he
    · cases he with | some he => cases h4 with | some h4 => exact .some (digitised_same he h4)

end Phone

namespace Phone.Scripts

/-- Tables with the full-width digits only. -/
@[instance_reducible] def fullWidth : UnicodeTables where
  nd c := decide (0xFF10 ≤ c.toNat ∧ c.toNat ≤ 0xFF19)
  n c := decide (0xFF10 ≤ c.toNat ∧ c.toNat ≤ 0xFF19)
  l _ := false
  nd_n _ h := h

/-- A calling code in full-width and in ASCII digits, and full-width digits in an extension and in a number. -/
example : letI := fullWidth
    (∃ r r', Spec.Reads (str% "+１-650") (some r) ∧ Spec.Reads (str% "+1-650") (some r') ∧ r'.number = r.number ∧
      Spec.SameDigitsOpt r.code r'.code ∧ Spec.SameDigitsOpt r.extension r'.extension ∧ r ≠ r') ∧
    (∃ r r', Spec.Reads (str% "650 253 ext. ７") (some r) ∧ Spec.Reads (str% "650 253 ext. 7") (some r') ∧ r'.number = r.number ∧
      Spec.SameDigitsOpt r.code r'.code ∧ Spec.SameDigitsOpt r.extension r'.extension ∧ r ≠ r') ∧
    (∃ r, Spec.Reads (str% "650 25３") (some r) ∧ ∃ c ∈ r.number, Spec.ForeignDigit c) ∧
    Spec.MarksNotDigits (str% "+１-650") ∧ Spec.MarksNotDigits (str% "650 253 ext. ７") ∧ Spec.MarksNotDigits (str% "650 25３") := by
  letI := fullWidth
  have m : ∀ s : Str, (s.all fun c => !decide (c ∈ Spec.wideExt) || !isNd c) = true → Spec.MarksNotDigits s := by
    intro s h c hc hw
    have := List.all_eq_true.1 h c hc
    simpa [hw] using this
  have key : ∀ (s : Str) (r : Spec.Reading), Spec.MarksNotDigits s → readNumber s = .ok r.toNumber → Spec.Reads s (some r) := by
    intro s r hm h
    obtain ⟨o, ho⟩ := reads_total s
    have e := reads_sound hm ho
    rw [h] at e
    cases o with
    | none => cases e
    | some r' => rw [Spec.Reading.toNumber_inj (Outcome.ok.inj e)]; exact ho
  have d1 : Spec.SameDigits ['１'] ['1'] := .digit (i := 1) ⟨by decide, .inr ⟨("Fullwidth", 0xFF10), by decide, rfl⟩⟩ ⟨by decide, .inl rfl⟩ .nil
  have d2 : Spec.SameDigits ['７'] ['7'] := .digit (i := 7) ⟨by decide, .inr ⟨("Fullwidth", 0xFF10), by decide, rfl⟩⟩ ⟨by decide, .inl rfl⟩ .nil
  have m1 : Spec.MarksNotDigits (str% "+１-650") := m _ (by kernel_rfl)
  have m2 : Spec.MarksNotDigits (str% "650 253 ext. ７") := m _ (by kernel_rfl)
  have m3 : Spec.MarksNotDigits (str% "650 25３") := m _ (by kernel_rfl)
  refine ⟨⟨⟨str% "-650", some ['１'], none⟩, ⟨str% "-650", some ['1'], none⟩, key _ _ m1 (by kernel_rfl), key _ _ (m _ (by kernel_rfl)) (by kernel_rfl),
      rfl, .some d1, .none, by simp⟩,
    ⟨⟨str% "650 253", none, some ['７']⟩, ⟨str% "650 253", none, some ['7']⟩, key _ _ m2 (by kernel_rfl), key _ _ (m _ (by kernel_rfl)) (by kernel_rfl),
      rfl, .none, .some d2, by simp⟩,
    ⟨⟨str% "650 25３", none, none⟩, key _ _ m3 (by kernel_rfl), '３', by simp, ("Fullwidth", 0xFF10), by decide, 3, by decide, rfl⟩, m1, m2, m3⟩

end Phone.Scripts
