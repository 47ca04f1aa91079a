import Verif.Props.Parse
import Verif.Regex.Dead
/-! # What the number readers do on simple texts -/

namespace Phone
open Helper

variable [UnicodeTables]

/-- The characters of a plainly formatted number. -/
def plainChars : Str := str% "+0123456789 -.()/"

theorem extn_none {s : Str} (h : ∀ c ∈ s, c ∈ plainChars) : Consts.extnPattern.find s = none :=
  find_none_of_dead (S := plainChars) (by kernel_rfl) h

theorem second_none {s : Str} (h : ∀ c ∈ s, c ∈ plainChars) : Consts.secondNumberStart.find s = none :=
  find_none_of_dead (S := plainChars) (by kernel_rfl) h

omit [UnicodeTables] in
theorem mem_plain_of_digit {c : Char} (h : isDigit c = true) : c ∈ plainChars := by
  rw [isDigit_iff] at h
  have : c.toNat ∈ plainChars.map Char.toNat := by
    have : plainChars.map Char.toNat = [43, 48, 49, 50, 51, 52, 53, 54, 55, 56, 57, 32, 45, 46, 40, 41, 47] := by decide
    rw [this]; simp; omega
  obtain ⟨d, hd, he⟩ := List.mem_map.1 this
  rwa [← char_eq_of_toNat he]

/-- Is the character cut off at the end of a number? -/
def isUnwanted (c : Char) : Bool := Consts.unwantedEndChar.mem c

/-- The end of the text is trimmed by removing the trailing unwanted characters. -/
theorem cutUnwanted {a b : Str} (hb : ∀ c ∈ b, isUnwanted c = true) (ha : ∀ c, a.getLast? = some c → isUnwanted c = false) :
    cutBefore Consts.unwantedEndChars (a ++ b) = .ok a := by
  unfold cutBefore
  have matches_b : b ≠ [] → MatchesAt Consts.unwantedEndChars.re a b := by
    intro hne
    exact ⟨b, [], by simp, lang_cat.2 ⟨b, [], by simp, lang_plus_cls.2 ⟨hne, hb⟩, lang_eos.2 ⟨rfl, rfl⟩⟩⟩
  have inv : ∀ x y, a ++ b = x ++ y → MatchesAt Consts.unwantedEndChars.re x y → a.length ≤ x.length ∧ y ≠ [] := by
    rintro x y hxy ⟨w, q, rfl, hl⟩
    obtain ⟨u, v, rfl, h1, h2⟩ := lang_cat.1 hl
    obtain ⟨rfl, rfl⟩ := lang_eos.1 h2
    obtain ⟨hne, hall⟩ := lang_plus_cls.1 h1
    simp only [List.append_nil] at hxy ⊢
    refine ⟨?_, hne⟩
    apply Nat.le_of_not_lt
    intro hlt
    obtain ⟨z, rfl⟩ : ∃ z, a = x ++ z := by
      have := List.append_eq_append_iff.1 hxy
      rcases this with ⟨z, hz, _⟩ | ⟨z, hz, _⟩
      · rw [hz] at hlt; simp at hlt; omega
      · exact ⟨z, hz⟩
    have hz : z ≠ [] := by rintro rfl; simp at hlt
    rw [List.append_assoc] at hxy
    have hu := List.append_cancel_left hxy
    have h3 := ha (z.getLast hz) (by rw [List.getLast?_append, List.getLast?_eq_some_getLast hz]; rfl)
    have h4 := hall (z.getLast hz) (by rw [← hu]; simp)
    unfold isUnwanted at h3
    rw [h3] at h4; cases h4
  cases hf : Consts.unwantedEndChars.find (a ++ b) with
  | none =>
    rw [find_eq_none] at hf
    cases b with
    | nil => simp
    | cons c b => exact absurd (matches_b (by simp)) (hf a (c :: b) rfl)
  | some m =>
    have f := find_eq_some hf
    have hmat : MatchesAt Consts.unwantedEndChars.re m.pre (m.text ++ m.post) := ⟨_, _, rfl, f.lang⟩
    have hs : a ++ b = m.pre ++ (m.text ++ m.post) := by rw [f.split]; simp
    obtain ⟨h1, h2⟩ := inv _ _ hs hmat
    have h3 : ¬ a.length < m.pre.length := by
      intro hlt
      refine f.leftmost a b rfl hlt (matches_b ?_)
      rintro rfl
      have := congrArg List.length hs
      simp at this; omega
    have hlen : a.length = m.pre.length := by omega
    have : a = m.pre := (List.append_inj hs hlen).1
    show Outcome.slice (takeBytes (a ++ b) m.start) = .ok a
    rw [f.stop_eq.2.2.2, this]; rfl

omit [UnicodeTables] in
/-- Split off the characters after the last digit. -/
theorem split_last_digit {s : Str} (h : ∃ c ∈ s, isDigit c = true) :
    ∃ a d b, s = a ++ [d] ++ b ∧ isDigit d = true ∧ ∀ c ∈ b, isDigit c = false := by
  induction s with
  | nil => obtain ⟨c, hc, _⟩ := h; cases hc
  | cons c s ih =>
    by_cases hs : ∃ c ∈ s, isDigit c = true
    · obtain ⟨a, d, b, rfl, h1, h2⟩ := ih hs
      exact ⟨c :: a, d, b, by simp, h1, h2⟩
    · obtain ⟨c', hc', hd⟩ := h
      simp only [List.mem_cons] at hc'
      rcases hc' with rfl | hc'
      · refine ⟨[], c', s, by simp, hd, ?_⟩
        intro e he
        cases h : isDigit e with
        | false => rfl
        | true => exact absurd ⟨e, he, h⟩ hs
      · exact absurd ⟨c', hc', hd⟩ hs

theorem isUnwanted_plain {c : Char} (h : c ∈ plainChars) : isUnwanted c = !isDigit c := by
  have : plainChars.all (fun c => isUnwanted c == !isDigit c) = true := by kernel_rfl
  simpa using List.all_eq_true.1 this c h

theorem startChar_plain {c : Char} (h : c = '+' ∨ isDigit c = true) (s : Str) :
    ∃ m, Consts.validStartChar.find (c :: s) = some m ∧ m.start = 0 := by
  have hm : MatchesAt Consts.validStartChar.re [] (c :: s) := by
    refine ⟨[c], s, rfl, lang_set.2 ⟨c, rfl, ?_⟩⟩
    rcases h with rfl | h
    · simp [Consts.one]
    · simp [CItem.mem, isNd_of_isDigit h]
  obtain ⟨m, h1, h2⟩ := find_at_start_iff.2 hm
  exact ⟨m, h1, Match.start_eq_zero.2 h2⟩

/-- Extraction of a plain number: everything up to the last digit. -/
theorem extract_plain {c : Char} {s : Str} (hc : c = '+' ∨ isDigit c = true) (hs : ∀ d ∈ c :: s, d ∈ plainChars)
    {a : Str} {d : Char} {b : Str} (he : c :: s = a ++ [d] ++ b) (hd : isDigit d = true) (hb : ∀ c ∈ b, isDigit c = false) :
    extract (c :: s) = .ok (a ++ [d]) := by
  unfold extract
  obtain ⟨m, hm, h0⟩ := startChar_plain hc s
  have hcut : cutBefore Consts.unwantedEndChars (c :: s) = .ok (a ++ [d]) := by
    rw [he]
    apply cutUnwanted
    · intro x hx
      rw [isUnwanted_plain (hs x (by rw [he]; simp [hx])), hb x hx]; rfl
    · intro x hx
      simp at hx; subst hx
      rw [isUnwanted_plain (hs d (by rw [he]; simp)), hd]; rfl
  have h2 : cutBefore Consts.secondNumberStart (a ++ [d]) = .ok (a ++ [d]) := by
    unfold cutBefore
    rw [second_none]
    · rfl
    · intro x hx; exact hs x (by rw [he]; exact List.mem_append_left _ hx)
  have h3 : dropBytes (c :: s) (0 + byteLen (a ++ [d])) = some b := by
    rw [he, Nat.zero_add]; exact dropBytes_append _ _
  simp only [hm, h0, dropBytes_zero, Outcome.slice_some, Outcome.bind_ok, hcut, h2, h3]
  simp

theorem natural_plain {c : Char} {s : Str} (hc : c = '+' ∨ isDigit c = true) (hs : ∀ d ∈ c :: s, d ∈ plainChars)
    {a : Str} {d : Char} {b : Str} (he : c :: s = a ++ [d] ++ b) (hd : isDigit d = true) (hb : ∀ c ∈ b, isDigit c = false) :
    Natural.phoneNumber (c :: s) = .ok { national := a ++ [d] } := by
  unfold Natural.phoneNumber
  rw [extract_plain hc hs he hd hb]
  simp only [Outcome.bind_ok]
  rw [extn_none]
  · rfl
  · intro x hx; exact hs x (by rw [he]; exact List.mem_append_left _ hx)


/-! ## The RFC 3966 reader -/

omit [UnicodeTables] in
theorem rfc_space {s : Str} (h : ' ' ∈ s) : Rfc3966.phoneNumber s = .err .error := by
  unfold Rfc3966.phoneNumber
  rw [if_pos (containsChar_iff.2 h)]

omit [UnicodeTables] in
theorem optTel_of_plain {s : Str} (h : ∀ c ∈ s, c ∈ plainChars) : Rfc3966.optTel s = s := by
  unfold Rfc3966.optTel
  split
  · rename_i a b c d rest
    rw [if_neg]
    rintro ⟨h1, _⟩
    have : plainChars.all (fun c => Rfc3966.lower c != 't') = true := by decide
    have := List.all_eq_true.1 this a (h a (by simp))
    simp [h1] at this
  · rfl

omit [UnicodeTables] in
theorem optPrefix_of_ne_plus {s : Str} (h : s.head? ≠ some '+') : Rfc3966.optPrefix s = (none, s) := by
  unfold Rfc3966.optPrefix
  split
  · simp at h
  · rfl

omit [UnicodeTables] in
theorem dropWhile_all {p : Char → Bool} {s : Str} (h : ∀ c ∈ s, p c = true) : s.dropWhile p = [] ∧ s.takeWhile p = s := by
  induction s with
  | nil => simp
  | cons c s ih =>
    have hc := h c (by simp)
    have := ih fun d hd => h d (by simp [hd])
    simp [hc, this]

omit [UnicodeTables] in
/-- Digits and RFC separators without a plus are read whole. -/
theorem rfc_digits {s : Str} (hne : s ≠ []) (hp : ∀ c ∈ s, c ∈ plainChars) (hn : ∀ c ∈ s, Rfc3966.number c = true) :
    Rfc3966.phoneNumber s = .ok { national := s } := by
  unfold Rfc3966.phoneNumber
  have h1 : containsChar s ' ' = false := by
    rw [Bool.eq_false_iff]
    intro h
    have := hn _ (containsChar_iff.1 h)
    revert this; decide
  have hhead : s.head? ≠ some '+' := by
    intro h
    have := hn '+' (List.mem_of_head? h)
    revert this; decide
  simp only [h1, Bool.false_eq_true, if_false, optTel_of_plain hp, optPrefix_of_ne_plus hhead, dropWhile_all hn]
  have : s.isEmpty = false := by simpa using hne
  simp [this, Rfc3966.params, Rfc3966.getParam]

omit [UnicodeTables] in
/-- A number without a plus that has another character is not for this reader, unless that character is a semicolon. -/
theorem rfc_other {s : Str} (hp : ∀ c ∈ s, c ∈ plainChars) (hhead : s.head? ≠ some '+') (hn : ∃ c ∈ s, Rfc3966.number c = false) :
    Rfc3966.phoneNumber s = .err .error := by
  unfold Rfc3966.phoneNumber
  split
  · rfl
  · simp only [optTel_of_plain hp, optPrefix_of_ne_plus hhead]
    split
    · rfl
    · rw [if_pos]
      rw [Bool.not_eq_true', Bool.or_eq_false_iff]
      cases hd : s.dropWhile Rfc3966.number with
      | nil =>
        obtain ⟨c, hc, hc'⟩ := hn
        have := (dropWhile_eq_nil_iff _).1 hd c hc
        rw [hc'] at this; cases this
      | cons c t =>
        refine ⟨rfl, ?_⟩
        have : c ∈ plainChars := hp c ((List.dropWhile_sublist _).subset (by rw [hd]; simp))
        have : c ≠ ';' := by rintro rfl; revert this; decide
        simpa using this

omit [UnicodeTables] in
/-- A plus and digits: nothing is left for the number part. -/
theorem rfc_plus_digits {ds : Str} (hd : Digits ds) : Rfc3966.phoneNumber ('+' :: ds) = .err .error := by
  have hp : ∀ c ∈ '+' :: ds, c ∈ plainChars := by
    intro c hc
    simp only [List.mem_cons] at hc
    rcases hc with rfl | hc
    · decide
    · exact mem_plain_of_digit (hd c hc)
  have hsep : ∀ c ∈ ds, (!Rfc3966.separator c) = true := by
    intro c hc
    have := hd c hc
    rw [Bool.not_eq_true']
    rw [Bool.eq_false_iff]
    intro h
    simp only [Rfc3966.separator, Bool.or_eq_true, beq_iff_eq] at h
    rcases h with ((rfl | rfl) | rfl) | rfl <;> exact absurd this (by decide)
  unfold Rfc3966.phoneNumber
  split
  · rfl
  · simp only [optTel_of_plain hp, Rfc3966.optPrefix, (dropWhile_all hsep).1, (dropWhile_all hsep).2]
    cases ds with
    | nil => rfl
    | cons c ds => simp

/-! ## Reading plainly formatted numbers -/

omit [UnicodeTables] in
theorem filter_snoc_tail {a : Str} {d : Char} {b : Str} (hb : ∀ c ∈ b, isDigit c = false) :
    (a ++ [d] ++ b).filter isDigit = (a ++ [d]).filter isDigit := by
  have : b.filter isDigit = [] := List.filter_eq_nil_iff.2 fun c hc => by simp [hb c hc]
  rw [List.filter_append, this, List.append_nil]

/-- A number without a plus that starts with a digit is read with all its digits. -/
theorem readNumber_national {b : Str} (hh : ∃ c s, b = c :: s ∧ isDigit c = true) (hp : ∀ c ∈ b, c ∈ plainChars ∧ c ≠ '+') :
    ∃ x, readNumber b = .ok { national := x } ∧ (∀ c ∈ x, c ∈ plainChars ∧ c ≠ '+') ∧ x.filter isDigit = b.filter isDigit := by
  obtain ⟨c, s, rfl, hc⟩ := hh
  have hp' : ∀ d ∈ c :: s, d ∈ plainChars := fun d hd => (hp d hd).1
  by_cases hn : ∀ d ∈ c :: s, Rfc3966.number d = true
  · exact ⟨c :: s, by simp [readNumber, rfc_digits (by simp) hp' hn], hp, rfl⟩
  · have hn : ∃ d ∈ c :: s, Rfc3966.number d = false := by
      apply Classical.byContradiction
      intro h
      apply hn
      intro d hd
      cases hx : Rfc3966.number d with
      | true => rfl
      | false => exact absurd ⟨d, hd, hx⟩ h
    have hr : Rfc3966.phoneNumber (c :: s) = .err .error := by
      apply rfc_other hp' _ hn
      simp only [List.head?_cons, ne_eq, Option.some.injEq]
      exact (hp c (by simp)).2
    obtain ⟨a, d, b, he, hd, hb⟩ := split_last_digit (s := c :: s) ⟨c, by simp, hc⟩
    refine ⟨a ++ [d], ?_, ?_, ?_⟩
    · simp [readNumber, hr, natural_plain (.inr hc) hp' he hd hb]
    · intro x hx; exact hp x (by rw [he]; exact List.mem_append_left _ hx)
    · rw [he, filter_snoc_tail hb]

/-- A number with a plus and a space, or with a plus and only digits, is read with all its digits. -/
theorem readNumber_plus {b : Str} (hp : ∀ c ∈ b, c ∈ plainChars ∧ c ≠ '+') (hd : ∃ c ∈ b, isDigit c = true)
    (hs : ' ' ∈ b ∨ Digits b) :
    ∃ x, readNumber ('+' :: b) = .ok { national := '+' :: x } ∧ (∀ c ∈ x, c ∈ plainChars ∧ c ≠ '+') ∧
      x.filter isDigit = b.filter isDigit := by
  have hr : Rfc3966.phoneNumber ('+' :: b) = .err .error := by
    rcases hs with hs | hs
    · exact rfc_space (by simp [hs])
    · exact rfc_plus_digits hs
  obtain ⟨a, d, t, he, hd', ht⟩ := split_last_digit hd
  refine ⟨a ++ [d], ?_, ?_, ?_⟩
  · have hp' : ∀ d ∈ '+' :: b, d ∈ plainChars := by
      intro d hd
      simp only [List.mem_cons] at hd
      rcases hd with rfl | hd
      · decide
      · exact (hp d hd).1
    have := natural_plain (c := '+') (s := b) (.inl rfl) hp' (a := '+' :: a) (d := d) (b := t) (by simp [he]) hd' ht
    simp [readNumber, hr, this]
  · intro x hx; exact hp x (by rw [he]; exact List.mem_append_left _ hx)
  · rw [he, filter_snoc_tail ht]

/-- The start characters of a number: decimal digits and plus signs. -/
theorem startChar_mem (d : Char) :
    Cls.mem ⟨false, [Consts.one '+', Consts.one '＋', .nd]⟩ d = (isNd d || Spec.isPlus d) := by
  simp only [Cls.mem, List.any_cons, List.any_nil, Consts.one, mem_one, Spec.isPlus, show CItem.mem d .nd = isNd d from rfl]
  have : (d == '＋') = (d.toNat == 0xFF0B) := by
    rw [Bool.eq_iff_iff]; simp only [beq_iff_eq]; exact eq_char_iff
  rw [this]
  cases (d == '+') <;> cases (d.toNat == 0xFF0B) <;> cases isNd d <;> rfl

/-- Extraction skips text without start characters. -/
theorem extract_skip {j : Str} {c : Char} {s : Str} (hj : ∀ d ∈ j, isNd d = false ∧ Spec.isPlus d = false)
    (hc : isNd c = true ∨ Spec.isPlus c = true) : extract (j ++ c :: s) = extract (c :: s) := by
  have find0 : ∀ pre : Str, (∀ d ∈ pre, isNd d = false ∧ Spec.isPlus d = false) →
      ∃ m, Consts.validStartChar.find (pre ++ c :: s) = some m ∧ m.pre = pre := by
    intro pre hpre
    cases hf : Consts.validStartChar.find (pre ++ c :: s) with
    | none =>
      exfalso
      refine find_eq_none.1 hf pre (c :: s) rfl ⟨[c], s, rfl, lang_cls.2 ⟨c, rfl, ?_⟩⟩
      rw [startChar_mem]; rcases hc with h | h <;> simp [h]
    | some m =>
      refine ⟨m, rfl, ?_⟩
      obtain ⟨d, ht, hd, hl, hsp⟩ := find_cls (k := ⟨false, [Consts.one '+', Consts.one '＋', .nd]⟩) rfl hf
      rw [startChar_mem] at hd
      have f := find_eq_some hf
      have h1 : ¬ pre.length < m.pre.length := by
        intro hlt
        have : c ∈ m.pre := by
          rcases List.append_eq_append_iff.1 hsp with ⟨z, hz, hz'⟩ | ⟨z, hz, _⟩
          · cases z with
            | nil => rw [hz] at hlt; simp at hlt
            | cons x z => simp at hz'; rw [hz, hz'.1]; simp
          · rw [hz] at hlt; simp at hlt; omega
        have := hl c this
        rw [startChar_mem] at this
        rcases hc with h | h <;> simp [h] at this
      have h2 : ¬ m.pre.length < pre.length := by
        intro hlt
        have : d ∈ pre := by
          rcases List.append_eq_append_iff.1 hsp with ⟨z, hz, _⟩ | ⟨z, hz, hz'⟩
          · rw [hz] at hlt; simp at hlt; omega
          · cases z with
            | nil => rw [hz] at hlt; simp at hlt
            | cons x z => simp at hz'; rw [hz, hz'.1]; simp
        have := hpre d this
        rw [this.1, this.2] at hd; cases hd
      exact ((List.append_inj hsp (by omega)).1).symm
  obtain ⟨m, hm, hp⟩ := find0 j hj
  obtain ⟨m', hm', hp'⟩ := find0 [] (by simp)
  simp only [List.nil_append] at hm'
  unfold extract
  have e1 : dropBytes (j ++ c :: s) m.start = some (c :: s) := by rw [Match.start, hp]; exact dropBytes_append _ _
  have e2 : dropBytes (c :: s) m'.start = some (c :: s) := by rw [Match.start, hp']; exact dropBytes_append [] _
  simp only [hm, hm', e1, e2, Outcome.slice_some, Outcome.bind_ok]
  obtain ⟨r1, b1, x1, y1⟩ := cutBefore_ok Consts.unwantedEndChars (c :: s)
  obtain ⟨r2, b2, x2, y2⟩ := cutBefore_ok Consts.secondNumberStart r1
  simp only [y1, y2, Outcome.bind_ok]
  have hsplit : c :: s = r2 ++ (b2 ++ b1) := by rw [x1, x2]; simp
  have e3 : dropBytes (j ++ c :: s) (m.start + byteLen r2) = some (b2 ++ b1) := by
    rw [Match.start, hp, ← byteLen_append, hsplit, ← List.append_assoc]; exact dropBytes_append _ _
  have e4 : dropBytes (c :: s) (m'.start + byteLen r2) = some (b2 ++ b1) := by
    rw [Match.start, hp', ← byteLen_append, hsplit]; exact dropBytes_append _ _
  rw [e3, e4]

/-- Extraction skips text without start characters, whatever follows. -/
theorem extract_junk {j : Str} (hj : ∀ d ∈ j, isNd d = false ∧ Spec.isPlus d = false) (s : Str) : extract (j ++ s) = extract s := by
  by_cases h : ∃ c ∈ s, isNd c = true ∨ Spec.isPlus c = true
  · have : ∃ k c t, s = k ++ c :: t ∧ (isNd c = true ∨ Spec.isPlus c = true) ∧
        ∀ d ∈ k, isNd d = false ∧ Spec.isPlus d = false := by
      clear hj
      induction s with
      | nil => obtain ⟨c, hc, _⟩ := h; cases hc
      | cons x s ih =>
        by_cases hx : isNd x = true ∨ Spec.isPlus x = true
        · exact ⟨[], x, s, rfl, hx, by simp⟩
        · have hx' : isNd x = false ∧ Spec.isPlus x = false := by
            rw [not_or] at hx
            simpa using hx
          obtain ⟨c, hc, h⟩ := h
          simp only [List.mem_cons] at hc
          rcases hc with rfl | hc
          · exact absurd h hx
          · obtain ⟨k, c, t, rfl, h1, h2⟩ := ih ⟨c, hc, h⟩
            refine ⟨x :: k, c, t, rfl, h1, ?_⟩
            intro d hd
            simp only [List.mem_cons] at hd
            rcases hd with rfl | hd
            · exact hx'
            · exact h2 d hd
    obtain ⟨k, c, t, rfl, hc, hk⟩ := this
    rw [extract_skip hk hc, ← List.append_assoc, extract_skip _ hc]
    intro d hd
    rw [List.mem_append] at hd
    rcases hd with hd | hd
    · exact hj d hd
    · exact hk d hd
  · have none : ∀ z : Str, (∀ d ∈ z, isNd d = false ∧ Spec.isPlus d = false) → extract z = .err .error := by
      intro z hz
      have : Consts.validStartChar.find z = none := by
        rw [find_eq_none]
        rintro a b hab ⟨w, q, hw, hl⟩
        obtain ⟨c, rfl, hc⟩ := lang_cls.1 hl
        rw [startChar_mem] at hc
        have := hz c (by rw [hab, hw]; simp)
        rw [this.1, this.2] at hc; cases hc
      unfold extract
      rw [this]
    have hs : ∀ d ∈ s, isNd d = false ∧ Spec.isPlus d = false := by
      intro d hd
      have : ¬ (isNd d = true ∨ Spec.isPlus d = true) := fun h' => h ⟨d, hd, h'⟩
      rw [not_or] at this
      simpa using this
    rw [none s hs, none (j ++ s)]
    intro d hd
    rw [List.mem_append] at hd
    rcases hd with hd | hd
    · exact hj d hd
    · exact hs d hd

/-- Reading junk before a text with a space skips it. -/
theorem readNumber_junk {j s : Str} (hj : ∀ d ∈ j, isNd d = false ∧ Spec.isPlus d = false) (hs : ' ' ∈ s) :
    readNumber (j ++ s) = readNumber s := by
  have h1 : Rfc3966.phoneNumber (j ++ s) = .err .error := rfc_space (List.mem_append_right _ hs)
  have h2 : Rfc3966.phoneNumber s = .err .error := rfc_space hs
  simp only [readNumber, h1, h2, Natural.phoneNumber, extract_junk hj s]

/-- A number without a plus that contains a digit is read with all its digits. -/
theorem readNumber_bare {b : Str} (hh : ∃ c ∈ b, isDigit c = true) (hp : ∀ c ∈ b, c ∈ plainChars ∧ c ≠ '+') :
    ∃ x, readNumber b = .ok { national := x } ∧ (∀ c ∈ x, c ∈ plainChars ∧ c ≠ '+') ∧ x.filter isDigit = b.filter isDigit := by
  have hp' : ∀ d ∈ b, d ∈ plainChars := fun d hd => (hp d hd).1
  have hne : b ≠ [] := by rintro rfl; obtain ⟨c, h, _⟩ := hh; cases h
  by_cases hn : ∀ d ∈ b, Rfc3966.number d = true
  · exact ⟨b, by simp [readNumber, rfc_digits hne hp' hn], hp, rfl⟩
  · have hn : ∃ d ∈ b, Rfc3966.number d = false := by
      apply Classical.byContradiction
      intro h
      apply hn
      intro d hd
      cases hx : Rfc3966.number d with
      | true => rfl
      | false => exact absurd ⟨d, hd, hx⟩ h
    have hr : Rfc3966.phoneNumber b = .err .error := by
      apply rfc_other hp' _ hn
      intro h
      exact (hp '+' (List.mem_of_head? h)).2 rfl
    have split : ∀ b : Str, (∃ c ∈ b, isDigit c = true) → ∃ j c s, b = j ++ c :: s ∧ (∀ d ∈ j, isDigit d = false) ∧ isDigit c = true := by
      intro b
      induction b with
      | nil => rintro ⟨c, h, _⟩; cases h
      | cons x b ih =>
        intro h
        cases hx : isDigit x with
        | true => exact ⟨[], x, b, rfl, by simp, hx⟩
        | false =>
          obtain ⟨c, hc, hd⟩ := h
          rcases List.mem_cons.1 hc with rfl | hc
          · rw [hx] at hd; cases hd
          · obtain ⟨j, c, s, rfl, h1, h2⟩ := ih ⟨c, hc, hd⟩
            exact ⟨x :: j, c, s, rfl, by simp [hx]; exact h1, h2⟩
    obtain ⟨j, c, s, rfl, hj, hc⟩ := split b hh
    obtain ⟨a, d, t, he, hd, ht⟩ := split_last_digit (s := c :: s) ⟨c, by simp, hc⟩
    have hps : ∀ d ∈ c :: s, d ∈ plainChars := fun d hd => hp' d (List.mem_append_right _ hd)
    have hjunk : ∀ d ∈ j, isNd d = false ∧ Spec.isPlus d = false := by
      intro d hd
      have h1 := hp d (List.mem_append_left _ hd)
      have h2 : ∀ c ∈ plainChars, c.toNat < 128 ∧ (c = '+' ∨ Spec.isPlus c = false) := by decide
      obtain ⟨h3, h4⟩ := h2 d h1.1
      exact ⟨by simp [isNd, h3, hj d hd], h4.resolve_left h1.2⟩
    have hnat : Natural.phoneNumber (j ++ c :: s) = Natural.phoneNumber (c :: s) := by
      simp only [Natural.phoneNumber, extract_junk hjunk (c :: s)]
    refine ⟨a ++ [d], ?_, ?_, ?_⟩
    · simp [readNumber, hr, hnat, natural_plain (.inr hc) hps he hd ht]
    · intro x hx; exact hp x (List.mem_append_right _ (by rw [he]; exact List.mem_append_left _ hx))
    · have : j.filter isDigit = [] := List.filter_eq_nil_iff.2 (by intro x hx; simp [hj x hx])
      rw [List.filter_append (l₁ := j), this, List.nil_append, he, filter_snoc_tail ht]

end Phone
