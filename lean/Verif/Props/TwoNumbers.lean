import Verif.Props.Words
/-! # C109: two numbers in one text

The number is looked for between the first character that can begin one and the last that can end one. A second number with a plus sign
is then part of the first, and such a text is refused. -/

namespace Phone

theorem plus_cases {c : Char} (h : Spec.isPlus c = true) : c = '+' ∨ c = '＋' := by
  simp only [Spec.isPlus, Bool.or_eq_true, beq_iff_eq] at h
  exact h.imp id fun h => Char.toNat_inj.1 (by rw [h]; decide)

/-- No plus sign comes after a digit in a viable number. -/
theorem viable_plus {a b : Str} {p d : Char} (hv : Spec.Viable (a ++ p :: b)) (hp : Spec.isPlus p = true) (hd : isDigit d = true) : d ∉ a := by
  intro hda
  have hpd := plus_not_digit hp
  rcases hv with ⟨x, y, h, hx, hy⟩ | ⟨pl, f1, d1, f2, d2, f3, d3, rest, h, h1, h2, h3, h4, h5, h6, h7, h8⟩
  · have hm : p ∈ [x, y] := by rw [← h]; simp
    simp only [List.mem_cons, List.not_mem_nil, or_false] at hm
    rcases hm with rfl | rfl
    · rw [hx] at hpd; cases hpd
    · rw [hy] at hpd; cases hpd
  · have hnp : ∀ c ∈ f1 ++ d1 :: (f2 ++ d2 :: (f3 ++ d3 :: rest)), Spec.isPlus c = false := by
      have fill : ∀ c, Spec.isFill c = true → Spec.isPlus c = false := by
        intro c hc
        cases hq : Spec.isPlus c with
        | false => rfl
        | true => rcases plus_cases hq with rfl | rfl <;> exact absurd hc (by decide)
      have dig : ∀ c, isDigit c = true → Spec.isPlus c = false := by
        intro c hc
        cases hq : Spec.isPlus c with
        | false => rfl
        | true => rw [plus_not_digit hq] at hc; cases hc
      intro c hc
      simp only [List.mem_append, List.mem_cons] at hc
      rcases hc with hc | rfl | hc | rfl | hc | rfl | hc
      · exact fill c (h2 c hc)
      · exact dig _ h5
      · exact fill c (h3 c hc)
      · exact dig _ h6
      · exact fill c (h4 c hc)
      · exact dig _ h7
      · rcases h8 c hc with h | h | h
        · exact fill c h
        · exact dig c h
        · cases hq : Spec.isPlus c with
          | false => rfl
          | true => rw [plus_not_alpha hq] at h; cases h
    rcases List.append_eq_append_iff.1 h with ⟨u, h9, h10⟩ | ⟨u, h9, h10⟩
    · have := h1 d (by rw [h9]; simp [hda])
      rw [plus_not_digit this] at hd
      cases hd
    · have := hnp p (by rw [h10]; simp)
      rw [hp] at this
      cases this

section
variable [UnicodeTables]

theorem ext_no_plus {e : Str} {o : Option Str} (he : Spec.ExtText e o) {p : Char} (hp : Spec.isPlus p = true) (hn : isNd p = false) : p ∉ e := by
  intro hm
  have nds : ∀ {ds : Str}, (∀ c ∈ ds, isNd c = true) → p ∉ ds := by
    intro ds h h0
    rw [h p h0] at hn
    cases hn
  cases he with
  | word w1 w2 w3 w4 ds w6 h1 h2 h3 h4 h5 h6 h7 =>
    simp only [List.mem_append] at hm
    rcases hm with hm | hm | hm | hm | hm | hm
    · have := h1 p hm
      rcases plus_cases hp with rfl | rfl <;> exact absurd this (by decide)
    · exact word_not_dress h2 p hm (plus_dress hp)
    · rcases h3 with rfl | ⟨c, hc, rfl⟩
      · cases hm
      · rw [List.mem_singleton] at hm
        subst hm
        rcases plus_cases hp with rfl | rfl <;> exact absurd hc (by decide)
    · have := h4 p hm
      rcases plus_cases hp with rfl | rfl <;> exact absurd this (by decide)
    · exact nds h6 hm
    · rcases h7 with rfl | rfl
      · cases hm
      · rcases plus_cases hp with rfl | rfl <;> exact absurd hm (by decide)
  | rfc q ds k1 k2 k3 =>
    rcases List.mem_append.1 hm with hm | hm
    · have := List.mem_map_of_mem (f := Spec.fold) hm
      rw [k1] at this
      rcases plus_cases hp with rfl | rfl <;> exact absurd this (by decide)
    · exact nds k3 hm
  | hash sep ds k1 k2 k3 k4 k5 =>
    simp only [List.mem_append] at hm
    rcases hm with hm | hm | hm
    · have := k2 p hm
      rcases plus_cases hp with rfl | rfl <;> exact absurd this (by decide)
    · exact nds k5 hm
    · rcases plus_cases hp with rfl | rfl <;> exact absurd hm (by decide)

/-- A character between one that can begin a number and one that can end it is in the part that is taken for the number. -/
theorem candidate_between {a b x : Str} {p d : Char} (hx : Spec.Candidate (a ++ p :: b) x) (hns : Spec.NoSlashX (a ++ p :: b))
    (hda : d ∈ a) (hd : Spec.startsNumber d = true) (hb : ∃ c ∈ b, Spec.endsNumber c = true) : ∃ a' b', x = a' ++ p :: b' ∧ d ∈ a' := by
  obtain ⟨hne, junk, body, after, rest, hs, rfl, k1, _, k3, _, k5, _⟩ := hx
  have hrest : rest = [] := by
    rcases k5 with h | h
    · exact h
    · rw [hs] at hns
      exact absurd h (noSlashX_second (a := junk ++ x) (f := after) hns (by simp) rfl)
  subst hrest
  rw [List.append_nil, List.append_assoc] at hs
  have hdj : d ∉ junk := by
    intro h
    rw [k1 d h] at hd
    cases hd
  rcases List.append_eq_append_iff.1 hs with ⟨u, h1, _⟩ | ⟨u, rfl, h2⟩
  · exact absurd (by rw [h1]; simp [hda]) hdj
  · have hdu : d ∈ u := (List.mem_append.1 hda).resolve_left hdj
    rcases List.append_eq_append_iff.1 h2 with ⟨v, h3, h4⟩ | ⟨v, h3, h4⟩
    · -- x ends before the plus
      obtain ⟨c, hc, he⟩ := hb
      rw [k3 c (by rw [h4]; simp [hc])] at he
      cases he
    · cases v with
      | nil =>
        obtain ⟨c, hc, he⟩ := hb
        rw [k3 c (by rw [List.nil_append] at h4; rw [← h4]; simp [hc])] at he
        cases he
      | cons y v =>
        rw [List.cons_append] at h4
        obtain ⟨rfl, _⟩ := List.cons.inj h4
        exact ⟨u, v, h3, hdu⟩

omit [UnicodeTables] in
/-- A text with a space, or one that begins with a digit, has no semicolon and has a character with no place in the number of a `tel:`
text, is not read as such a text. -/
theorem not_tel_between {s : Str} {p : Char} (hps : p ∈ s) (hp : Spec.isPhoneDigit p = false)
    (hs : ' ' ∈ s ∨ (∃ c t, s = c :: t ∧ isDigit c = true) ∧ ';' ∉ s) (r : Spec.Reading) : ¬ Spec.TelReading s r := by
  intro hr
  rcases hs with hs | ⟨⟨c, t, hct, hc⟩, hsc⟩
  · cases hr <;> exact absurd hs (by assumption)
  · have scheme : ∀ {u : Str}, Spec.WithoutScheme s u → u = s := by
      rintro u (⟨sch, ⟨x, y, z, rfl, hx, _⟩, rfl⟩ | ⟨rfl, _⟩)
      · simp only [List.cons_append, List.cons.injEq] at hct
        rw [← hct.1] at hc
        rcases hx with rfl | rfl <;> exact absurd hc (by decide)
      · rfl
    cases hr with
    | @global q number rest ps h1 h2 =>
      have := scheme h2
      rw [hct] at this
      rw [← (List.cons.inj this).1] at hc
      exact absurd hc (by decide)
    | @«local» number rest ps h1 h2 h3 h4 h5 =>
      have hu := scheme h2
      have hrest : rest = [] := by
        rcases h5 with h | h
        · exact h
        · exact absurd (by rw [← hu]; exact List.mem_append_right _ (List.mem_of_mem_head? (by rw [h]; rfl))) hsc
      rw [← hu, hrest, List.append_nil] at hps
      rw [h4 p hps] at hp
      cases hp

/-- C109: a text with a space, or one that begins with a digit and has no semicolon, is refused if it has a plus sign somewhere after a
digit and before a character that can end a number, unless an x after a slash comes in between. -/
theorem C109_second_plus (db : Database) (country : Option Id) (a b : Str) (p d : Char) (hp : Spec.isPlus p = true) (hn : isNd p = false)
    (hda : d ∈ a) (hd : isDigit d = true) (hb : ∃ c ∈ b, Spec.endsNumber c = true)
    (hs : ' ' ∈ a ++ p :: b ∨ (∃ c t, a ++ p :: b = c :: t ∧ isDigit c = true) ∧ ';' ∉ a ++ p :: b)
    (hns : Spec.NoSlashX (a ++ p :: b)) (hm : Spec.MarksNotDigits (a ++ p :: b)) :
    parseWith db country (a ++ p :: b) = .err .noNumber := by
  have notViable : ∀ {r : Spec.Reading}, Spec.Reads (a ++ p :: b) (some r) → ¬ Spec.Viable r.number →
      parseWith db country (a ++ p :: b) = .err .noNumber := by
    intro r hr hv
    rw [parseWith_eq, reads_sound hm hr, Outcome.bind_ok]
    unfold afterRead
    rw [if_pos]
    rw [show r.toNumber.national = r.number from rfl, Bool.not_eq_true', Bool.eq_false_iff, ne_eq, C14_isViable_iff]
    exact hv
  obtain ⟨o, ho⟩ := reads_total (a ++ p :: b)
  cases o with
  | none => rw [parseWith_eq, reads_sound hm ho]; rfl
  | some r =>
    refine notViable ho ?_
    cases ho with
    | tel h => exact absurd h (not_tel_between (p := p) (by simp) (by rcases plus_cases hp with rfl | rfl <;> decide) hs _)
    | plain _ h _ =>
      obtain ⟨a', b', rfl, hd'⟩ := candidate_between h hns hda (by simp [Spec.startsNumber, isNd_of_isDigit hd]) hb
      intro hv
      exact viable_plus hv hp hd hd'
    | @extended x n e _ h he =>
      obtain ⟨a', b', rfl, hd'⟩ := candidate_between h hns hda (by simp [Spec.startsNumber, isNd_of_isDigit hd]) hb
      obtain ⟨⟨e', h1, h2⟩, _⟩ := he
      intro hv
      rcases List.append_eq_append_iff.1 h1 with ⟨u, h3, h4⟩ | ⟨u, h3, h4⟩
      · cases u with
        | nil => exact ext_no_plus h2 hp hn (by rw [List.nil_append] at h4; rw [← h4]; simp)
        | cons y u =>
          rw [List.cons_append] at h4
          obtain ⟨rfl, _⟩ := List.cons.inj h4
          subst h3
          exact viable_plus hv hp hd hd'
      · exact ext_no_plus h2 hp hn (by rw [h4]; simp)

/-! ## Concrete cases -/

/-- A text with two numbers; it meets the conditions. -/
example (db : Database) (country : Option Id) : parseWith db country (str% "+1 650 253 0000 or +41 44 668 18 00") = .err .noNumber :=
  C109_second_plus db country (str% "+1 650 253 0000 or ") (str% "41 44 668 18 00") '+' '1' (by decide) (by kernel_rfl) (by decide) (by decide)
    ⟨'0', by decide, by kernel_rfl⟩ (.inl (by decide))
    (by
      intro a c sp d b h hc
      have hm : c ∈ (str% "+1 650 253 0000 or +41 44 668 18 00") := by rw [show (str% "+1 650 253 0000 or +41 44 668 18 00") = _ from h]; simp
      rcases hc with rfl | rfl <;> exact absurd hm (by decide))
    (fun c hc hw => absurd hw ((by decide : ∀ c ∈ (str% "+1 650 253 0000 or +41 44 668 18 00"), c ∉ Spec.wideExt) c hc))

/-- Without plus signs the digits of two numbers run together (C107); a plus sign at the end, without a space, or after `/x` is another
matter. -/
example : parseWith Sample.db (some .US) (str% "6502530000 / 253") = parseWith Sample.db (some .US) (str% "6502530000253") ∧
    parseWith Sample.db (some .US) (str% "650 253 0000 +") = .ok ⟨⟨1, .default⟩, ⟨6502530000⟩, none, none⟩ ∧
    parseWith Sample.db (some .US) (str% "650 253 0000 /x +1 650 253 0001") = .ok ⟨⟨1, .default⟩, ⟨6502530000⟩, none, none⟩ ∧
    parseWith Sample.db none (str% "+0+1-6502530000") = .ok ⟨⟨1, .plus⟩, ⟨6502530000⟩, none, none⟩ :=
  ⟨by kernel_rfl, by kernel_rfl, by kernel_rfl, by kernel_rfl⟩

end
end Phone
