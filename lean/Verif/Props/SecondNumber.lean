import Verif.Props.TwoNumbers
/-! # C111: what follows a second number is not read -/

namespace Phone
section
variable [UnicodeTables]

omit [UnicodeTables] in
/-- A text split after its last character with a property. -/
theorem split_last (f : Char → Bool) (s : Str) : ∃ a b, s = a ++ b ∧ (∀ c, a.getLast? = some c → f c = true) ∧ ∀ c ∈ b, f c = false := by
  induction s with
  | nil => exact ⟨[], [], rfl, by simp, by simp⟩
  | cons y s ih =>
    obtain ⟨a, b, rfl, h1, h2⟩ := ih
    cases a with
    | nil =>
      cases hy : f y with
      | true => exact ⟨[y], b, rfl, by simp [hy], h2⟩
      | false => exact ⟨[], y :: b, rfl, by simp, by simpa [hy] using h2⟩
    | cons z a => exact ⟨y :: z :: a, b, rfl, by simpa [List.getLast?_cons_cons] using h1, h2⟩

omit [UnicodeTables] in
/-- A second number that begins in a text before a slash is within that text. -/
theorem second_within {u t : Str} {c : Char} (hc : c = '/' ∨ c = '\\') {a b : Str} (h : u ++ c :: t = a ++ b) (hl : a.length < u.length)
    (hb : Spec.SecondNumber b) : ∃ b', u = a ++ b' ∧ Spec.SecondNumber b' := by
  obtain ⟨e, sp, r, rfl, he, hsp⟩ := hb
  rcases List.append_eq_append_iff.1 h with ⟨v, h1, h2⟩ | ⟨v, h1, h2⟩
  · rw [h1, List.length_append] at hl
    omega
  · refine ⟨v, h1, ?_⟩
    cases v with
    | nil => rw [h1, List.append_nil] at hl; omega
    | cons y v =>
      rw [List.cons_append] at h2
      obtain ⟨rfl, h3⟩ := List.cons.inj h2
      rcases List.append_eq_append_iff.1 h3 with ⟨w, h4, h5⟩ | ⟨w, h4, h5⟩
      · cases w with
        | nil =>
          rw [List.nil_append] at h5
          obtain ⟨rfl, _⟩ := List.cons.inj h5
          rcases hc with h | h <;> cases h
        | cons z w =>
          rw [List.cons_append] at h5
          obtain ⟨rfl, _⟩ := List.cons.inj h5
          exact ⟨e, sp, w, by rw [h4], he, hsp⟩
      · cases w with
        | nil =>
          rw [List.nil_append] at h5
          obtain ⟨rfl, _⟩ := List.cons.inj h5
          rcases hc with h | h <;> cases h
        | cons z w =>
          rw [List.cons_append] at h5
          obtain ⟨rfl, _⟩ := List.cons.inj h5
          have := hsp c (by rw [h4]; simp)
          rcases hc with rfl | rfl <;> cases this

/-- The number of a text with a second number reaches from the first character that can begin a number to the second number. -/
theorem second_candidate {junk x sp r : Str} {c : Char} (hj : ∀ c ∈ junk, Spec.startsNumber c = false)
    (hx : ∃ d, x.head? = some d ∧ Spec.startsNumber d = true) (hc : c = '/' ∨ c = '\\') (hsp : ∀ d ∈ sp, d = ' ')
    (hno : ∀ a b, x = a ++ b → ¬ Spec.SecondNumber b) : Spec.Candidate (junk ++ x ++ c :: (sp ++ 'x' :: r)) x := by
  obtain ⟨d, h1, h2⟩ := hx
  have hne : x ≠ [] := by rintro rfl; cases h1
  obtain ⟨r1, r2, h3, h4, h5⟩ := split_last (fun c => Spec.endsNumber c) r
  subst h3
  refine ⟨hne, junk, x ++ c :: (sp ++ 'x' :: r1), r2, c :: (sp ++ 'x' :: r1), by simp, rfl, hj, ⟨d, ?_, h2⟩, h5, ?_,
    .inr ⟨c, sp, r1, rfl, hc, hsp⟩, ?_⟩
  · cases x with
    | nil => exact absurd rfl hne
    | cons y x => exact h1
  · intro e he
    rcases List.eq_nil_or_concat r1 with rfl | ⟨r', z, rfl⟩
    · rw [show x ++ c :: (sp ++ ['x']) = (x ++ c :: sp) ++ ['x'] by simp, List.getLast?_concat] at he
      cases he
      kernel_rfl
    · rw [List.concat_eq_append] at he h4
      rw [show x ++ c :: (sp ++ 'x' :: (r' ++ [z])) = (x ++ c :: (sp ++ 'x' :: r')) ++ [z] by simp, List.getLast?_concat] at he
      cases he
      exact h4 e (by simp)
  · intro a b h hl hb
    obtain ⟨b', h6, h7⟩ := second_within hc h hl hb
    exact hno a b' h6 h7

omit [UnicodeTables] in
theorem split_first {f : Char → Bool} {s : Str} (h : ∃ c ∈ s, f c = true) :
    ∃ a b, s = a ++ b ∧ (∀ c ∈ a, f c = false) ∧ ∃ d, b.head? = some d ∧ f d = true := by
  induction s with
  | nil => obtain ⟨c, hc, _⟩ := h; cases hc
  | cons y s ih =>
    cases hy : f y with
    | true => exact ⟨[], y :: s, rfl, by simp, y, rfl, hy⟩
    | false =>
      obtain ⟨c, hc, hf⟩ := h
      rcases List.mem_cons.1 hc with rfl | hc
      · rw [hy] at hf; cases hf
      · obtain ⟨a, b, rfl, h1, h2⟩ := ih ⟨c, hc, hf⟩
        exact ⟨y :: a, b, rfl, by simpa [hy] using h1, h2⟩

/-- C111: what follows the x of a second number is not read: in a text with a space and the beginning of a number before a slash, spaces
and an x, the rest may be anything. -/
theorem C111_rest (db : Database) (country : Option Id) (u sp r r' : Str) (c : Char) (hu : ∃ d ∈ u, Spec.startsNumber d = true)
    (hc : c = '/' ∨ c = '\\') (hsp : ∀ d ∈ sp, d = ' ') (hs : ' ' ∈ u ++ sp) (hno : ∀ a b, u = a ++ b → ¬ Spec.SecondNumber b) :
    parseWith db country (u ++ c :: (sp ++ 'x' :: r)) = parseWith db country (u ++ c :: (sp ++ 'x' :: r')) := by
  obtain ⟨junk, x, rfl, hj, hx⟩ := split_first hu
  have hno' : ∀ a b, x = a ++ b → ¬ Spec.SecondNumber b := fun a b h => hno (junk ++ a) b (by rw [h]; simp)
  have nt : ∀ r : Str, ∀ q, ¬ Spec.TelReading (junk ++ x ++ c :: (sp ++ 'x' :: r)) q := by
    intro r q hq
    have : ' ' ∈ junk ++ x ++ c :: (sp ++ 'x' :: r) := by
      rcases List.mem_append.1 hs with h | h
      · exact List.mem_append_left _ h
      · simp [h]
    cases hq <;> exact absurd this (by assumption)
  rw [parseWith_eq, parseWith_eq, readNumber_natural (nt r), readNumber_natural (nt r'), Natural.phoneNumber, Natural.phoneNumber,
    extract_eq_ok.2 (second_candidate hj hx hc hsp hno'), extract_eq_ok.2 (second_candidate hj hx hc hsp hno')]

/-- C111: such a text is read like the part before the slash if that part has a space and its last character can end a number. -/
theorem C111_first (db : Database) (country : Option Id) (u sp r : Str) (c : Char) (hu : ∃ d ∈ u, Spec.startsNumber d = true)
    (hl : ∀ e, u.getLast? = some e → Spec.endsNumber e = true)
    (hc : c = '/' ∨ c = '\\') (hsp : ∀ d ∈ sp, d = ' ') (hs : ' ' ∈ u) (hno : ∀ a b, u = a ++ b → ¬ Spec.SecondNumber b) :
    parseWith db country (u ++ c :: (sp ++ 'x' :: r)) = parseWith db country u := by
  obtain ⟨junk, x, rfl, hj, hx⟩ := split_first hu
  have hno' : ∀ a b, x = a ++ b → ¬ Spec.SecondNumber b := fun a b h => hno (junk ++ a) b (by rw [h]; simp)
  have hne : x ≠ [] := by rintro rfl; obtain ⟨_, h, _⟩ := hx; cases h
  have nt : ∀ {s : Str}, ' ' ∈ s → ∀ q, ¬ Spec.TelReading s q := by
    intro s h q hq
    cases hq <;> exact absurd h (by assumption)
  have hcand : Spec.Candidate (junk ++ x) x := by
    obtain ⟨d, h1, h2⟩ := hx
    refine ⟨hne, junk, x, [], [], by simp, by simp, hj, ⟨d, by simpa using h1, h2⟩, by simp, ?_, .inl rfl, fun a b h _ => hno' a b h⟩
    intro e he
    refine hl e ?_
    rw [List.getLast?_append, he]
    rfl
  rw [parseWith_eq, parseWith_eq, readNumber_natural (nt (List.mem_append_left _ hs)), readNumber_natural (nt hs), Natural.phoneNumber, Natural.phoneNumber,
    extract_eq_ok.2 (second_candidate hj hx hc hsp hno'), extract_eq_ok.2 hcand]

/-! ## Concrete cases -/

/-- Two extensions as they are written in the USA; the text meets the conditions. -/
example (r : Str) : parseWith Sample.db (some .US) ((str% "(650) 253-0000 x302") ++ '/' :: ((str% "") ++ 'x' :: r)) =
    .ok ⟨⟨1, .default⟩, ⟨6502530000⟩, some (str% "302"), none⟩ := by
  rw [C111_first Sample.db (some .US) (str% "(650) 253-0000 x302") [] r '/' ⟨'6', by decide, by kernel_rfl⟩ ?_ (.inl rfl) (by simp) (by decide)]
  · kernel_rfl
  · rintro a b h ⟨c, sp, r, rfl, hc, _⟩
    have hm : c ∈ (str% "(650) 253-0000 x302") := by rw [h]; simp
    rcases hc with rfl | rfl <;> exact absurd hm (by decide)
  · intro e he
    cases he
    kernel_rfl

/-- With a space before the slash the extension is not seen, since it is not at the end. -/
example : parseWith Sample.db (some .US) (str% "(650) 253-0000 x302 /x303") = .ok ⟨⟨1, .default⟩, ⟨6502530000302⟩, none, none⟩ := by
  kernel_rfl

end
end Phone
