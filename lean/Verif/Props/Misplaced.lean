import Verif.Spec.Misplaced
import Verif.Props.TwoNumbers
/-! # C110: characters that have no place in a number -/

namespace Phone
section
variable [UnicodeTables]

omit [UnicodeTables] in
theorem fold_ext {c : Char} (h : Spec.fold c ∈ (str% ";ext=")) : isAlpha c = true ∨ c ∈ (str% ",;:#=\t") := by
  have h' : (Spec.fold c).toNat ∈ (str% ";ext=").map Char.toNat := List.mem_map_of_mem h
  rw [show (str% ";ext=").map Char.toNat = [59, 101, 120, 116, 61] from by decide, fold_toNat] at h'
  have hc : isAlpha c = true ∨ c.toNat = 59 ∨ c.toNat = 61 := by
    simp only [isAlpha, Bool.or_eq_true, Bool.and_eq_true, decide_eq_true_eq]
    simp only [List.mem_cons, List.not_mem_nil, or_false] at h'
    generalize c.toNat = n at h' ⊢
    split at h'
    · omega
    · split at h'
      · omega
      · split at h'
        · omega
        · omega
  rcases hc with h | h | h
  · exact .inl h
  · exact .inr (by rw [show c = ';' from Char.toNat_inj.1 (by rw [h]; decide)]; decide)
  · exact .inr (by rw [show c = '=' from Char.toNat_inj.1 (by rw [h]; decide)]; decide)

theorem ext_no_misplaced {e : Str} {o : Option Str} (he : Spec.ExtText e o) {p : Char} (hp : Spec.Misplaced p) : p ∉ e := by
  obtain ⟨_, h2, h3, h4, h5, h6⟩ := hp
  intro hm
  have nds : ∀ {ds : Str}, (∀ c ∈ ds, isNd c = true) → p ∉ ds := by
    intro ds h h0
    rw [h p h0] at h3
    cases h3
  have bad : ∀ l : Str, (∀ c ∈ l, Spec.isFill c = true ∨ c ∈ (str% ",;:#=\t") ∨ c ∈ Spec.wideExt) → p ∉ l := by
    intro l hl h0
    rcases hl p h0 with h | h | h
    · rw [h2] at h; cases h
    · exact h5 h
    · exact h6 h
  cases he with
  | word w1 w2 w3 w4 ds w6 k1 k2 k3 k4 k5 k6 k7 =>
    simp only [List.mem_append] at hm
    rcases hm with hm | hm | hm | hm | hm | hm
    · exact bad _ (by decide) (k1 p hm)
    · rcases (word_chars k2).2 p hm with h | h
      · exact h6 h
      · simp only [List.mem_cons, List.not_mem_nil, or_false] at h
        have hna : ¬ (65 ≤ p.toNat ∧ p.toNat ≤ 90 ∨ 97 ≤ p.toNat ∧ p.toNat ≤ 122) := by
          intro h0
          simp [isAlpha] at h4
          omega
        have : p ∈ (str% ",;#~") := by
          have : p.toNat ∈ (str% ",;#~").map Char.toNat := by
            rw [show (str% ",;#~").map Char.toNat = [44, 59, 35, 126] from by decide]
            simp only [List.mem_cons, List.not_mem_nil, or_false]
            omega
          obtain ⟨d, hd, e⟩ := List.mem_map.1 this
          rw [← Char.toNat_inj.1 e]; exact hd
        exact bad _ (by decide) this
    · rcases k3 with rfl | ⟨c, hc, rfl⟩
      · cases hm
      · rw [List.mem_singleton] at hm
        subst hm
        exact bad _ (by decide) hc
    · exact bad _ (by decide) (k4 p hm)
    · exact nds k6 hm
    · rcases k7 with rfl | rfl
      · cases hm
      · exact bad _ (by decide) hm
  | rfc q ds k1 k2 k3 =>
    rcases List.mem_append.1 hm with hm | hm
    · have := List.mem_map_of_mem (f := Spec.fold) hm
      rw [k1] at this
      rcases fold_ext this with h | h
      · rw [h4] at h; cases h
      · exact h5 h
    · exact nds k3 hm
  | hash sep ds k1 k2 k3 k4 k5 =>
    simp only [List.mem_append] at hm
    rcases hm with hm | hm | hm
    · exact bad _ (by decide) (k2 p hm)
    · exact nds k5 hm
    · exact bad _ (by decide) hm

theorem Spec.Misplaced.not_phone {p : Char} (hp : Spec.Misplaced p) : Spec.isPhoneDigit p = false := by
  obtain ⟨h1, h2, h3, h4, _⟩ := hp
  cases h : Spec.isPhoneDigit p with
  | false => rfl
  | true =>
    simp only [Spec.isPhoneDigit, Bool.or_eq_true, Bool.and_eq_true, decide_eq_true_eq] at h
    have ha : ¬ (65 ≤ p.toNat ∧ p.toNat ≤ 90 ∨ 97 ≤ p.toNat ∧ p.toNat ≤ 122) := by
      intro h0
      simp [isAlpha] at h4
      omega
    have e : 'a'.toNat = 97 ∧ 'f'.toNat = 102 ∧ 'A'.toNat = 65 ∧ 'F'.toNat = 70 := by decide
    rcases h with ((h | h) | h) | h
    · rw [isNd_of_isDigit h] at h3; cases h3
    · omega
    · omega
    · simp only [Spec.isSeparator, decide_eq_true_eq] at h
      rw [(by decide : ∀ c ∈ (str% "-.()"), Spec.isFill c = true) p h] at h2
      cases h2

theorem viable_misplaced {x : Str} (hv : Spec.Viable x) {p : Char} (hp : Spec.Misplaced p) : p ∉ x := by
  obtain ⟨h1, h2, h3, h4, _⟩ := hp
  have hd : isDigit p = false := by
    cases h : isDigit p with
    | false => rfl
    | true => rw [isNd_of_isDigit h] at h3; cases h3
  intro hm
  have clash : ∀ {f : Char → Bool} {l : Str}, f p = false → (∀ c ∈ l, f c = true) → p ∉ l := by
    intro f l hf hl h0
    rw [hl p h0] at hf
    cases hf
  rcases hv with ⟨x, y, rfl, hx, hy⟩ | ⟨pl, f1, d1, f2, d2, f3, d3, rest, rfl, g1, g2, g3, g4, g5, g6, g7, g8⟩
  · exact clash (f := isDigit) hd (by simp [hx, hy]) hm
  · simp only [List.mem_append, List.mem_cons] at hm
    rcases hm with hm | hm | rfl | hm | rfl | hm | rfl | hm
    · exact clash h1 g1 hm
    · exact clash h2 g2 hm
    · rw [g5] at hd; cases hd
    · exact clash h2 g3 hm
    · rw [g6] at hd; cases hd
    · exact clash h2 g4 hm
    · rw [g7] at hd; cases hd
    · rcases g8 p hm with h | h | h
      · rw [h2] at h; cases h
      · rw [hd] at h; cases h
      · rw [h4] at h; cases h

/-- C110: a text with a space, or one that begins with a digit and has no semicolon, is refused if a character that has no place in a
number comes after one that can begin a number and before one that can end a number, unless an x after a slash comes in between. -/
theorem C110_misplaced (db : Database) (country : Option Id) (a b : Str) (p : Char) (hp : Spec.Misplaced p)
    (ha : ∃ c ∈ a, Spec.startsNumber c = true) (hb : ∃ c ∈ b, Spec.endsNumber c = true)
    (hs : ' ' ∈ a ++ p :: b ∨ (∃ c t, a ++ p :: b = c :: t ∧ isDigit c = true) ∧ ';' ∉ a ++ p :: b)
    (hns : Spec.NoSlashX (a ++ p :: b)) (hm : Spec.MarksNotDigits (a ++ p :: b)) :
    parseWith db country (a ++ p :: b) = .err .noNumber := by
  obtain ⟨d, hda, hd⟩ := ha
  obtain ⟨o, ho⟩ := reads_total (a ++ p :: b)
  cases o with
  | none => rw [parseWith_eq, reads_sound hm ho]; rfl
  | some r =>
    have hv : ¬ Spec.Viable r.number := by
      cases ho with
      | tel h => exact absurd h (not_tel_between (p := p) (by simp) hp.not_phone hs _)
      | plain _ h _ =>
        obtain ⟨a', b', rfl, hd'⟩ := candidate_between h hns hda hd hb
        intro hv
        exact viable_misplaced hv hp (by simp)
      | @extended x n e _ h he =>
        obtain ⟨a', b', rfl, hd'⟩ := candidate_between h hns hda hd hb
        obtain ⟨⟨e', h1, h2⟩, _⟩ := he
        intro hv
        have : p ∈ n ++ e' := by rw [← h1]; simp
        rcases List.mem_append.1 this with h | h
        · exact viable_misplaced hv hp h
        · exact ext_no_misplaced h2 hp h
    rw [parseWith_eq, reads_sound hm ho, Outcome.bind_ok]
    unfold afterRead
    rw [if_pos]
    rw [show r.toNumber.national = r.number from rfl, Bool.not_eq_true', Bool.eq_false_iff, ne_eq, C14_isViable_iff]
    exact hv

/-! ## Concrete cases -/

/-- Numbers on two lines; the text meets the conditions. -/
example (db : Database) (country : Option Id) : parseWith db country (str% "650-253-0000\n650-253-0001") = .err .noNumber :=
  C110_misplaced db country (str% "650-253-0000") (str% "650-253-0001") '\n'
    ⟨by decide, by decide, by kernel_rfl, by decide, by decide, by decide⟩ ⟨'0', by decide, by kernel_rfl⟩
    ⟨'0', by decide, by kernel_rfl⟩ (.inr ⟨⟨'6', _, rfl, by decide⟩, by decide⟩)
    (by
      intro a c sp d b h hc
      have hm : c ∈ (str% "650-253-0000\n650-253-0001") := by rw [show (str% "650-253-0000\n650-253-0001") = _ from h]; simp
      rcases hc with rfl | rfl <;> exact absurd hm (by decide))
    (fun c hc hw => absurd hw ((by decide : ∀ c ∈ (str% "650-253-0000\n650-253-0001"), c ∉ Spec.wideExt) c hc))

/-- Such characters before and after the number do not matter; nor does a comma, with which an extension may be written. -/
example : parseWith Sample.db (some .US) (str% "Office & home:\n650 253 0000!\n") = .ok ⟨⟨1, .default⟩, ⟨6502530000⟩, none, none⟩ ∧
    parseWith Sample.db (some .US) (str% "650 253 0000, 650") = .ok ⟨⟨1, .default⟩, ⟨6502530000⟩, some (str% "650"), none⟩ :=
  ⟨by kernel_rfl, by kernel_rfl⟩

end
end Phone
