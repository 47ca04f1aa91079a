import Verif.Spec.Punctuation
import Verif.Props.Reading
import Verif.Props.Dialling
/-! # C107: punctuation of every kind

Numbers are written with typographic dashes, wide brackets, ideographic spaces, and the wide plus sign. All of this is read like the plain
digits with an ASCII plus. -/

namespace Phone
open Helper

/-- All characters that do nothing. -/
def idleChars : Str :=
  str% "- ()[]./*\u2010\u2011\u2012\u2013\u2014\u2015\u2212\u30FC\uFF0D\uFF0F\u00A0\u00AD\u200B\u2060\u3000\uFF08\uFF09\uFF3B\uFF3D\u2053\u223C"

theorem idle_mem {c : Char} (h : Spec.isIdle c = true) : c ∈ idleChars := by
  have hl : idleChars.map Char.toNat = [45, 32, 40, 41, 91, 93, 46, 47, 42, 0x2010, 0x2011, 0x2012, 0x2013, 0x2014, 0x2015, 0x2212, 0x30FC,
      0xFF0D, 0xFF0F, 0x00A0, 0x00AD, 0x200B, 0x2060, 0x3000, 0xFF08, 0xFF09, 0xFF3B, 0xFF3D, 0x2053, 0x223C] := by decide
  have key : c.toNat ∈ idleChars.map Char.toNat := by
    rw [hl]
    simp only [Spec.isIdle, Spec.isFill, Spec.isPunct, Bool.and_eq_true, Bool.or_eq_true, Bool.not_eq_true', decide_eq_false_iff_not, beq_iff_eq,
      decide_eq_true_eq, List.mem_cons, List.not_mem_nil, or_false, not_or] at h ⊢
    obtain ⟨h, hx, ht, hw⟩ := h
    rcases h with ((h | h) | h) | rfl
    · rcases h with rfl | rfl | rfl | rfl | rfl | rfl | rfl | rfl | rfl | rfl <;> first | exact absurd rfl hx | exact absurd rfl ht | decide
    · omega
    · have : c.toNat ≠ 0xFF5E := fun h0 => hw (Char.toNat_inj.1 (by rw [h0]; decide))
      omega
    · decide
  obtain ⟨d, hd, he⟩ := List.mem_map.1 key
  rw [← Char.toNat_inj.1 he]; exact hd

theorem idle_facts {c : Char} (h : Spec.isIdle c = true) :
    Spec.isFill c = true ∧ isDigit c = false ∧ isAlpha c = false ∧ Spec.isPlus c = false ∧ c ≠ ';' ∧ c ≠ '#' ∧ c ≠ '\n' ∧ c ≠ '\\' ∧
    c ≠ 'x' ∧ c ≠ 'T' ∧ (∀ v, normChar (mapFor v) c = none) := by
  refine ⟨?_, ?_⟩
  · simp only [Spec.isIdle, Bool.and_eq_true] at h; exact h.1
  · have := idle_mem h
    revert c
    have key : ∀ c ∈ idleChars, isDigit c = false ∧ isAlpha c = false ∧ Spec.isPlus c = false ∧ c ≠ ';' ∧ c ≠ '#' ∧ c ≠ '\n' ∧ c ≠ '\\' ∧
      c ≠ 'x' ∧ c ≠ 'T' ∧ (∀ v, normChar (mapFor v) c = none) := by decide
    intro c _ hc
    exact key c hc

/-- The characters of a number written with digits, plus signs and idle characters. -/
def dressChars : Str := (str% "0123456789+\uFF0B") ++ idleChars

theorem digit_dress {c : Char} (h : isDigit c = true) : c ∈ dressChars := by
  have hc := isDigit_iff.1 h
  have hl : (str% "0123456789").map Char.toNat = [48, 49, 50, 51, 52, 53, 54, 55, 56, 57] := by decide
  have key : c.toNat ∈ (str% "0123456789").map Char.toNat := by
    rw [hl]; simp only [List.mem_cons, List.not_mem_nil, or_false]; omega
  obtain ⟨d, hd, he⟩ := List.mem_map.1 key
  rw [← Char.toNat_inj.1 he]
  exact (by decide : ∀ d ∈ (str% "0123456789"), d ∈ dressChars) d hd

theorem plus_dress {c : Char} (h : Spec.isPlus c = true) : c ∈ dressChars := by
  simp only [Spec.isPlus, Bool.or_eq_true, beq_iff_eq] at h
  rcases h with rfl | h
  · decide
  · have : c = '\uFF0B' := Char.toNat_inj.1 (by rw [h]; decide)
    rw [this]; decide

theorem word_not_dress {w : Str} (hw : w.map Spec.fold ∈ Spec.extWords) : ∀ c ∈ w, c ∉ dressChars := by
  intro c hc hd
  have h := (extWords_chars _ hw).2 (Spec.fold c) (List.mem_map_of_mem hc)
  exact absurd h ((by decide : ∀ d ∈ dressChars, (Spec.fold d).toNat ∉
    [101, 120, 116, 110, 115, 105, 111, 97, 44, 59, 35, 126, 0x301, 0xF3, 0xFF45, 0xFF58, 0xFF54, 0xFF4E, 0xFF49, 0xFF03, 0xFF5E]) c hd)

section
variable [UnicodeTables]

theorem dress_noExtension {x : Str} (hx : ∀ c ∈ x, c ∈ dressChars) : Spec.NoExtension x := by
  rintro a e o rfl he
  have mem : ∀ c ∈ e, c ∈ dressChars := fun c hc => hx c (by simp [hc])
  cases he with
  | word w1 w2 w3 w4 ds w6 h1 h2 =>
    cases w2 with
    | nil => exact (word_chars h2).1 rfl
    | cons c w => exact word_not_dress h2 c (by simp) (mem c (by simp))
  | rfc p ds k1 =>
    cases p with
    | nil => cases k1
    | cons c p =>
      simp only [List.map_cons, List.cons.injEq] at k1
      exact word_not_dress (w := [c]) (by rw [List.map_singleton, k1.1]; decide) c (by simp) (mem c (by simp))
  | hash sep ds => exact absurd (mem '#' (by simp)) (by decide)

theorem dress_candidate {junk x after : Str} (hj : ∀ c ∈ junk, Spec.startsNumber c = false) (ha : ∀ c ∈ after, Spec.endsNumber c = false)
    (hx : ∀ c ∈ x, c ∈ dressChars) (hs : ∃ c, x.head? = some c ∧ Spec.startsNumber c = true)
    (hl : ∃ c, x.getLast? = some c ∧ Spec.endsNumber c = true) : Spec.Candidate (junk ++ x ++ after) x := by
  obtain ⟨c, h1, h2⟩ := hs
  obtain ⟨d, h3, h4⟩ := hl
  have hne : x ≠ [] := by rintro rfl; cases h1
  refine ⟨hne, junk, x, after, [], rfl, by simp, hj, ⟨c, by simp [h1], h2⟩, ha, ?_, .inl rfl, ?_⟩
  · intro e he
    rw [h3] at he
    cases he
    exact h4
  · rintro a b rfl _ ⟨c, sp, r, rfl, _, _⟩
    exact absurd (hx 'x' (by simp)) (by decide)

omit [UnicodeTables] in
/-- A text that begins with a digit or the wide plus and has a character that is not for `tel:` texts is not one. -/
theorem dress_not_tel {x : Str} (hx : ∀ c ∈ x, c ∈ dressChars) (hp : x.head? ≠ some '+') (hc : ∃ c ∈ x, Spec.isPhoneDigit c = false)
    (r : Spec.Reading) : ¬ Spec.TelReading x r := by
  have scheme : ∀ {u : Str}, Spec.WithoutScheme x u → u = x := by
    rintro u (⟨sch, ⟨a, b, c, rfl, ha, _⟩, rfl⟩ | ⟨rfl, _⟩)
    · have := hx a (by simp)
      rcases ha with rfl | rfl <;> exact absurd this (by decide)
    · rfl
  intro h
  cases h with
  | @global p number rest ps h1 h2 => exact hp (by rw [← scheme h2]; rfl)
  | @«local» number rest ps h1 h2 h3 h4 h5 =>
    have hu := scheme h2
    have hr : rest = [] := by
      rcases h5 with h | h
      · exact h
      · have : ';' ∈ x := by rw [← hu]; exact List.mem_append_right _ (List.mem_of_mem_head? (by rw [h]; rfl))
        exact absurd (hx _ this) (by decide)
    obtain ⟨c, hc, hc'⟩ := hc
    rw [← hu, hr, List.append_nil] at hc
    rw [h4 c hc] at hc'
    cases hc'

omit [UnicodeTables] in
theorem act_dressed {b : Str} (hb : Spec.Dressed b) (v : Bool) : act (mapFor v) b = b.filter isDigit := by
  rw [act_eq_filterMap]
  induction b with
  | nil => rfl
  | cons c b ih =>
    have h2 := ih fun d hd => hb d (by simp [hd])
    rcases hb c (by simp) with h | h
    · simp [normChar_of_isDigit h, h2, h]
    · have := idle_facts h
      simp [this.2.2.2.2.2.2.2.2.2.2 v, h2, this.2.1]

omit [UnicodeTables] in
theorem viable_dressed {pl b : Str} (hpl : ∀ c ∈ pl, Spec.isPlus c = true) (hb : Spec.Dressed b) (h3 : 3 ≤ (b.filter isDigit).length) :
    Spec.Viable (pl ++ b) := by
  right
  match hf : b.filter isDigit, h3 with
  | d1 :: d2 :: d3 :: ds, _ =>
    obtain ⟨f1, r1, rfl, g1, e1, hr1⟩ := split_first_digit hf
    obtain ⟨f2, r2, rfl, g2, e2, hr2⟩ := split_first_digit hr1
    obtain ⟨f3, r3, rfl, g3, e3, hr3⟩ := split_first_digit hr2
    have hfill : ∀ c, isDigit c = true ∨ Spec.isIdle c = true → isDigit c = false → Spec.isFill c = true := by
      rintro c (h1 | h1) h2
      · rw [h1] at h2; cases h2
      · exact (idle_facts h1).1
    refine ⟨pl, f1, d1, f2, d2, f3, d3, r3, rfl, hpl, ?_, ?_, ?_, e1, e2, e3, ?_⟩
    · intro c hc; exact hfill c (hb c (by simp [hc])) (g1 c hc)
    · intro c hc; exact hfill c (hb c (by simp [hc])) (g2 c hc)
    · intro c hc; exact hfill c (hb c (by simp [hc])) (g3 c hc)
    · intro c hc
      cases h : isDigit c with
      | true => exact .inr (.inl rfl)
      | false => exact .inl (hfill c (hb c (by simp [hc])) h)

theorem internationalPrefix_dressed {ε : Type} (idd : Option Regex) {pl b : Str} (hpl : ∀ c ∈ pl, Spec.isPlus c = true) (hb : Spec.Dressed b) :
    internationalPrefix idd { national := pl ++ b } =
      (if pl = [] then stripIdd idd { national := b.filter isDigit, country := .default }
      else if !((idd.map fun re => matchesAtStart re (b.filter isDigit)).getD false) then
        .ok { national := b.filter isDigit, country := .plus }
      else stripIdd idd { national := b.filter isDigit, country := .plus } : Outcome ε Number) := by
  have hpv : ∀ c ∈ pl, Valid.plus c = true := fun c hc => by rw [plus_eq]; exact hpl c hc
  have hbv : ∀ c ∈ b, Valid.plus c = false := by
    intro c hc
    rw [plus_eq]
    rcases hb c hc with h | h
    · cases hp : Spec.isPlus c with
      | false => rfl
      | true =>
        have h := isDigit_iff.1 h
        simp only [Spec.isPlus, Bool.or_eq_true, beq_iff_eq] at hp
        rcases hp with rfl | hp
        · exact absurd h (by decide)
        · omega
    · exact (idle_facts h).2.2.2.1
  have hn : '\n' ∉ pl ++ b := by
    intro h
    rcases List.mem_append.1 h with h | h
    · exact absurd (hpl _ h) (by decide)
    · rcases hb _ h with h | h <;> exact absurd h (by decide)
  have hal : ∀ c ∈ pl ++ b, isAlpha c = false := by
    intro c hc
    have : c ∈ dressChars := by
      rcases List.mem_append.1 hc with h | h
      · exact plus_dress (hpl c h)
      · rcases hb c h with h | h
        · exact digit_dress h
        · exact List.mem_append_right _ (idle_mem h)
    exact (by decide : ∀ c ∈ dressChars, isAlpha c = false) c this
  have hv : Spec.vanity (pl ++ b) = false := by
    unfold Spec.vanity
    have : (pl ++ b).countP isAlpha = 0 := by
      rw [List.countP_eq_zero]; intro c hc; rw [hal c hc]; simp
    rw [this]; rfl
  have htw : (pl ++ b).takeWhile Valid.plus = pl := by
    rw [List.takeWhile_append_of_pos hpv]
    cases b with
    | nil => simp
    | cons c b => simp [hbv c (by simp)]
  unfold internationalPrefix
  simp only [validAlphaPhone_iff hn, hv, Bool.false_eq_true, if_false, Option.isSome_none, htw]
  have hm : Consts.asciiMappings = mapFor false := rfl
  rw [hm]
  by_cases hpe : pl = []
  · subst hpe
    simp only [List.nil_append, byteLen_nil, ne_eq, not_true_eq_false, if_false, normalize, act_dressed hb, Option.map_none, if_true]
  · have hlen : byteLen pl ≠ 0 := by
      intro h0
      cases pl with
      | nil => exact hpe rfl
      | cons c pl =>
        rw [byteLen_cons] at h0
        have := utf8Size_pos c
        omega
    simp only [if_pos hlen, trim, dropBytes_append, Outcome.slice_some, Outcome.bind_ok, normalize, act_dressed hb, Option.map_none, if_neg hpe]

/-- C107: a number written with any number of plus signs, also wide ones, and digits among punctuation of any kind is read like its
digits, after a plus if there was one. It must begin with a plus or digit, end with a digit and have three digits. Text before it without
decimal digit or plus and characters after it that are not letters, numbers or `#` do not matter. There must be a space somewhere, or
the text is just the number, has no ASCII plus, and has a character that does not occur in numbers of `tel:` texts. -/
theorem C107_punctuation (db : Database) (country : Option Id) (junk pl b after : Str)
    (hj : ∀ c ∈ junk, Spec.startsNumber c = false) (ha : ∀ c ∈ after, Spec.endsNumber c = false)
    (hpl : ∀ c ∈ pl, Spec.isPlus c = true) (hb : Spec.Dressed b) (hstart : pl = [] → ∃ c s, b = c :: s ∧ isDigit c = true)
    (hend : ∃ t d, b = t ++ [d] ∧ isDigit d = true) (h3 : 3 ≤ (b.filter isDigit).length)
    (hs : ' ' ∈ junk ++ (pl ++ b) ++ after ∨
      junk = [] ∧ after = [] ∧ '+' ∉ pl ∧ ∃ c ∈ pl ++ b, Spec.isPhoneDigit c = false) :
    parseWith db country (junk ++ (pl ++ b) ++ after) =
      parseWith db country (if pl = [] then b.filter isDigit else '+' :: b.filter isDigit) := by
  have hd : Digits (b.filter isDigit) := digits_filter b
  have hdne : b.filter isDigit ≠ [] := by intro h; rw [h] at h3; simp at h3
  have hdress : ∀ c ∈ pl ++ b, c ∈ dressChars := by
    intro c hc
    rcases List.mem_append.1 hc with h | h
    · exact plus_dress (hpl c h)
    · rcases hb c h with h | h
      · exact digit_dress h
      · exact List.mem_append_right _ (idle_mem h)
  have hhead : ∃ c, (pl ++ b).head? = some c ∧ Spec.startsNumber c = true := by
    cases pl with
    | nil =>
      obtain ⟨c, s, rfl, hc⟩ := hstart rfl
      exact ⟨c, rfl, by simp [Spec.startsNumber, isNd_of_isDigit hc]⟩
    | cons c pl => exact ⟨c, rfl, by simp [Spec.startsNumber, hpl c (by simp)]⟩
  have hlast : ∃ c, (pl ++ b).getLast? = some c ∧ Spec.endsNumber c = true := by
    obtain ⟨t, d, rfl, hdd⟩ := hend
    refine ⟨d, by rw [← List.append_assoc]; simp, by simp [Spec.endsNumber, isN_of_isNd (isNd_of_isDigit hdd)]⟩
  have hnt : ∀ r, ¬ Spec.TelReading (junk ++ (pl ++ b) ++ after) r := by
    rcases hs with h | ⟨rfl, rfl, h1, h2⟩
    · intro r hr
      cases hr with
      | global h' => exact h' h
      | «local» h' => exact h' h
    · rw [List.nil_append, List.append_nil]
      refine dress_not_tel hdress ?_ h2
      intro h0
      cases pl with
      | nil =>
        obtain ⟨c, s, rfl, hc⟩ := hstart rfl
        cases h0
        exact absurd hc (by decide)
      | cons c pl => cases h0; exact h1 (by simp)
  have hread : readNumber (junk ++ (pl ++ b) ++ after) = .ok { national := pl ++ b } := by
    rw [readNumber_natural hnt, Natural.phoneNumber, extract_eq_ok.2 (dress_candidate hj ha hdress hhead hlast)]
    simp only [Outcome.bind_ok, find_extn_none.2 (dress_noExtension hdress), Outcome.pure_eq]
  have hplain : ∀ c ∈ b.filter isDigit, c ∈ plainChars ∧ c ≠ '+' := by
    intro c hc
    have := hd c hc
    refine ⟨mem_plain_of_digit this, ?_⟩
    rintro rfl
    exact absurd this (by decide)
  have h3' : 3 ≤ ((b.filter isDigit).filter isDigit).length := by rw [filter_digits hd]; exact h3
  rw [parseWith_eq, hread, Outcome.bind_ok]
  by_cases hpe : pl = []
  · subst hpe
    rw [if_pos rfl, parseWith_digits db country hd hdne]
    unfold afterRead
    have := viable_plain (pl := []) (.inl rfl) hplain h3'
    rw [List.nil_append] at this
    simp only [(C14_isViable_iff _).2 (viable_dressed hpl hb h3), this, Bool.not_true, Bool.false_eq_true, if_false]
    unfold countryCode
    have e2 := fun idd => internationalPrefix_plain (ε := ParseErr) idd (pl := []) (.inl rfl) hplain
    simp only [List.nil_append] at e2
    simp only [internationalPrefix_dressed _ hpl hb, e2, filter_digits hd]
  · rw [if_neg hpe, parseWith_plus_digits db country hd hdne]
    unfold afterRead
    have := viable_plain (pl := ['+']) (.inr rfl) hplain h3'
    rw [List.singleton_append] at this
    simp only [(C14_isViable_iff _).2 (viable_dressed hpl hb h3), this, Bool.not_true, Bool.false_eq_true, if_false]
    unfold countryCode
    have e2 := fun idd => internationalPrefix_plain (ε := ParseErr) idd (pl := ['+']) (.inr rfl) hplain
    simp only [List.singleton_append] at e2
    simp only [internationalPrefix_dressed _ hpl hb, e2, filter_digits hd, if_neg hpe]
    simp

/-! ## Concrete cases -/

/-- A number as written in Japan, with wide plus, brackets and hyphens; it meets the conditions. -/
example : parseWith Sample.db none (str% "\uFF0B1\uFF08650\uFF09253\uFF0D0000") = parseWith Sample.db none (str% "+16502530000") := by
  have := C107_punctuation Sample.db none [] (str% "\uFF0B") (str% "1\uFF08650\uFF09253\uFF0D0000") [] (by simp) (by simp) (by decide)
    (by unfold Spec.Dressed; decide) (by simp) ⟨str% "1\uFF08650\uFF09253\uFF0D000", '0', by decide, by decide⟩ (by decide)
    (.inr ⟨rfl, rfl, by decide, '\uFF08', by decide, by decide⟩)
  exact this

/-- A tilde, and an ASCII plus in a text without space, are not covered, and rightly so. -/
example : parseWith Sample.db none (str% "+1 650 253 0000~00") = .ok ⟨⟨1, .plus⟩, ⟨6502530000⟩, some (str% "00"), none⟩ ∧
    parseWith Sample.db none (str% "+16-502530000") = .err .invalidCountryCode :=
  ⟨by kernel_rfl, by kernel_rfl⟩

end
end Phone
