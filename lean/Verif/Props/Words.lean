import Verif.Spec.Words
import Verif.Props.LetterCase
import Verif.Props.Punctuation
/-! # C108: words after a number

Words before a number are skipped (C17). Words after it are not: three letters make it a vanity number, and every letter becomes a digit. -/

namespace Phone
open Helper

/-- A part without letters at the end of a text that ends in a letter is empty. -/
theorem alpha_end {x y z : Str} (hx : ∃ t c, x = t ++ [c] ∧ isAlpha c = true) (h : x = y ++ z) (hz : ∀ c ∈ z, isAlpha c = false) : z = [] := by
  obtain ⟨t, c, rfl, hc⟩ := hx
  rcases List.eq_nil_or_concat z with rfl | ⟨z', d, rfl⟩
  · rfl
  · rw [List.concat_eq_append, ← List.append_assoc] at h
    have := (List.append_inj' h rfl).2
    cases this
    rw [hz c (by simp)] at hc
    cases hc

/-- The ASCII letters. -/
theorem alpha_elim {P : Char → Prop} (h : ∀ c ∈ (str% "abcdefghijklmnopqrstuvwxyzABCDEFGHIJKLMNOPQRSTUVWXYZ"), P c) {c : Char}
    (hc : isAlpha c = true) : P c := by
  rw [← valid_alpha_eq, Valid.alpha, containsChar_iff] at hc
  exact h c hc

section
variable [UnicodeTables]

theorem words_noExtension {q w : Str} (hq : ∀ c ∈ q, c ∈ dressChars) (hw : Spec.Words w) :
    Spec.NoExtension (q ++ w) := by
  intro a e o h he
  have hlast : ∃ t c, q ++ w = t ++ [c] ∧ isAlpha c = true := by
    obtain ⟨t, c, h1, h2⟩ := hw.last
    exact ⟨q ++ t, c, by rw [h1, List.append_assoc], h2⟩
  cases he with
  | word w1 w2 w3 w4 ds w6 h1 h2 h3 h4 h5 h6 h7 =>
    have e6 : w6 = [] := alpha_end (y := a ++ (w1 ++ (w2 ++ (w3 ++ (w4 ++ ds))))) hlast (by rw [h]; simp) (by
      rcases h7 with rfl | rfl <;> decide)
    have e5 : ds = [] := alpha_end (y := a ++ (w1 ++ (w2 ++ (w3 ++ w4)))) hlast (by rw [h, e6]; simp) (fun c hc => nd_not_alpha (h6 c hc))
    have e4 : w4 = [] := alpha_end (y := a ++ (w1 ++ (w2 ++ w3))) hlast (by rw [h, e5, e6]; simp) (fun c hc =>
      (by decide : ∀ c ∈ [' ', ' ', '\t', ',', '-'], isAlpha c = false) c (h4 c hc))
    have e3 : w3 = [] := alpha_end (y := a ++ (w1 ++ w2)) hlast (by rw [h, e4, e5, e6]; simp) (by
      rcases h3 with rfl | ⟨c, hc, rfl⟩
      · simp
      · intro d hd
        rw [List.mem_singleton] at hd
        subst hd
        exact (by decide : ∀ c ∈ [':', '.', '．'], isAlpha c = false) d hc)
    subst e3 e4 e5 e6
    simp only [List.append_nil] at h
    rw [← List.append_assoc] at h
    rcases List.append_eq_append_iff.1 h with ⟨c, _, hc⟩ | ⟨c, hc, hc'⟩
    · exact hw.silent _ h2 ⟨c.map Spec.fold, by rw [hc, List.map_append]⟩
    · rcases List.eq_nil_or_concat c with rfl | ⟨c', d, rfl⟩
      · exact hw.silent _ h2 ⟨[], by rw [hc']; simp⟩
      · rw [List.concat_eq_append] at hc hc'
        refine word_not_dress h2 d (by rw [hc']; simp) (hq d (by rw [hc]; simp))
  | rfc p ds k1 k2 k3 =>
    have e5 : ds = [] := alpha_end (y := a ++ p) hlast (by rw [h]; simp) (fun c hc => nd_not_alpha (k3 c hc))
    subst e5
    rcases List.eq_nil_or_concat p with rfl | ⟨p', d, rfl⟩
    · cases k1
    · rw [List.concat_eq_append] at h k1
      have : [d] = [] := alpha_end (y := a ++ p') hlast (by rw [h]; simp) (by
        intro c hc
        rw [List.mem_singleton] at hc
        subst hc
        rw [List.map_append, show (str% ";ext=") = (str% ";ext") ++ ['='] from by decide] at k1
        have := (List.append_inj' k1 rfl).2
        cases ha : isAlpha c with
        | false => rfl
        | true =>
          simp only [List.map_cons, List.map_nil, List.cons.injEq, and_true] at this
          have hl : isAlpha (Spec.fold c) = true := alpha_elim (P := fun c => isAlpha (Spec.fold c) = true) (by decide) ha
          rw [this] at hl
          exact absurd hl (by decide))
      cases this
  | hash sep ds =>
    have : ['#'] = [] := alpha_end (y := a ++ (sep ++ ds)) hlast (by rw [h]; simp) (by decide)
    cases this

theorem words_candidate {junk q w after : Str} (hj : ∀ c ∈ junk, Spec.startsNumber c = false) (ha : ∀ c ∈ after, Spec.endsNumber c = false)
    (hq : ∀ c ∈ q, c ∈ dressChars) (hqe : ∃ t d, q = t ++ [d] ∧ isDigit d = true) (hs : ∃ c, q.head? = some c ∧ Spec.startsNumber c = true)
    (hw : Spec.Words w) : Spec.Candidate (junk ++ (q ++ w) ++ after) (q ++ w) := by
  obtain ⟨c, h1, h2⟩ := hs
  have hne : q ≠ [] := by rintro rfl; cases h1
  refine ⟨by simp [hne], junk, q ++ w, after, [], rfl, by simp, hj, ⟨c, by simp [h1], h2⟩, ha, ?_, .inl rfl, ?_⟩
  · intro e he
    obtain ⟨t, c, rfl, hc⟩ := hw.last
    rw [← List.append_assoc, List.getLast?_concat] at he
    cases he
    exact alpha_elim (P := fun c => Spec.endsNumber c = true) (List.all_eq_true.1 (by kernel_rfl)) hc
  · rintro a b h _ ⟨c, sp, r, rfl, hc, hsp⟩
    rcases List.append_eq_append_iff.1 h with ⟨a', _, h'⟩ | ⟨a', h3, h'⟩
    · exact (hw.noSlashX a' c sp 'x' r h' hc hsp).1 rfl
    · cases a' with
      | nil => exact (hw.noSlashX [] c sp 'x' r h'.symm hc hsp).1 rfl
      | cons y a' =>
        rw [List.cons_append] at h'
        obtain ⟨rfl, h''⟩ := List.cons.inj h'
        have hsub : ∀ e ∈ a', e = ' ' := by
          rcases List.append_eq_append_iff.1 h'' with ⟨u, h4, h5⟩ | ⟨u, h4, _⟩
          · cases u with
            | nil => intro e he; exact hsp e (by rw [h4] at he; simpa using he)
            | cons z u =>
              rw [List.cons_append] at h5
              obtain ⟨rfl, _⟩ := List.cons.inj h5
              exact absurd (hq 'x' (by rw [h3, h4]; simp)) (by decide)
          · intro e he
            exact hsp e (by rw [h4]; simp [he])
        obtain ⟨t, d, h6, hd⟩ := hqe
        rw [h3] at h6
        rcases List.eq_nil_or_concat a' with rfl | ⟨v, z, rfl⟩
        · have := (List.append_inj' h6 rfl).2
          cases this
          rcases hc with rfl | rfl <;> exact absurd hd (by decide)
        · rw [List.concat_eq_append] at h6 hsub
          have : [z] = [d] := (List.append_inj' (s₁ := a ++ c :: v) (t₁ := [z]) (s₂ := t) (t₂ := [d]) (by simpa using h6) rfl).2
          cases this
          rw [hsub d (by simp)] at hd
          exact absurd hd (by decide)

omit [UnicodeTables] in
theorem viable_words {pl b w : Str} (hpl : ∀ c ∈ pl, Spec.isPlus c = true) (hb : Spec.Dressed b) (h3 : 3 ≤ (b.filter isDigit).length)
    (hw : ∀ c ∈ w, isAlpha c = true ∨ isDigit c = true ∨ Spec.isIdle c = true) : Spec.Viable (pl ++ (b ++ w)) := by
  right
  match hf : b.filter isDigit, h3 with
  | d1 :: d2 :: d3 :: ds, _ =>
    obtain ⟨f1, r1, rfl, g1, e1, hr1⟩ := split_first_digit hf
    obtain ⟨f2, r2, rfl, g2, e2, hr2⟩ := split_first_digit hr1
    obtain ⟨f3, r3, rfl, g3, e3, hr3⟩ := split_first_digit hr2
    have hfill : ∀ c, isDigit c = true ∨ Spec.isIdle c = true → isDigit c = false → Spec.isFill c = true := by
      rintro c (h1 | h1) h2
      · rw [h1] at h2; cases h2
      · exact (idle_facts h1).1
    refine ⟨pl, f1, d1, f2, d2, f3, d3, r3 ++ w, by simp, hpl, ?_, ?_, ?_, e1, e2, e3, ?_⟩
    · intro c hc; exact hfill c (hb c (by simp [hc])) (g1 c hc)
    · intro c hc; exact hfill c (hb c (by simp [hc])) (g2 c hc)
    · intro c hc; exact hfill c (hb c (by simp [hc])) (g3 c hc)
    · intro c hc
      rcases List.mem_append.1 hc with hc | hc
      · cases h : isDigit c with
        | true => exact .inr (.inl rfl)
        | false => exact .inl (hfill c (hb c (by simp [hc])) h)
      · rcases hw c hc with h | h | h
        · exact .inr (.inr h)
        · exact .inr (.inl h)
        · exact .inl (idle_facts h).1

/-- Plus signs and other characters: the digits of the latter are the number. -/
theorem internationalPrefix_worded {ε : Type} (idd : Option Regex) {pl y : Str} (hpl : ∀ c ∈ pl, Spec.isPlus c = true)
    (hy : ∀ c ∈ y, Spec.isPlus c = false) (hn : '\n' ∉ pl ++ y) {ds : Str} (hds : act (mapFor (Spec.vanity (pl ++ y))) y = ds) :
    internationalPrefix idd { national := pl ++ y } =
      (if pl = [] then stripIdd idd { national := ds, country := .default }
      else if !((idd.map fun re => matchesAtStart re ds).getD false) then .ok { national := ds, country := .plus }
      else stripIdd idd { national := ds, country := .plus } : Outcome ε Number) := by
  have hpv : ∀ c ∈ pl, Valid.plus c = true := fun c hc => by rw [plus_eq]; exact hpl c hc
  have htw : (pl ++ y).takeWhile Valid.plus = pl := by
    rw [List.takeWhile_append_of_pos hpv]
    cases y with
    | nil => simp
    | cons c b => simp [show Valid.plus c = false by rw [plus_eq]; exact hy c (by simp)]
  have hm : (if Spec.vanity (pl ++ y) = true then Consts.alphaPhoneMappings else Consts.asciiMappings) = mapFor (Spec.vanity (pl ++ y)) := rfl
  unfold internationalPrefix
  simp only [validAlphaPhone_iff hn, hm, Option.isSome_none, Bool.false_eq_true, if_false, htw]
  by_cases hpe : pl = []
  · subst hpe
    simp only [List.nil_append] at hds
    simp only [List.nil_append, byteLen_nil, ne_eq, not_true_eq_false, if_false, normalize, hds, Option.map_none, if_true]
  · have hlen : byteLen pl ≠ 0 := by
      intro h0
      cases pl with
      | nil => exact hpe rfl
      | cons c pl =>
        rw [byteLen_cons] at h0
        have := utf8Size_pos c
        omega
    simp only [if_pos hlen, trim, dropBytes_append, Outcome.slice_some, Outcome.bind_ok, normalize, hds, Option.map_none, if_neg hpe]

omit [UnicodeTables] in
theorem dress_alpha {q : Str} (hq : ∀ c ∈ q, c ∈ dressChars) : q.countP isAlpha = 0 := by
  rw [List.countP_eq_zero]
  intro c hc
  rw [(by decide : ∀ c ∈ dressChars, isAlpha c = false) c (hq c hc)]
  simp

omit [UnicodeTables] in
theorem dressed_dress {pl b : Str} (hpl : ∀ c ∈ pl, Spec.isPlus c = true) (hb : Spec.Dressed b) : ∀ c ∈ pl ++ b, c ∈ dressChars := by
  intro c hc
  rcases List.mem_append.1 hc with h | h
  · exact plus_dress (hpl c h)
  · rcases hb c h with h | h
    · exact digit_dress h
    · exact List.mem_append_right _ (idle_mem h)

/-- What becomes of a number with words after it once it is known to be the number. -/
theorem afterRead_words (db : Database) (country : Option Id) (pl b w ds : Str) (hpl : ∀ c ∈ pl, Spec.isPlus c = true) (hb : Spec.Dressed b)
    (h3 : 3 ≤ (b.filter isDigit).length) (hw : ∀ c ∈ w, isAlpha c = true ∨ isDigit c = true ∨ Spec.isIdle c = true)
    (hds : Spec.Digitised (Spec.vanity w) w ds) :
    afterRead db country { national := pl ++ (b ++ w) } =
      parseWith db country (if pl = [] then b.filter isDigit ++ ds else '+' :: (b.filter isDigit ++ ds)) := by
  have hact := act_iff_digitised.2 hds
  have hd : Digits (b.filter isDigit ++ ds) := by
    intro c hc
    rcases List.mem_append.1 hc with h | h
    · exact digits_filter b c h
    · rw [← hact] at h
      exact act_digits (digitMap_mapFor _) _ c h
  have h3' : 3 ≤ (b.filter isDigit ++ ds).length := by rw [List.length_append]; omega
  have hdne : b.filter isDigit ++ ds ≠ [] := by intro h; rw [h] at h3'; simp at h3'
  have hdress := dressed_dress hpl hb
  have hvan : Spec.vanity (pl ++ (b ++ w)) = Spec.vanity w := by
    unfold Spec.vanity
    rw [← List.append_assoc, List.countP_append, dress_alpha hdress, Nat.zero_add]
  have hy : ∀ c ∈ b ++ w, Spec.isPlus c = false := by
    intro c hc
    cases hp : Spec.isPlus c with
    | false => rfl
    | true =>
      have h1 := plus_not_digit hp
      have h2 := plus_not_alpha hp
      have h4 : Spec.isIdle c = false := by
        cases hi : Spec.isIdle c with
        | false => rfl
        | true => rw [(idle_facts hi).2.2.2.1] at hp; cases hp
      rcases List.mem_append.1 hc with h | h
      · rcases hb c h with h | h
        · rw [h1] at h; cases h
        · rw [h4] at h; cases h
      · rcases hw c h with h | h | h
        · rw [h2] at h; cases h
        · rw [h1] at h; cases h
        · rw [h4] at h; cases h
  have hv := viable_words hpl hb h3 hw
  have hD : act (mapFor (Spec.vanity (pl ++ (b ++ w)))) (b ++ w) = b.filter isDigit ++ ds := by
    rw [hvan, act_append, act_dressed hb, hact]
  have e1 := fun idd => internationalPrefix_worded (ε := ParseErr) idd hpl hy hv.no_newline hD
  have hplain : ∀ c ∈ b.filter isDigit ++ ds, c ∈ plainChars ∧ c ≠ '+' := by
    intro c hc
    have := hd c hc
    refine ⟨mem_plain_of_digit this, ?_⟩
    rintro rfl
    exact absurd this (by decide)
  have h3'' : 3 ≤ ((b.filter isDigit ++ ds).filter isDigit).length := by rw [filter_digits hd]; exact h3'
  by_cases hpe : pl = []
  · subst hpe
    rw [if_pos rfl, parseWith_digits db country hd hdne]
    unfold afterRead
    have := viable_plain (pl := []) (.inl rfl) hplain h3''
    rw [List.nil_append] at this
    simp only [(C14_isViable_iff _).2 hv, this, Bool.not_true, Bool.false_eq_true, if_false]
    unfold countryCode
    have e2 := fun idd => internationalPrefix_plain (ε := ParseErr) idd (pl := []) (.inl rfl) hplain
    simp only [List.nil_append] at e2
    simp only [e1, e2, filter_digits hd]
  · rw [if_neg hpe, parseWith_plus_digits db country hd hdne]
    unfold afterRead
    have := viable_plain (pl := ['+']) (.inr rfl) hplain h3''
    rw [List.singleton_append] at this
    simp only [(C14_isViable_iff _).2 hv, this, Bool.not_true, Bool.false_eq_true, if_false]
    unfold countryCode
    have e2 := fun idd => internationalPrefix_plain (ε := ParseErr) idd (pl := ['+']) (.inr rfl) hplain
    simp only [List.singleton_append] at e2
    simp only [e1, e2, filter_digits hd, if_neg hpe]
    simp

/-- C108: a number, as in C107, with words after it is read like its digits followed by those of the words, in which letters count as
keypad digits if there are three of them and else do not count. There must be a space somewhere in the text. -/
theorem C108_words (db : Database) (country : Option Id) (junk pl b w after ds : Str)
    (hj : ∀ c ∈ junk, Spec.startsNumber c = false) (ha : ∀ c ∈ after, Spec.endsNumber c = false)
    (hpl : ∀ c ∈ pl, Spec.isPlus c = true) (hb : Spec.Dressed b) (hstart : pl = [] → ∃ c s, b = c :: s ∧ isDigit c = true)
    (hend : ∃ t d, b = t ++ [d] ∧ isDigit d = true) (h3 : 3 ≤ (b.filter isDigit).length) (hw : Spec.Words w)
    (hs : ' ' ∈ junk ++ (pl ++ (b ++ w)) ++ after) (hds : Spec.Digitised (Spec.vanity w) w ds) :
    parseWith db country (junk ++ (pl ++ (b ++ w)) ++ after) =
      parseWith db country (if pl = [] then b.filter isDigit ++ ds else '+' :: (b.filter isDigit ++ ds)) := by
  have hdress := dressed_dress hpl hb
  have hhead : ∃ c, (pl ++ b).head? = some c ∧ Spec.startsNumber c = true := by
    cases pl with
    | nil =>
      obtain ⟨c, s, rfl, hc⟩ := hstart rfl
      exact ⟨c, rfl, by simp [Spec.startsNumber, isNd_of_isDigit hc]⟩
    | cons c pl => exact ⟨c, rfl, by simp [Spec.startsNumber, hpl c (by simp)]⟩
  have hqe : ∃ t d, pl ++ b = t ++ [d] ∧ isDigit d = true := by
    obtain ⟨t, d, rfl, hdd⟩ := hend
    exact ⟨pl ++ t, d, by simp, hdd⟩
  have hnt : ∀ r, ¬ Spec.TelReading (junk ++ (pl ++ (b ++ w)) ++ after) r := by
    intro r hr
    cases hr with
    | global h' => exact h' hs
    | «local» h' => exact h' hs
  have hread : readNumber (junk ++ (pl ++ (b ++ w)) ++ after) = .ok { national := pl ++ (b ++ w) } := by
    have e : pl ++ (b ++ w) = (pl ++ b) ++ w := by simp
    rw [readNumber_natural hnt, Natural.phoneNumber, e, extract_eq_ok.2 (words_candidate hj ha hdress hqe hhead hw)]
    simp only [Outcome.bind_ok, find_extn_none.2 (words_noExtension hdress hw), Outcome.pure_eq]
  rw [parseWith_eq, hread, Outcome.bind_ok, afterRead_words db country pl b w ds hpl hb h3 hw.chars hds]

/-- C108: a text of digits, separators of `tel:` numbers (hyphens, dots, parentheses) and the letters a to f is read in the same way if
three digits come before the first letter. No space is needed, and the text may end in any way. -/
theorem C108_hex (db : Database) (country : Option Id) (b w ds : Str) (h : ∀ c ∈ b ++ w, Spec.isPhoneDigit c = true)
    (hb : ∀ c ∈ b, isAlpha c = false) (h3 : 3 ≤ (b.filter isDigit).length) (hds : Spec.Digitised (Spec.vanity w) w ds) :
    parseWith db country (b ++ w) = parseWith db country (b.filter isDigit ++ ds) := by
  have hc : ∀ c, Spec.isPhoneDigit c = true → isAlpha c = true ∨ isDigit c = true ∨ Spec.isIdle c = true := by
    intro c hc
    simp only [Spec.isPhoneDigit, Bool.or_eq_true, Bool.and_eq_true, decide_eq_true_eq] at hc
    have h1 : 'a'.toNat = 97 := rfl
    have h2 : 'f'.toNat = 102 := rfl
    have h3 : 'A'.toNat = 65 := rfl
    have h4 : 'F'.toNat = 70 := rfl
    rw [h1, h2, h3, h4] at hc
    rcases hc with ((hc | hc) | hc) | hc
    · exact .inr (.inl hc)
    · left; simp [isAlpha]; omega
    · left; simp [isAlpha]; omega
    · right; right
      simp only [Spec.isSeparator, decide_eq_true_eq] at hc
      exact (by decide : ∀ c ∈ (str% "-.()"), Spec.isIdle c = true) c hc
  have hd : Spec.Dressed b := by
    intro c hcb
    rcases hc c (h c (by simp [hcb])) with h' | h'
    · rw [hb c hcb] at h'; cases h'
    · exact h'
  have hne : b ++ w ≠ [] := by
    intro e
    rw [(List.append_eq_nil_iff.1 e).1] at h3
    simp at h3
  have hread := tel_read (t := ⟨none, b ++ w, []⟩) ⟨by simp, ⟨hne, h⟩, by simp⟩
  have hw : ∀ c ∈ w, isAlpha c = true ∨ isDigit c = true ∨ Spec.isIdle c = true := fun c hcw => hc c (h c (by simp [hcw]))
  have := afterRead_words db country [] b w ds (by simp) hd h3 hw hds
  simp only [Spec.Tel.text, List.nil_append, List.flatMap_nil, List.append_nil, Spec.Tel.context, Spec.Tel.last, List.filter_nil,
    List.getLast?_nil, Option.map_none] at hread
  rw [parseWith_eq, hread, Outcome.bind_ok]
  simpa using this

/-- C108: up to two letters after a number, without digits, are not noticed. -/
theorem C108_few (db : Database) (country : Option Id) (junk pl b w after : Str)
    (hj : ∀ c ∈ junk, Spec.startsNumber c = false) (ha : ∀ c ∈ after, Spec.endsNumber c = false)
    (hpl : ∀ c ∈ pl, Spec.isPlus c = true) (hb : Spec.Dressed b) (hstart : pl = [] → ∃ c s, b = c :: s ∧ isDigit c = true)
    (hend : ∃ t d, b = t ++ [d] ∧ isDigit d = true) (h3 : 3 ≤ (b.filter isDigit).length) (hw : Spec.Words w)
    (hs : ' ' ∈ junk ++ (pl ++ (b ++ w)) ++ after) (hfew : w.countP isAlpha ≤ 2) (hnd : ∀ c ∈ w, isDigit c = false) :
    parseWith db country (junk ++ (pl ++ (b ++ w)) ++ after) =
      parseWith db country (if pl = [] then b.filter isDigit else '+' :: b.filter isDigit) := by
  have hv : Spec.vanity w = false := by simp [Spec.vanity]; omega
  have := C108_words db country junk pl b w after [] hj ha hpl hb hstart hend h3 hw hs (by
    rw [hv, ← act_iff_digitised, act_eq_filterMap, List.filterMap_eq_nil_iff]
    intro c hc
    rcases hw.chars c hc with h | h | h
    · exact alpha_elim (P := fun c => normChar (mapFor false) c = none) (by decide) h
    · rw [hnd c hc] at h; cases h
    · exact (idle_facts h).2.2.2.2.2.2.2.2.2.2 false)
  rw [this, List.append_nil]

/-! ## Concrete cases -/

/-- The words "or call" after a number: they meet the conditions, and the call goes elsewhere. -/
example : Spec.Words (str% " or call") ∧
    parseWith Sample.db none (str% "+1 650 253 0000 or call") = parseWith Sample.db none (str% "+16502530000672255") := by
  have hw : Spec.Words (str% " or call") := ⟨by decide, ⟨str% " or cal", 'l', by decide, by decide⟩, by decide, by
    intro a c sp d b h hc
    have hm : c ∈ (str% " or call") := by rw [h]; simp
    rcases hc with rfl | rfl <;> exact absurd hm (by decide)⟩
  refine ⟨hw, ?_⟩
  have := C108_words Sample.db none [] (str% "+") (str% "1 650 253 0000") (str% " or call") [] (str% "672255") (by simp) (by simp) (by decide)
    (by unfold Spec.Dressed; decide) (by simp) ⟨str% "1 650 253 000", '0', by decide, by decide⟩ (by decide) hw (by decide)
    (act_iff_digitised.1 (by decide))
  exact this

/-- What comes of it; two letters do no harm; a final x would be an extension. -/
example : parseWith Sample.db none (str% "+1 650 253 0000 or call") = .ok ⟨⟨1, .plus⟩, ⟨6502530000672255⟩, none, none⟩ ∧
    parseWith Sample.db none (str% "+1 650 253 0000 pm") = .ok ⟨⟨1, .plus⟩, ⟨6502530000⟩, none, none⟩ ∧
    parseWith Sample.db none (str% "+1 650 253 0000 fax") = .ok ⟨⟨1, .plus⟩, ⟨6502530000⟩, some [], none⟩ :=
  ⟨by kernel_rfl, by kernel_rfl, by kernel_rfl⟩

/-- Letters in a text without a space: three of them become digits, two do not. -/
example : parseWith Sample.db none (str% "1650-253.0000-bad") = parseWith Sample.db none (str% "16502530000223") ∧
    parseWith Sample.db none (str% "1650-253.0000-ad") = parseWith Sample.db none (str% "16502530000") ∧
    parseWith Sample.db (some .US) (str% "650253000ad") = .ok ⟨⟨1, .default⟩, ⟨650253000⟩, none, none⟩ ∧
    parseWith Sample.db (some .US) (str% "650253bad") = .ok ⟨⟨1, .default⟩, ⟨650253223⟩, none, none⟩ :=
  ⟨C108_hex Sample.db none (str% "1650-253.0000-") (str% "bad") (str% "223") (by decide) (by decide) (by decide) (act_iff_digitised.1 (by decide)),
   C108_hex Sample.db none (str% "1650-253.0000-") (str% "ad") [] (by decide) (by decide) (by decide) (act_iff_digitised.1 (by decide)),
   by kernel_rfl, by kernel_rfl⟩

end
end Phone
