import Verif.Spec.BareExtension
import Verif.Props.International
import Verif.Props.Reading
/-! # C105: how long extensions are, and what becomes of an empty one

An extension has up to seven digits – none is enough. So a text that ends with a word for an extension is read as a number with an empty
extension, which is not the same as none; and the international form of such a number, which ends in the same way, is read back as
what it was. More than seven digits can come only from the `ext` parameter of a `tel:` text. -/

namespace Phone
open Formatter
variable [UnicodeTables]

/-! ## Where an extension comes from -/

omit [UnicodeTables] in
theorem digitised_length {v : Bool} {s ds : Str} (h : Spec.Digitised v s ds) : ds.length ≤ s.length := by
  induction h with
  | nil => simp
  | digit _ _ ih => simpa using ih
  | letter _ _ _ ih => simpa using ih
  | drop _ _ _ ih => simp only [List.length_cons]; omega

omit [UnicodeTables] in
theorem params_mem {s : Str} {ps : List (Str × Str)} (h : Spec.Params s ps) :
    ∀ k v, (k, v) ∈ ps → ∃ x y, s = x ++ (';' :: (k ++ '=' :: v)) ++ y := by
  induction h with
  | stop => intro k v h; cases h
  | @param k' v' r ps _ _ _ _ ih =>
    intro k v h
    rcases List.mem_cons.1 h with h | h
    · cases h
      exact ⟨[], r, by simp⟩
    · obtain ⟨x, y, rfl⟩ := ih k v h
      exact ⟨';' :: (k' ++ '=' :: v') ++ x, y, by simp⟩

omit [UnicodeTables] in
theorem lastParam_mem {ps : List (Str × Str)} {k v : Str} (h : Spec.lastParam ps k = some v) : (k, v) ∈ ps := by
  unfold Spec.lastParam at h
  obtain ⟨⟨a, b⟩, h1, h2⟩ := Option.map_eq_some_iff.1 h
  have := List.mem_filter.1 (List.mem_of_getLast? h1)
  simp only at h2
  rw [← h2, ← beq_iff_eq.1 this.2]
  exact this.1

omit [UnicodeTables] in
theorem tel_extension {s : Str} {r : Spec.Reading} (h : Spec.TelReading s r) {v : Str} (he : r.extension = some v) :
    ' ' ∉ s ∧ ∃ x y, s = x ++ ((str% ";ext=") ++ v) ++ y := by
  have key : ∀ {t : Str} {a rest : Str} {ps : List (Str × Str)}, Spec.WithoutScheme s t → t = a ++ rest → Spec.Params rest ps →
      Spec.lastParam ps (str% "ext") = some v → ∃ x y, s = x ++ ((str% ";ext=") ++ v) ++ y := by
    intro t a rest ps hs ht hp hl
    obtain ⟨x, y, rfl⟩ := params_mem hp _ _ (lastParam_mem hl)
    rcases hs with ⟨sch, _, rfl⟩ | ⟨rfl, _⟩
    · exact ⟨sch ++ a ++ x, y, by rw [ht]; simp⟩
    · exact ⟨a ++ x, y, by rw [ht]; simp⟩
  cases h with
  | @global p number rest ps h1 h2 _ _ _ _ _ h3 => exact ⟨h1, key (a := '+' :: (p ++ number)) h2 (by simp) h3 he⟩
  | @«local» number rest ps h1 h2 _ _ _ h3 => exact ⟨h1, key h2 rfl h3 he⟩

/-- C105: the extension of a result is made of the digits of the extension that the specification of reading finds in the text; the
result has one exactly if the text has. -/
theorem C105_whence (db : Database) (country : Option Id) (s : Str) (p : PhoneNumber) (hs : Spec.MarksNotDigits s)
    (h : parseWith db country s = .ok p) :
    ∃ r, Spec.Reads s (some r) ∧ Spec.DigitisedOpt (Spec.vanity r.number) r.extension p.extension := by
  obtain ⟨n0, n1, md, n2, h0, hv, h1, post, h2, h3, h4⟩ := parseWith_stages h
  have hc : n1.carrier = none := by rw [post.carrier]; exact (readNumber_ok h0).1
  obtain ⟨k1, k2, k3, _⟩ := stripNational_ok post.norm.national hc h3
  obtain ⟨_, _, g1, g2, _, g3, _⟩ := finishParse_ok h4
  obtain ⟨o, ho⟩ := reads_total s
  have := reads_sound hs ho
  rw [h0] at this
  cases o with
  | none => cases this
  | some r =>
    cases this
    refine ⟨r, ho, ?_⟩
    rw [g3, k3, post.extension]
    simp only [Spec.Reading.toNumber]
    cases r.extension with
    | none => exact .none
    | some e => exact .some (act_iff_digitised.1 rfl)

/-- C105: an extension of more than seven digits comes from an `ext` parameter, in a text without spaces. -/
theorem C105_long (db : Database) (country : Option Id) (s : Str) (p : PhoneNumber) (hs : Spec.MarksNotDigits s)
    (h : parseWith db country s = .ok p) (e : Str) (he : p.extension = some e) (h8 : 8 ≤ e.length) :
    ' ' ∉ s ∧ ∃ x v y, s = x ++ ((str% ";ext=") ++ v) ++ y ∧ ∃ b, Spec.Digitised b v e := by
  obtain ⟨r, hr, hd⟩ := C105_whence db country s p hs h
  rw [he] at hd
  cases hx : r.extension with
  | none => rw [hx] at hd; cases hd
  | some v =>
    rw [hx] at hd
    cases hd with
    | some hd =>
      cases hr with
      | tel ht =>
        obtain ⟨h1, x, y, h2⟩ := tel_extension ht hx
        exact ⟨h1, x, v, y, h2, _, hd⟩
      | plain => cases hx
      | @extended x a e' _ _ hext =>
        cases hx
        obtain ⟨⟨t, _, ht⟩, _⟩ := hext
        have := digitised_length hd
        cases ht
        omega

/-! ## The mark of an extension alone -/

/-- No extension begins inside a plain number that ends with a digit and is followed by a word other than `#`. -/
theorem no_earlier_bare {t s1 w : Str} {d : Char} {o : Option Str} (hp : ∀ c ∈ t ++ [d], c ∈ plainChars) (hd : isDigit d = true)
    (hm : Spec.MarksNotDigits w) (hw : w.map Spec.fold ∈ Spec.extWords) (hh : w ≠ ['#']) :
    ¬ Spec.ExtText (t ++ [d] ++ (s1 ++ w)) o := by
  intro h
  generalize hx : t ++ [d] ++ (s1 ++ w) = x at h
  cases h with
  | word w1 w2 w3 w4 ds' w6 h1 h2 h3 h4 h5 h6 h7 =>
    rcases prefix_or hx with ⟨z, hz, _⟩ | ⟨c, z, hz, hz'⟩
    · have := h1 d (by rw [hz]; simp)
      simp only [List.mem_cons, List.not_mem_nil, or_false] at this
      rcases this with rfl | rfl | rfl | rfl <;> exact absurd hd (by decide)
    · cases w2 with
      | nil => exact (word_chars h2).1 rfl
      | cons c' w2 =>
        simp only [List.cons_append, List.cons.injEq] at hz'
        exact word_not_plain h2 c' (by simp) (hp c' (by rw [hz, hz'.1]; simp))
  | rfc p ds' k1 k2 k3 =>
    cases p with
    | nil => cases k1
    | cons c p =>
      simp only [List.map_cons, List.cons.injEq] at k1
      have hc : c ∈ plainChars := by
        cases t with
        | nil => simp at hx; exact hp c (by simp [hx.1])
        | cons y t => simp at hx; exact hp c (by simp [hx.1])
      exact word_not_plain (w := [c]) (by rw [List.map_singleton, k1.1]; decide) c (by simp) hc
  | hash sep ds' k1 k2 k3 k4 k5 =>
    cases w with
    | nil => exact (word_chars hw).1 rfl
    | cons c w =>
      have hc := word_not_nd hm hw c (by simp)
      have hc' : c ≠ '-' ∧ c ≠ ' ' := by
        have := word_not_plain hw c (by simp)
        constructor <;> rintro rfl <;> exact this (by decide)
      have he2 : (t ++ [d] ++ s1) ++ c :: w = (sep ++ ds') ++ ['#'] := by
        rw [List.append_assoc sep, ← hx]; simp
      rcases prefix_or he2 with ⟨z, hz, hz'⟩ | ⟨x, z, hz, hz'⟩
      · cases z with
        | nil => simp at hz'; exact hh (by simp [hz'])
        | cons y z =>
          simp only [List.cons_append, List.cons.injEq] at hz'
          have : c ∈ sep ++ ds' := by rw [hz, hz'.1]; simp
          rcases List.mem_append.1 this with h | h
          · have := k2 c h; simp [hc'] at this
          · rw [k5 c h] at hc; cases hc
      · simp at hz'

/-- C105: a plainly written number that ends with a digit, followed by a mark that announces an extension and by nothing else, is read
like its plus and digits alone, with an empty extension. Text before the number that contains no decimal digit or plus does not matter.
There must be a space somewhere. -/
theorem C105_bare (db : Database) (country : Option Id) (junk pl b e : Str)
    (hj : ∀ c ∈ junk, Spec.startsNumber c = false)
    (hpl : pl = [] ∨ pl = ['+']) (hb : Spec.Plain b) (hstart : pl = [] → ∃ c s, b = c :: s ∧ isDigit c = true)
    (hend : ∃ t d, b = t ++ [d] ∧ isDigit d = true) (h3 : 3 ≤ (b.filter isDigit).length)
    (he : Spec.Announces e) (hm : Spec.MarksNotDigits e) (hs : ' ' ∈ junk ++ (pl ++ b) ++ e) :
    parseWith db country (junk ++ (pl ++ b) ++ e) =
      parseWith db country (pl ++ b.filter isDigit) >>= fun p => .ok (Spec.withExtension [] p) := by
  obtain ⟨s1, w, after, rfl, hs1, hw, hh, ⟨wl, hwl, hwl'⟩, ha⟩ := he
  have hb' := plain_iff.1 hb
  have hd : Digits (b.filter isDigit) := digits_filter b
  have hd' : ∀ c ∈ b.filter isDigit, c ∈ plainChars ∧ c ≠ '+' := fun c hc => hb' c (List.mem_filter.1 hc).1
  have hdne : b.filter isDigit ≠ [] := by intro h; rw [h] at h3; simp at h3
  obtain ⟨t, d, hbt, hdd⟩ := hend
  have hplain : ∀ c ∈ (pl ++ t) ++ [d], c ∈ plainChars := by
    intro c hc
    rw [List.append_assoc, ← hbt] at hc
    rcases List.mem_append.1 hc with h | h
    · rcases hpl with rfl | rfl
      · cases h
      · simp at h; subst h; decide
    · exact (hb' c h).1
  have hx : pl ++ b ++ (s1 ++ w) = (pl ++ t) ++ [d] ++ (s1 ++ w) := by rw [hbt]; simp
  have het : Spec.ExtText (s1 ++ w) (some []) := by
    have := Spec.ExtText.word s1 w [] [] [] [] hs1 hw (.inl rfl) (by simp) (by simp) (by simp) (.inl rfl)
    simpa using this
  have hwne : w ≠ [] := by rintro rfl; cases hwl
  have hene : s1 ++ w ≠ [] := by simp [hwne]
  have hm1 : Spec.MarksNotDigits (s1 ++ w) := hm.mono (by intro c hc; rcases List.mem_append.1 hc with h | h <;> simp [h])
  have heq : junk ++ (pl ++ b) ++ (s1 ++ (w ++ after)) = junk ++ (pl ++ b ++ (s1 ++ w)) ++ after := by simp
  rw [heq] at hs ⊢
  have hcand : Spec.Candidate (junk ++ (pl ++ b ++ (s1 ++ w)) ++ after) (pl ++ b ++ (s1 ++ w)) := by
    refine ⟨by simp [hwne], junk, pl ++ b ++ (s1 ++ w), after, [], rfl, by simp, hj, ?_, ha, ?_, .inl rfl, ?_⟩
    · rcases hpl with rfl | rfl
      · obtain ⟨c, s, rfl, hc⟩ := hstart rfl
        exact ⟨c, by simp, by simp [Spec.startsNumber, isNd_of_isDigit hc]⟩
      · exact ⟨'+', by simp, by simp [Spec.startsNumber, Spec.isPlus]⟩
    · intro c hc
      rw [getLast_append _ hene, getLast_append _ hwne, hwl] at hc
      cases hc
      exact hwl'
    · intro a b' hab _
      rw [hx] at hab
      exact no_second hplain hdd het hab
  have hmx : Spec.MarksNotDigits (pl ++ b ++ (s1 ++ w)) := by
    intro c hc hw
    rw [hx] at hc
    rcases List.mem_append.1 hc with h | h
    · have := hplain c h
      exact absurd hw ((by decide : ∀ c ∈ plainChars, c ∉ Spec.wideExt) c this)
    · exact hm1 c h hw
  have hext : Spec.Extension (pl ++ b ++ (s1 ++ w)) (pl ++ b) (some []) := by
    refine ⟨⟨s1 ++ w, rfl, het⟩, ?_⟩
    intro a' e' o' ha' he'
    apply Nat.le_of_not_lt
    intro hlt
    rcases prefix_or ha' with ⟨z, hz, _⟩ | ⟨x, z, hz, hz'⟩
    · rw [hz] at hlt; simp at hlt; omega
    · obtain ⟨t', ht'⟩ : ∃ t', x :: z = t' ++ [d] := by
        have h1 : (pl ++ b).getLast? = some d := by rw [hbt, ← List.append_assoc]; simp
        rw [hz, getLast_append _ (by simp)] at h1
        exact List.getLast?_eq_some_iff.1 h1
      rw [hz', ht'] at he'
      refine no_earlier_bare (t := t') ?_ hdd (hm1.mono (by simp +contextual)) hw hh he'
      intro c hc
      rw [← ht'] at hc
      apply hplain c
      rw [List.append_assoc, ← hbt, hz]
      exact List.mem_append_right _ hc
  rw [parseWith_eq, readNumber_extension hs hcand hmx hext]
  have e1 : parseWith db country (pl ++ b.filter isDigit) = afterRead db country { national := pl ++ b } := by
    rw [afterRead_plain db country hpl hb' hd' h3 (by rw [filter_digits hd])]
    rcases hpl with rfl | rfl
    · exact parseWith_digits db country hd hdne
    · exact parseWith_plus_digits db country hd hdne
  rw [e1]
  have := afterRead_ext db country { national := pl ++ b } (some [])
  rw [Option.map_some] at this
  exact this

/-- C105: if the last group of a plainly written number has one to five digits and comes after a space or hyphen, then with a `#` behind
it and nothing else there is no number: the group is taken for an extension of a form that is not accepted. -/
theorem C105_hash (db : Database) (country : Option Id) (junk pl t ds after : Str) (sep : Char)
    (hj : ∀ c ∈ junk, Spec.startsNumber c = false) (ha : ∀ c ∈ after, Spec.endsNumber c = false)
    (hpl : pl = [] ∨ pl = ['+']) (hb : Spec.Plain t) (hstart : pl = [] → ∃ c s, t = c :: s ∧ isDigit c = true)
    (hsep : sep = ' ' ∨ sep = '-') (hne : ds ≠ []) (h5 : ds.length ≤ 5) (hd : ∀ c ∈ ds, isDigit c = true)
    (hs : ' ' ∈ junk ++ (pl ++ t ++ sep :: ds ++ ['#']) ++ after) :
    parseWith db country (junk ++ (pl ++ t ++ sep :: ds ++ ['#']) ++ after) = .err .noNumber := by
  have hplain : ∀ c ∈ pl ++ t ++ sep :: ds, c ∈ plainChars := by
    intro c hc
    simp only [List.mem_append, List.mem_cons] at hc
    rcases hc with (h | h) | rfl | h
    · rcases hpl with rfl | rfl
      · cases h
      · simp at h; subst h; decide
    · exact (plain_iff.1 hb c h).1
    · rcases hsep with rfl | rfl <;> decide
    · exact mem_plain_of_digit (hd c h)
  generalize hx : pl ++ t ++ sep :: ds ++ ['#'] = x at hs ⊢
  have hmx : Spec.MarksNotDigits x := by
    intro c hc hw
    rw [← hx] at hc
    rcases List.mem_append.1 hc with h | h
    · exact absurd hw ((by decide : ∀ c ∈ plainChars, c ∉ Spec.wideExt) c (hplain c h))
    · rw [List.mem_singleton.1 h] at hw
      exact absurd hw (by decide)
  have hcand : Spec.Candidate (junk ++ x ++ after) x := by
    refine ⟨by rw [← hx]; simp, junk, x, after, [], rfl, by simp, hj, ?_, ha, ?_, .inl rfl, ?_⟩
    · rw [← hx]
      rcases hpl with rfl | rfl
      · obtain ⟨c, s, rfl, hc⟩ := hstart rfl
        exact ⟨c, by simp, by simp [Spec.startsNumber, isNd_of_isDigit hc]⟩
      · exact ⟨'+', by simp, by simp [Spec.startsNumber, Spec.isPlus]⟩
    · intro c hc
      rw [← hx, getLast_append _ (by simp)] at hc
      cases hc
      simp [Spec.endsNumber]
    · rintro a b' hab _ ⟨c, sp, r, rfl, _, _⟩
      have hm : 'x' ∈ x := by rw [hab]; simp
      rw [← hx] at hm
      rcases List.mem_append.1 hm with h | h
      · exact absurd (hplain _ h) (by decide)
      · exact absurd h (by decide)
  have hhash : Spec.ExtText (sep :: ds ++ ['#']) none := by
    have := Spec.ExtText.hash [sep] ds (by simp) (by intro c hc; rcases hsep with rfl | rfl <;> simp_all) hne h5
      (fun c hc => isNd_of_isDigit (hd c hc))
    simpa using this
  -- of the ends of the text only `#` is an extension that is accepted
  have key : ∀ a e o, x = a ++ e → Spec.ExtText e o → o ≠ none → e.length ≤ 1 := by
    intro a e o hae he ho
    cases he with
    | rfc => exact absurd rfl ho
    | hash => exact absurd rfl ho
    | word w1 w2 w3 w4 ds' w6 h1 h2 h3 h4 _ h6 h7 =>
      cases w2 with
      | nil => exact absurd rfl (word_chars h2).1
      | cons c w =>
        have hc := word_not_plain h2 c (by simp)
        have hxs : (a ++ w1) ++ c :: (w ++ (w3 ++ (w4 ++ (ds' ++ w6)))) = (pl ++ t ++ sep :: ds) ++ ['#'] := by rw [hx, hae]; simp
        rcases prefix_or hxs with ⟨z, hz, hz'⟩ | ⟨y, z, _, hz'⟩
        · cases z with
          | nil =>
            simp only [List.nil_append, List.cons.injEq, List.append_eq_nil_iff] at hz'
            obtain ⟨_, rfl, rfl, rfl, rfl, rfl⟩ := hz'
            have hw1 : w1 = [] := by
              rcases List.eq_nil_or_concat w1 with h | ⟨v, l, h⟩
              · exact h
              · rw [List.concat_eq_append] at h
                have hl : (pl ++ t ++ sep :: ds).getLast? = some l := by rw [hz, h]; simp [List.getLast?_append]
                have hl' : ds.getLast? = some l := by
                  rw [show pl ++ t ++ sep :: ds = (pl ++ t ++ [sep]) ++ ds by simp, getLast_append _ hne] at hl
                  exact hl
                have := h1 l (by rw [h]; simp)
                have hdl := hd l (List.mem_of_getLast? hl')
                simp only [List.mem_cons, List.not_mem_nil, or_false] at this
                rcases this with rfl | rfl | rfl | rfl <;> exact absurd hdl (by decide)
            rw [hw1]; simp
          | cons y z =>
            simp only [List.cons_append, List.cons.injEq] at hz'
            exact absurd (hplain c (by rw [hz, hz'.1]; simp)) hc
        · have := congrArg List.length hz'
          simp at this
  cases hf : Consts.extnPattern.find x with
  | none => exact absurd hhash (find_extn_none.1 hf (pl ++ t) _ _ (by rw [← hx]; simp))
  | some m =>
    have he := find_extn hf
    cases hg : m.get 2 with
    | none =>
      rw [hg] at he
      exact C65_bad_extension db country _ x _ hs hcand hmx he
    | some v =>
      rw [hg] at he
      obtain ⟨⟨e, h1, h2⟩, h3⟩ := he
      have h4 := h3 (pl ++ t) _ _ (by rw [← hx]; simp) hhash
      have h6 := key _ e _ h1 h2 (by simp)
      have h7 : x.length = (pl ++ t).length + ds.length + 2 := by rw [← hx]; simp; omega
      rw [h1, List.length_append] at h7
      omega

/-! ## Reading it back -/

/-- C105: the international form of an ordinary number with an empty extension is read back as that number, extension and all, if the
text that introduces extensions announces one; the other conditions are those of `C70_international`. -/
theorem C105_international (compile : Str → Option Regex) (ms : List Loader.Metadata) (db : Database)
    (hdb : Database.from compile ms = .ok db) (hid : ((ms.filterMap (·.id)).filter (· ≠ worldId)).Nodup)
    (hs : Spec.SharedAreCountries db) (hp : Spec.PrefixFree db) (n : PhoneNumber) (hn : Spec.Ordinary db n)
    (hu : Spec.Untouched db n.code.value n.national.display) (custom : Option Format) (he : n.extension = some [])
    (hf : ∀ md, Spec.MetadataFor db n md →
      (Spec.Announces (Spec.extensionPrefix md) ∧ Spec.MarksNotDigits (Spec.extensionPrefix md)) ∧
      ∀ f, Spec.Chosen md n.national.display .international custom f → Spec.Punctuates f ∧ Spec.EndsInGroup f)
    (s : Str) (h : fmt db n .international custom = .ok s) (country : Option Id)
    (hidd : ∀ c, country = some c → ¬ Spec.BeginsWithIdd db country (decStr n.code.value ++ n.national.display)) :
    parseWith db country s = .ok { n with code := ⟨n.code.value, .plus⟩, carrier := none } := by
  obtain ⟨md, nat, hmd, rfl, hplain, hfil, hlast⟩ := international_shape h (fun md f hm hc => ((hf md hm).2 f hc).1)
  have hlen := hn.length
  have hlen1 : 1 ≤ (decStr n.code.value).length := List.length_pos_iff.2 (decStr_ne_nil _)
  have hfc := filter_code (c := n.code.value) hfil
  have h3 : 3 ≤ ((decStr n.code.value ++ [' '] ++ nat).filter isDigit).length := by rw [hfc, List.length_append]; omega
  obtain ⟨⟨h5, h6⟩, h7⟩ := hf md hmd
  obtain ⟨t, d, ht, hd⟩ := hlast (fun f hc => (h7 f hc).2) (by intro h0; rw [h0] at hlen; simp at hlen)
  have hx : Spec.extensionText md .international n.extension = Spec.extensionPrefix md := by
    rw [he]; show Spec.extensionPrefix md ++ [] = _; simp
  have := C105_bare db country [] ['+'] (decStr n.code.value ++ [' '] ++ nat) (Spec.extensionPrefix md) (by simp) (.inr rfl)
    (plain_code hplain) (by simp) ⟨decStr n.code.value ++ [' '] ++ t, d, by rw [ht]; simp, hd⟩ h3 h5 h6 (by simp)
  rw [List.nil_append, hfc] at this
  rw [hx, this, List.singleton_append,
    parse_plus_code hp hn.known hn.code (digits_display _) (by rw [List.length_append]; omega) hidd,
    tail_untouched hdb hid hs (c := n.code.value) (by have := hn.code; omega) rfl (by simp) hu, finishParse_ordinary hn]
  cases n with
  | mk c v e k => cases he; rfl

/-! ## Concrete cases -/

/-- What announces an extension. -/
theorem announces_known {p : Str} (h : p ∈ [str% " ext. ", str% " x", str% " Anexo ", str% " int ", str% " int. "]) :
    Spec.Announces p := by
  simp only [List.mem_cons, List.not_mem_nil, or_false] at h
  rcases h with rfl | rfl | rfl | rfl | rfl
  · exact ⟨str% " ", str% "ext", str% ". ", by decide, by decide, by decide, by decide, ⟨'t', by decide, by kernel_rfl⟩,
      by have : (str% ". ").all (fun c => !Spec.endsNumber c) = true := by kernel_rfl
         simpa using this⟩
  · exact ⟨str% " ", str% "x", [], by decide, by decide, by decide, by decide, ⟨'x', by decide, by kernel_rfl⟩, by simp⟩
  · exact ⟨str% " ", str% "Anexo", str% " ", by decide, by decide, by decide, by decide, ⟨'o', by decide, by kernel_rfl⟩,
      by have : (str% " ").all (fun c => !Spec.endsNumber c) = true := by kernel_rfl
         simpa using this⟩
  · exact ⟨str% " ", str% "int", str% " ", by decide, by decide, by decide, by decide, ⟨'t', by decide, by kernel_rfl⟩,
      by have : (str% " ").all (fun c => !Spec.endsNumber c) = true := by kernel_rfl
         simpa using this⟩
  · exact ⟨str% " ", str% "int", str% ". ", by decide, by decide, by decide, by decide, ⟨'t', by decide, by kernel_rfl⟩,
      by have : (str% ". ").all (fun c => !Spec.endsNumber c) = true := by kernel_rfl
         simpa using this⟩

/-- An empty extension, read from text and written; without a word nothing is there, and `#` does not always do. -/
example : parseWith Sample.db none (str% "Call +1 650 253 0000 ext. ") = .ok ⟨⟨1, .plus⟩, ⟨6502530000⟩, some [], none⟩ ∧
    parseWith Sample.db none (str% "Call +1 650 253 0000. ") = .ok ⟨⟨1, .plus⟩, ⟨6502530000⟩, none, none⟩ ∧
    fmt Sample.db ⟨⟨1, .plus⟩, ⟨6502530000⟩, some [], none⟩ .international = .ok (str% "+1 650-253-0000 ext. ") ∧
    parseWith Sample.db none (str% "Call +1 650 253 0000#") = .err .noNumber ∧
    parseWith Sample.db none (str% "Call +1 6502530000#") = .ok ⟨⟨1, .plus⟩, ⟨6502530000⟩, some [], none⟩ :=
  ⟨by kernel_rfl, by kernel_rfl, by kernel_rfl,
    C105_hash Sample.db none (str% "Call ") ['+'] (str% "1 650 253") (str% "0000") [] ' '
      (by have : (str% "Call ").all (fun c => !Spec.startsNumber c) = true := by kernel_rfl
          simpa using this)
      (by simp) (.inr rfl) (by unfold Spec.Plain; decide) (by simp) (.inl rfl) (by decide) (by decide) (by decide) (by decide),
    by kernel_rfl⟩

/-- Eight digits of extension, from a `tel:` text and from another. -/
example : parseWith Sample.db none (str% "tel:+1-650-253-0000;ext=12345678") =
      .ok ⟨⟨1, .plus⟩, ⟨6502530000⟩, some (str% "12345678"), none⟩ ∧
    parseWith Sample.db none (str% "+1 650-253-0000 ext. 12345678") = .err .tooLong := ⟨by kernel_rfl, by kernel_rfl⟩

end Phone
