import Verif.Props.Extension
import Verif.Props.Dialling
/-! # C65: reading a number out of a text -/

namespace Phone
open Helper

variable [UnicodeTables]

/-! ## The part of the text that is taken for the number -/

theorem isUnwanted_eq (c : Char) : isUnwanted c = !Spec.endsNumber c := by
  unfold isUnwanted Spec.endsNumber Consts.unwantedEndChar
  simp only [Cls.mem, List.any_cons, List.any_nil, Consts.one, mem_one, Bool.or_false]
  simp [show CItem.mem c .n = isN c from rfl, show CItem.mem c .l = isL c from rfl, Bool.or_assoc]

theorem second_iff {a b : Str} : MatchesAt Consts.secondNumberStart.re a b ↔ Spec.SecondNumber b := by
  constructor
  · rintro ⟨w, q, rfl, hl⟩
    obtain ⟨u, v, rfl, h1, h2⟩ := lang_cat.1 hl
    obtain ⟨u2, v2, rfl, h3, h4⟩ := lang_cat.1 h2
    obtain ⟨c, rfl, hc⟩ := lang_set.1 h1
    rw [lang_chr] at h4
    subst h4
    refine ⟨c, u2, q, by simp, ?_, ?_⟩
    · simpa [Consts.one, or_comm] using hc
    · rw [Re.chr, lang_star_cls] at h3
      intro d hd
      simpa [Cls.mem] using h3 d hd
  · rintro ⟨c, sp, r, rfl, hc, hsp⟩
    refine ⟨[c] ++ (sp ++ ['x']), r, by simp, lang_cat.2 ⟨_, _, rfl, lang_set.2 ⟨c, rfl, ?_⟩, lang_cat.2 ⟨_, _, rfl, ?_, lang_chr.2 rfl⟩⟩⟩
    · simpa [Consts.one, or_comm] using hc
    · rw [Re.chr, lang_star_cls]
      intro d hd
      simpa [Cls.mem] using hsp d hd

theorem cutSecond {x rest : Str} (h : rest = [] ∨ Spec.SecondNumber rest)
    (hf : ∀ a b, x ++ rest = a ++ b → a.length < x.length → ¬ Spec.SecondNumber b) :
    cutBefore Consts.secondNumberStart (x ++ rest) = .ok x := by
  unfold cutBefore
  cases hm : Consts.secondNumberStart.find (x ++ rest) with
  | none =>
    rcases h with rfl | h
    · simp
    · exact absurd (second_iff.2 h) (find_eq_none.1 hm x rest rfl)
  | some m =>
    have f := find_eq_some hm
    have hs : x ++ rest = m.pre ++ (m.text ++ m.post) := by rw [f.split]; simp
    have h2 : Spec.SecondNumber (m.text ++ m.post) := second_iff.1 ⟨_, _, rfl, f.lang⟩
    have h3 : x.length ≤ m.pre.length := Nat.le_of_not_lt fun hlt => hf _ _ hs hlt h2
    have h4 : ¬ x.length < m.pre.length := by
      intro hlt
      rcases h with rfl | h
      · have := congrArg List.length hs; simp at this; omega
      · exact f.leftmost x rest rfl hlt (second_iff.2 h)
    have : x = m.pre := (List.append_inj hs (by omega)).1
    show Outcome.slice (takeBytes (x ++ rest) m.start) = .ok x
    rw [f.stop_eq.2.2.2, this]; rfl

/-- `Spec.Candidate` without the condition that there is something. -/
def Cut (s x : Str) : Prop := ∃ junk body after rest, s = junk ++ body ++ after ∧ body = x ++ rest ∧
    (∀ c ∈ junk, Spec.startsNumber c = false) ∧
    (∃ c, (body ++ after).head? = some c ∧ Spec.startsNumber c = true) ∧
    (∀ c ∈ after, Spec.endsNumber c = false) ∧ (∀ c, body.getLast? = some c → Spec.endsNumber c = true) ∧
    (rest = [] ∨ Spec.SecondNumber rest) ∧ ∀ a b, body = a ++ b → a.length < x.length → ¬ Spec.SecondNumber b

theorem extract_cut {s x : Str} (h : Cut s x) : extract s = if x = [] then .err .error else .ok x := by
  obtain ⟨junk, body, after, rest, rfl, rfl, hj, ⟨c, hc, hst⟩, ha, hl, h2, hf⟩ := h
  rw [List.append_assoc, extract_junk]
  · unfold extract
    obtain ⟨t, ht⟩ : ∃ t, x ++ rest ++ after = c :: t := by
      cases hx : x ++ rest ++ after with
      | nil => rw [hx] at hc; cases hc
      | cons d t => rw [hx] at hc; simp at hc; exact ⟨t, by rw [hc]⟩
    obtain ⟨m, hm, hp⟩ := (find_at_start_iff (r := Consts.validStartChar) (s := x ++ rest ++ after)).2 (by
      rw [ht]
      refine ⟨[c], t, rfl, lang_cls.2 ⟨c, rfl, ?_⟩⟩
      rw [startChar_mem]; exact hst)
    have e0 : m.start = 0 := Match.start_eq_zero.2 hp
    have e1 : dropBytes (x ++ rest ++ after) 0 = some (x ++ rest ++ after) := dropBytes_append [] _
    have e2 := cutUnwanted (a := x ++ rest) (b := after) (fun c hc => by rw [isUnwanted_eq, ha c hc]; rfl)
      (fun c hc => by rw [isUnwanted_eq, hl c hc]; rfl)
    have e3 : dropBytes (x ++ rest ++ after) (byteLen x) = some (rest ++ after) := by
      rw [List.append_assoc]; exact dropBytes_append _ _
    simp only [hm, e0, e1, Outcome.slice_some, Outcome.bind_ok, e2, cutSecond h2 hf, Nat.zero_add, e3]
    cases x <;> simp
  · intro d hd
    have := hj d hd
    simpa [Spec.startsNumber] using this

omit [UnicodeTables] in
/-- Split off the characters at the end that satisfy a condition. -/
theorem split_trailing (p : Char → Bool) (s : Str) :
    ∃ a b, s = a ++ b ∧ (∀ c ∈ b, p c = false) ∧ ∀ c, a.getLast? = some c → p c = true := by
  induction s with
  | nil => exact ⟨[], [], rfl, by simp, by simp⟩
  | cons c s ih =>
    obtain ⟨a, b, rfl, h1, h2⟩ := ih
    cases a with
    | nil =>
      cases hc : p c with
      | true => exact ⟨[c], b, rfl, h1, by simp [hc]⟩
      | false => exact ⟨[], c :: b, rfl, by simpa [hc] using h1, by simp⟩
    | cons d a => exact ⟨c :: d :: a, b, rfl, h1, by simpa using h2⟩

theorem cut_exists {s : Str} (h : ∃ c ∈ s, Spec.startsNumber c = true) : ∃ x, Cut s x := by
  have : ∃ k c t, s = k ++ c :: t ∧ Spec.startsNumber c = true ∧ ∀ d ∈ k, Spec.startsNumber d = false := by
    induction s with
    | nil => obtain ⟨c, hc, _⟩ := h; cases hc
    | cons x s ih =>
      cases hx : Spec.startsNumber x with
      | true => exact ⟨[], x, s, rfl, hx, by simp⟩
      | false =>
        obtain ⟨c, hc, h⟩ := h
        simp only [List.mem_cons] at hc
        rcases hc with rfl | hc
        · rw [hx] at h; cases h
        · obtain ⟨k, c, t, rfl, h1, h2⟩ := ih ⟨c, hc, h⟩
          exact ⟨x :: k, c, t, rfl, h1, by simpa [hx] using h2⟩
  obtain ⟨k, c, t, rfl, hc, hk⟩ := this
  obtain ⟨body, after, hb, ha, hl⟩ := split_trailing Spec.endsNumber (c :: t)
  cases hm : Consts.secondNumberStart.find body with
  | none =>
    refine ⟨body, k, body, after, [], by rw [hb]; simp, by simp, hk, ⟨c, by rw [← hb]; rfl, hc⟩, ha, hl, .inl rfl, ?_⟩
    intro a b hab _ h2
    exact find_eq_none.1 hm a b hab (second_iff.2 h2)
  | some m =>
    have f := find_eq_some hm
    refine ⟨m.pre, k, body, after, m.text ++ m.post, by rw [hb]; simp, by rw [f.split]; simp, hk, ⟨c, by rw [← hb]; rfl, hc⟩, ha, hl,
      .inr (second_iff.1 ⟨_, _, rfl, f.lang⟩), ?_⟩
    intro a b hab hlt h2
    exact f.leftmost a b hab hlt (second_iff.2 h2)

/-- What is extracted from a text is its candidate. -/
theorem extract_eq_ok {s x : Str} : extract s = .ok x ↔ Spec.Candidate s x := by
  constructor
  · intro h
    by_cases hs : ∃ c ∈ s, Spec.startsNumber c = true
    · obtain ⟨y, hy⟩ := cut_exists hs
      rw [extract_cut hy] at h
      split at h
      · cases h
      · rename_i hne
        cases h
        exact ⟨hne, hy⟩
    · exfalso
      have : Consts.validStartChar.find s = none := by
        rw [find_eq_none]
        rintro a b rfl ⟨w, q, rfl, hl⟩
        obtain ⟨c, rfl, hc⟩ := lang_cls.1 hl
        rw [startChar_mem] at hc
        exact hs ⟨c, by simp, hc⟩
      unfold extract at h
      rw [this] at h
      cases h
  · rintro ⟨h1, h2⟩
    rw [extract_cut h2, if_neg h1]

theorem extract_err {s : Str} (h : ∀ x, ¬ Spec.Candidate s x) : ∃ e, extract s = .err e := by
  rcases extract_spec s with h' | ⟨a, r, b, h', _⟩
  · exact h'
  · exact absurd (extract_eq_ok.1 h') (h r)

/-! ## Reading -/

theorem readNumber_space {s : Str} (h : ' ' ∈ s) : readNumber s =
    (match Natural.phoneNumber s with | .ok n => .ok n | .panic p => .panic p | .err _ => .err .noNumber) := by
  simp only [readNumber, rfc_space h]
  cases Natural.phoneNumber s <;> rfl

theorem readNumber_no_candidate {s : Str} (hs : ' ' ∈ s) (h : ∀ x, ¬ Spec.Candidate s x) : readNumber s = .err .noNumber := by
  obtain ⟨e, he⟩ := extract_err h
  rw [readNumber_space hs, Natural.phoneNumber, he]; simp

theorem readNumber_no_extension {s x : Str} (hs : ' ' ∈ s) (hc : Spec.Candidate s x) (h : Spec.NoExtension x) :
    readNumber s = .ok { national := x } := by
  rw [readNumber_space hs, Natural.phoneNumber, extract_eq_ok.2 hc]
  simp only [Outcome.bind_ok, find_extn_none.2 h, Outcome.pure_eq]

theorem readNumber_bad_extension {s x a : Str} (hs : ' ' ∈ s) (hc : Spec.Candidate s x) (hm : Spec.MarksNotDigits x)
    (h : Spec.Extension x a none) : readNumber s = .err .noNumber := by
  obtain ⟨m, h1, h2, h3⟩ := (find_extn_iff hm).2 h
  rw [readNumber_space hs, Natural.phoneNumber, extract_eq_ok.2 hc]
  simp only [Outcome.bind_ok, h1, h3]

theorem readNumber_extension {s x a ds : Str} (hs : ' ' ∈ s) (hc : Spec.Candidate s x) (hm : Spec.MarksNotDigits x)
    (h : Spec.Extension x a (some ds)) : readNumber s = .ok { national := a, extension := some ds } := by
  obtain ⟨m, h1, h2, h3⟩ := (find_extn_iff hm).2 h
  rw [readNumber_space hs, Natural.phoneNumber, extract_eq_ok.2 hc]
  simp only [Outcome.bind_ok, h1, h3, (find_eq_some h1).stop_eq.2.2.2, Outcome.slice_some, h2, Outcome.pure_eq]

/-- Reading depends only on the candidate. -/
theorem readNumber_candidate {s x : Str} (hs : ' ' ∈ s) (hc : Spec.Candidate s x) (hx : ' ' ∈ x) (hc' : Spec.Candidate x x) :
    readNumber s = readNumber x := by
  rw [readNumber_space hs, readNumber_space hx, Natural.phoneNumber, Natural.phoneNumber, extract_eq_ok.2 hc, extract_eq_ok.2 hc']

/-- A beginning of a candidate that ends like a number is its own candidate. -/
theorem candidate_self {s x a e : Str} (hc : Spec.Candidate s x) (hx : x = a ++ e) (hne : a ≠ [])
    (hl : ∀ c, a.getLast? = some c → Spec.endsNumber c = true) : Spec.Candidate a a := by
  obtain ⟨_, junk, body, after, rest, _, rfl, _, ⟨c, hc, hst⟩, _, _, _, hf⟩ := hc
  subst hx
  refine ⟨hne, [], a, [], [], by simp, by simp, by simp, ⟨c, ?_, hst⟩, by simp, hl, .inl rfl, ?_⟩
  · cases a with
    | nil => exact absurd rfl hne
    | cons d a => simpa using hc
  · rintro a1 b1 rfl hlt ⟨c, sp, r, rfl, h1, h2⟩
    refine hf a1 ((c :: (sp ++ 'x' :: r)) ++ (e ++ rest)) (by simp) (by simp at hlt ⊢) ⟨c, sp, r ++ (e ++ rest), by simp, h1, h2⟩

/-! ## The extension is carried along -/

/-- A number with another extension. -/
def Number.ext (e : Option Str) (n : Number) : Number := { n with extension := e }

omit [UnicodeTables] in
theorem codeLoop_ext (e : Option Str) (db : Database) (n : Number) (lens : List Nat) :
    codeLoop db (n.ext e) lens = codeLoop db n lens >>= fun r => .ok (r.ext e) := by
  induction lens with
  | nil => rfl
  | cons l lens ih =>
    simp only [codeLoop, Outcome.bind_assoc]
    refine Outcome.bind_congr fun pre => ?_
    refine Outcome.bind_congr fun code => ?_
    split
    · simp only [Outcome.bind_assoc]; rfl
    · exact ih

theorem nationalNumber_ext (md : Metadata) (n : Number) (x : Option Str) :
    nationalNumber (ε := ParseErr) md { n with extension := x } = nationalNumber md n >>= fun r => .ok { r with extension := x } := by
  unfold nationalNumber
  cases hre : md.nationalPrefixForParsing with
  | none =>
    cases md.nationalPrefix with
    | none => rfl
    | some pre => simp only [ite_bind, Outcome.bind_assoc, Outcome.bind_ok]
  | some re =>
    cases hm : re.find n.national with
    | none => simp only [hm]; rfl
    | some m =>
      simp only [hm, ite_bind, Outcome.bind_ok]
      split
      · rfl
      · cases md.nationalPrefixTransformRule with
        | none => simp only [Outcome.bind_assoc, ite_bind, Outcome.bind_ok]
        | some t =>
          cases m.get re.ngroups with
          | none => simp only [Outcome.bind_assoc, ite_bind, Outcome.bind_ok]
          | some l => simp only [Outcome.bind_assoc, ite_bind, Outcome.bind_ok]

theorem stripNational_ext (md : Option Metadata) (n : Number) (x : Option Str) :
    stripNational md (n.ext x) = stripNational md n >>= fun r => .ok (r.ext x) := by
  show stripNational md { n with extension := x } = stripNational md n >>= fun r => .ok { r with extension := x }
  unfold stripNational
  split
  · rfl
  · rename_i md
    simp only [nationalNumber_ext, Outcome.bind_assoc, Outcome.bind_ok]
    congr 1
    funext r
    have : dropNationalPrefix md { r with extension := x } = dropNationalPrefix md r >>= fun r => .ok { r with extension := x } := by
      unfold dropNationalPrefix
      split
      · split
        · simp [Outcome.bind_assoc]
        · rfl
      · rfl
    rw [this]
    simp only [Outcome.bind_assoc, Outcome.bind_ok, Outcome.pure_eq]
    congr 1
    funext q
    split <;> rfl

omit [UnicodeTables] in
theorem finishParse_ext (n : Number) (x : Option Str) :
    finishParse (n.ext x) = finishParse n >>= fun p => .ok { p with extension := x } := by
  unfold finishParse
  rw [show prefixCode (n.ext x) = prefixCode n from rfl, show (n.ext x).national = n.national from rfl]
  split
  · rfl
  · split
    · rfl
    · simp only [Outcome.bind_assoc, Outcome.pure_eq]; rfl

theorem stripIdd_ext (idd : Option Regex) (n : Number) (x : Option Str) :
    stripIdd (ε := ParseErr) idd (n.ext x) = stripIdd idd n >>= fun r => .ok (r.ext x) := by
  show stripIdd (ε := ParseErr) idd { n with extension := x } = stripIdd idd n >>= fun r => .ok { r with extension := x }
  unfold stripIdd
  cases hm : idd.bind (·.find n.national) with
  | none => rfl
  | some m =>
    simp only [ite_bind]
    split
    · simp only [Outcome.bind_assoc, ite_bind, Outcome.bind_ok]
    · rfl

/-- The letter conversion chosen for a number. -/
def vanityMap (s : Str) : List (Char × Char) :=
  if Consts.validAlphaPhone.isMatch s then Consts.alphaPhoneMappings else Consts.asciiMappings

theorem internationalPrefix_ext (idd : Option Regex) (n : Number) (x : Option Str) :
    internationalPrefix (ε := ParseErr) idd (n.ext x) =
      internationalPrefix idd n >>= fun r => .ok (r.ext (x.map (act (vanityMap n.national)))) := by
  unfold internationalPrefix
  simp only [show (n.ext x).national = n.national from rfl, show (n.ext x).pref = n.pref from rfl]
  rw [show (if Consts.validAlphaPhone.isMatch n.national = true then Consts.alphaPhoneMappings else Consts.asciiMappings)
    = vanityMap n.national from rfl]
  split
  · rfl
  · split
    · rw [Outcome.bind_assoc]
      refine Outcome.bind_congr fun nat => ?_
      have : normalize ⟨.plus, nat, n.pref, (n.ext x).extension, (n.ext x).carrier⟩ (vanityMap n.national) =
        (normalize { n with country := .plus, national := nat } (vanityMap n.national)).ext (x.map (act (vanityMap n.national))) := rfl
      simp only [this]
      generalize normalize { n with country := .plus, national := nat } (vanityMap n.national) = z
      rw [show (z.ext (x.map (act (vanityMap n.national)))).national = z.national from rfl]
      split
      · rfl
      · exact stripIdd_ext _ _ _
    · exact stripIdd_ext idd (normalize { n with country := .default } (vanityMap n.national)) _

theorem countryCode_ext (db : Database) (country : Option Id) (n : Number) (x : Option Str) :
    countryCode db country (n.ext x) =
      countryCode db country n >>= fun r => .ok (r.ext (x.map (act (vanityMap n.national)))) := by
  unfold countryCode
  simp only [internationalPrefix_ext, Outcome.bind_assoc, Outcome.bind_ok]
  refine Outcome.bind_congr fun r => ?_
  generalize x.map (act (vanityMap n.national)) = y
  obtain ⟨c, nat, p, e, k⟩ := r
  cases c with
  | plus =>
    simp only [Number.ext]
    cases p with
    | some p => simp only [ite_bind, Outcome.bind_assoc]; rfl
    | none =>
      have := codeLoop_ext y db ⟨.plus, nat, none, e, k⟩ ((List.range Consts.maxLengthForCountryCode).map (· + 1))
      simp only [Number.ext] at this
      simp only [ite_bind, this]; rfl
  | idd =>
    simp only [Number.ext]
    cases p with
    | some p => simp only [ite_bind, Outcome.bind_assoc]; rfl
    | none =>
      have := codeLoop_ext y db ⟨.idd, nat, none, e, k⟩ ((List.range Consts.maxLengthForCountryCode).map (· + 1))
      simp only [Number.ext] at this
      simp only [ite_bind, this]; rfl
  | number =>
    simp only [Number.ext]
    cases p with
    | some p => simp only [ite_bind, Outcome.bind_assoc]; rfl
    | none =>
      have := codeLoop_ext y db ⟨.number, nat, none, e, k⟩ ((List.range Consts.maxLengthForCountryCode).map (· + 1))
      simp only [Number.ext] at this
      simp only [ite_bind, this]; rfl
  | default =>
    cases country with
    | none => rfl
    | some c =>
      simp only [Number.ext, Outcome.bind_assoc]
      refine Outcome.bind_congr fun md => ?_
      simp only [ite_bind, Outcome.bind_assoc, Outcome.bind_ok]
      rfl

/-- The extension of a number does not matter for the rest of it. -/
theorem afterRead_ext (db : Database) (country : Option Id) (n : Number) (x : Option Str) :
    afterRead db country (n.ext x) =
      afterRead db country n >>= fun p => .ok { p with extension := x.map (act (vanityMap n.national)) } := by
  unfold afterRead
  rw [show (n.ext x).national = n.national from rfl]
  split
  · rfl
  · simp only [countryCode_ext, Outcome.bind_assoc, Outcome.bind_ok]
    refine Outcome.bind_congr fun r => ?_
    generalize x.map (act (vanityMap n.national)) = y
    have : parseMeta db country (r.ext y) = parseMeta db country r := rfl
    rw [this]
    refine Outcome.bind_congr fun md => ?_
    simp only [stripNational_ext, Outcome.bind_assoc, Outcome.bind_ok, finishParse_ext]

/-- Letters are never decimal digits, so the digits of an extension do not depend on the conversion of letters. -/
theorem act_nd {ds : Str} (h : ∀ c ∈ ds, isNd c = true) (m : Str) : act (vanityMap m) ds = act (mapFor false) ds := by
  unfold vanityMap
  split
  · have hc : ∀ c ∈ ds, normChar Consts.alphaPhoneMappings c = normChar Consts.asciiMappings c := by
      intro c hc
      rw [normChar_ascii]
      cases hd : asDecDigit c with
      | some d => simp [normChar, hd]
      | none =>
        cases hn : normChar Consts.alphaPhoneMappings c with
        | none => rfl
        | some d =>
          rw [normChar_alpha_eq_some] at hn
          obtain ⟨i, h', _⟩ := hn
          rcases h' with h' | h'
          · exact absurd h' (asDecDigit_eq_none.1 hd i)
          · obtain ⟨_, h1, h2⟩ := onKey_low h'
            have := h c hc
            rw [isNd_low h1, h2] at this; cases this
    rw [act_eq_filterMap, act_eq_filterMap]
    clear h
    induction ds with
    | nil => rfl
    | cons c ds ih =>
      simp only [List.filterMap_cons, hc c (by simp), ih fun d hd => hc d (List.mem_cons_of_mem _ hd)]
      rfl
  · rfl

/-! ## C65 -/

/-- C65: a text with a space in which nothing can be taken for a number is not a number. -/
theorem C65_no_candidate (db : Database) (country : Option Id) (s : Str) (hs : ' ' ∈ s) (h : ∀ x, ¬ Spec.Candidate s x) :
    parseWith db country s = .err .noNumber := by
  rw [parseWith_eq, readNumber_no_candidate hs h]; rfl

/-- C65: a text with a space is read like the part of it that is taken for the number, if that part itself contains a space and ends
with a letter, a number character or `#`. -/
theorem C65_candidate (db : Database) (country : Option Id) (s x : Str) (hs : ' ' ∈ s) (hc : Spec.Candidate s x) (hx : ' ' ∈ x)
    (hl : ∀ c, x.getLast? = some c → Spec.endsNumber c = true) : parseWith db country s = parseWith db country x := by
  rw [parseWith_eq, parseWith_eq, readNumber_candidate hs hc hx (candidate_self hc (List.append_nil x).symm hc.nonempty hl)]

/-- C65: the number of a text with a space must not end in an extension of one of the forms `;ext=123` and `- 123#`. -/
theorem C65_bad_extension (db : Database) (country : Option Id) (s x a : Str) (hs : ' ' ∈ s) (hc : Spec.Candidate s x)
    (hm : Spec.MarksNotDigits x) (h : Spec.Extension x a none) : parseWith db country s = .err .noNumber := by
  rw [parseWith_eq, readNumber_bad_extension hs hc hm h]; rfl

/-- C65: a text with a space whose number ends in an extension is read like the part before the extension, with the digits of the
extension as its extension. The part before it must contain a space, end with a letter, a number character or `#`, and not end in
another extension. -/
theorem C65_extension (db : Database) (country : Option Id) (s x a ds : Str) (hs : ' ' ∈ s) (hc : Spec.Candidate s x)
    (hm : Spec.MarksNotDigits x) (h : Spec.Extension x a (some ds)) (ha : ' ' ∈ a)
    (hl : ∀ c, a.getLast? = some c → Spec.endsNumber c = true) (hn : Spec.NoExtension a) :
    ∃ es, Spec.Digitised false ds es ∧
      parseWith db country s = parseWith db country a >>= fun p => .ok (Spec.withExtension es p) := by
  obtain ⟨e, he, ht⟩ := h.split
  have hnd : ∀ c ∈ ds, isNd c = true := by cases ht; assumption
  have hca : Spec.Candidate a a := candidate_self hc he (by rintro rfl; cases ha) hl
  refine ⟨act (mapFor false) ds, act_iff_digitised.1 rfl, ?_⟩
  rw [parseWith_eq, parseWith_eq, readNumber_extension hs hc hm h, readNumber_no_extension ha hca hn]
  simp only [Outcome.bind_ok]
  have := afterRead_ext db country { national := a } (some ds)
  rw [Option.map_some, act_nd hnd] at this
  exact this

/-! ## Plainly written numbers with an extension -/

omit [UnicodeTables] in
theorem getLast_append (a : Str) {b : Str} (h : b ≠ []) : (a ++ b).getLast? = b.getLast? := by
  rw [List.getLast?_append, List.getLast?_eq_some_getLast h]; rfl

omit [UnicodeTables] in
theorem word_not_plain {w : Str} (h : w.map Spec.fold ∈ Spec.extWords) : ∀ c ∈ w, c ∉ plainChars := by
  intro c hc hp
  have hp' : c.toNat ∈ plainChars.map Char.toNat := List.mem_map_of_mem hp
  have : plainChars.map Char.toNat = [43, 48, 49, 50, 51, 52, 53, 54, 55, 56, 57, 32, 45, 46, 40, 41, 47] := by decide
  rw [this] at hp'
  have := (word_chars h).2 c hc
  rw [mem_wideExt] at this
  simp only [List.mem_cons, List.not_mem_nil, or_false] at hp' this
  omega

omit [UnicodeTables] in
theorem prefix_or {t e u v : Str} (h : t ++ e = u ++ v) : (∃ z, u = t ++ z ∧ e = z ++ v) ∨ ∃ x z, t = u ++ x :: z ∧ v = x :: z ++ e := by
  rcases List.append_eq_append_iff.1 h with ⟨z, hz, hz'⟩ | ⟨z, hz, hz'⟩
  · exact .inl ⟨z, hz, hz'⟩
  · cases z with
    | nil => exact .inl ⟨[], by simpa using hz.symm, by simpa using hz'.symm⟩
    | cons x z => exact .inr ⟨x, z, hz, hz'⟩

/-- No extension begins inside a plain number that ends with a digit and is followed by an extension with a word and a digit. -/
theorem no_earlier {t e ds : Str} {d : Char} {o : Option Str} (hp : ∀ c ∈ t ++ [d], c ∈ plainChars) (hd : isDigit d = true)
    (hm : Spec.MarksNotDigits e) (he : Spec.ExtText e (some ds)) (hne : ds ≠ []) : ¬ Spec.ExtText (t ++ [d] ++ e) o := by
  intro h
  generalize hx : t ++ [d] ++ e = x at h
  cases h with
  | word w1 w2 w3 w4 ds' w6 h1 h2 h3 h4 h5 h6 h7 =>
    rcases prefix_or hx with ⟨z, hz, _⟩ | ⟨c, z, hz, hz'⟩
    · have := h1 d (by rw [hz]; simp)
      simp only [List.mem_cons, List.not_mem_nil, or_false] at this
      rcases this with rfl | rfl | rfl | rfl <;> exact absurd hd (by decide)
    · cases w2 with
      | nil => exact (word_chars h2).1 rfl
      | cons c' w2 =>
        simp only [List.cons_append, List.cons.injEq] at hz'
        exact word_not_plain h2 c' (by simp) (hp c' (by rw [hz, hz'.1]; simp))
  | rfc p ds' k1 k2 k3 =>
    cases p with
    | nil => cases k1
    | cons c p =>
      simp only [List.map_cons, List.cons.injEq] at k1
      have hc : c ∈ plainChars := by
        cases t with
        | nil => simp at hx; exact hp c (by simp [hx.1])
        | cons y t => simp at hx; exact hp c (by simp [hx.1])
      exact word_not_plain (w := [c]) (by rw [List.map_singleton, k1.1]; decide) c (by simp) hc
  | hash sep ds' k1 k2 k3 k4 k5 =>
    cases he with
    | word w1 w2 w3 w4 ds w6 h1 h2 h3 h4 h5 h6 h7 =>
      cases w2 with
      | nil => exact (word_chars h2).1 rfl
      | cons c w2 =>
        have hc := word_not_nd (hm.mono (t := c :: w2) (by simp +contextual)) h2 c (by simp)
        have hc' : c ≠ '-' ∧ c ≠ ' ' := by
          have := word_not_plain h2 c (by simp)
          constructor <;> rintro rfl <;> exact this (by decide)
        have he2 : (t ++ [d] ++ w1) ++ c :: (w2 ++ (w3 ++ (w4 ++ (ds ++ w6)))) = (sep ++ ds') ++ ['#'] := by
          rw [List.append_assoc sep, ← hx]; simp
        rcases prefix_or he2 with ⟨z, hz, hz'⟩ | ⟨x, z, hz, hz'⟩
        · cases z with
          | nil => simp at hz'; exact hne hz'.2.2.2.2.1
          | cons y z =>
            simp only [List.cons_append, List.cons.injEq] at hz'
            have : c ∈ sep ++ ds' := by rw [hz, hz'.1]; simp
            rcases List.mem_append.1 this with h | h
            · have := k2 c h; simp [hc'] at this
            · rw [k5 c h] at hc; cases hc
        · simp at hz'

/-- A plain number that ends with a digit, followed by an extension with a word, contains no second number. -/
theorem no_second {t e ds : Str} {d : Char} (hp : ∀ c ∈ t ++ [d], c ∈ plainChars) (hd : isDigit d = true)
    (he : Spec.ExtText e (some ds)) {a b : Str} (hab : t ++ [d] ++ e = a ++ b) : ¬ Spec.SecondNumber b := by
  rintro ⟨c, sp, r, rfl, hc, hsp⟩
  rcases prefix_or hab with ⟨z, hz, hz'⟩ | ⟨x, z, hz, hz'⟩
  · have hce : c ∈ e := by rw [hz']; simp
    cases he with
    | word w1 w2 w3 w4 ds w6 h1 h2 h3 h4 h5 h6 h7 =>
      simp only [List.mem_append] at hce
      rcases hce with h | h | h | h | h | h
      · rcases hc with rfl | rfl <;> exact absurd (h1 _ h) (by decide)
      · rcases (word_chars h2).2 _ h with h | h <;> rcases hc with rfl | rfl <;> exact absurd h (by decide)
      · rcases h3 with rfl | ⟨c', hc', rfl⟩
        · cases h
        · simp only [List.mem_singleton] at h; subst h; rcases hc with rfl | rfl <;> exact absurd hc' (by decide)
      · rcases hc with rfl | rfl <;> exact absurd (h4 _ h) (by decide)
      · have := h6 _ h
        rcases hc with rfl | rfl <;> rw [isNd_low (by decide)] at this <;> exact absurd this (by decide)
      · rcases h7 with rfl | rfl <;> rcases hc with rfl | rfl <;> exact absurd h (by decide)
  · simp only [List.cons_append, List.cons.injEq] at hz'
    obtain ⟨rfl, hz'⟩ := hz'
    have hdz : d ∈ z := by
      have h1 : (t ++ [d]).getLast? = some d := by simp
      rw [hz] at h1
      cases z with
      | nil =>
        simp at h1
        subst h1
        rcases hc with rfl | rfl <;> exact absurd hd (by decide)
      | cons y z =>
        rw [List.getLast?_append, List.getLast?_cons_cons] at h1
        have : (y :: z).getLast? = some d := by
          cases hl : (y :: z).getLast? with
          | none => simp at hl
          | some v => rw [hl] at h1; simpa using h1
        exact List.mem_of_getLast? this
    rcases prefix_or hz'.symm with ⟨z2, h2, _⟩ | ⟨x2, z2, h2, h3⟩
    · have := hsp d (by rw [h2]; exact List.mem_append_left _ hdz)
      subst this
      exact absurd hd (by decide)
    · simp only [List.cons_append, List.cons.injEq] at h3
      have : 'x' ∈ plainChars := hp 'x' (by rw [hz, h2, h3.1]; simp)
      exact absurd this (by decide)

/-- C65: a plainly written number (as in C13) that ends with a digit and is followed by an extension – blanks or commas, one of the
words, an optional colon or stop, blanks, commas or hyphens, one to seven decimal digits and an optional `#` – is read like its plus
and digits alone, with the digits of the extension as its extension. Text before the number that contains no decimal digit or plus and
characters after it that are not letters, numbers or `#` do not matter. There must be a space somewhere. -/
theorem C65_written (db : Database) (country : Option Id) (junk pl b e after ds es : Str)
    (hj : ∀ c ∈ junk, Spec.startsNumber c = false) (ha : ∀ c ∈ after, Spec.endsNumber c = false)
    (hpl : pl = [] ∨ pl = ['+']) (hb : Spec.Plain b) (hstart : pl = [] → ∃ c s, b = c :: s ∧ isDigit c = true)
    (hend : ∃ t d, b = t ++ [d] ∧ isDigit d = true) (h3 : 3 ≤ (b.filter isDigit).length)
    (he : Spec.ExtText e (some ds)) (hne : ds ≠ []) (hm : Spec.MarksNotDigits e) (hes : Spec.Digitised false ds es)
    (hs : ' ' ∈ junk ++ (pl ++ b ++ e) ++ after) :
    parseWith db country (junk ++ (pl ++ b ++ e) ++ after) =
      parseWith db country (pl ++ b.filter isDigit) >>= fun p => .ok (Spec.withExtension es p) := by
  have hb' := plain_iff.1 hb
  have hd : Digits (b.filter isDigit) := digits_filter b
  have hd' : ∀ c ∈ b.filter isDigit, c ∈ plainChars ∧ c ≠ '+' := fun c hc => hb' c (List.mem_filter.1 hc).1
  have hdne : b.filter isDigit ≠ [] := by intro h; rw [h] at h3; simp at h3
  obtain ⟨t, d, hbt, hdd⟩ := hend
  have hplain : ∀ c ∈ (pl ++ t) ++ [d], c ∈ plainChars := by
    intro c hc
    rw [List.append_assoc, ← hbt] at hc
    rcases List.mem_append.1 hc with h | h
    · rcases hpl with rfl | rfl
      · cases h
      · simp at h; subst h; decide
    · exact (hb' c h).1
  have hx : pl ++ b ++ e = (pl ++ t) ++ [d] ++ e := by rw [hbt]; simp
  have hnd : ∀ c ∈ ds, isNd c = true := by cases he; assumption
  have helast : ∀ c, e.getLast? = some c → Spec.endsNumber c = true := by
    intro c hc
    cases he with
    | word w1 w2 w3 w4 ds w6 h1 h2 h3 h4 h5 h6 h7 =>
      have hlast : (ds ++ w6).getLast? = some c := by
        have hne' : ds ++ w6 ≠ [] := by simp [hne]
        rw [← hc]
        simp only [← List.append_assoc]
        rw [List.append_assoc _ ds w6, getLast_append _ hne']
      rcases h7 with rfl | rfl
      · have : c ∈ ds := List.mem_of_getLast? (by simpa using hlast)
        simp [Spec.endsNumber, isN_of_isNd (h6 c this)]
      · simp at hlast; subst hlast; simp [Spec.endsNumber]
  have hene : e ≠ [] := by
    rintro rfl
    exact hne (he.digits hm).symm
  have hcand : Spec.Candidate (junk ++ (pl ++ b ++ e) ++ after) (pl ++ b ++ e) := by
    refine ⟨by simp [hene], junk, pl ++ b ++ e, after, [], rfl, by simp, hj, ?_, ha, ?_, .inl rfl, ?_⟩
    · rcases hpl with rfl | rfl
      · obtain ⟨c, s, rfl, hc⟩ := hstart rfl
        exact ⟨c, by simp, by simp [Spec.startsNumber, isNd_of_isDigit hc]⟩
      · exact ⟨'+', by simp, by simp [Spec.startsNumber, Spec.isPlus]⟩
    · intro c hc
      rw [getLast_append _ hene] at hc
      exact helast c hc
    · intro a b' hab _
      rw [hx] at hab
      exact no_second hplain hdd he hab
  have hmx : Spec.MarksNotDigits (pl ++ b ++ e) := by
    intro c hc hw
    rw [hx] at hc
    rcases List.mem_append.1 hc with h | h
    · have := hplain c h
      exact absurd hw ((by decide : ∀ c ∈ plainChars, c ∉ Spec.wideExt) c this)
    · exact hm c h hw
  have hext : Spec.Extension (pl ++ b ++ e) (pl ++ b) (some ds) := by
    refine ⟨⟨e, rfl, he⟩, ?_⟩
    intro a' e' o' ha' he'
    apply Nat.le_of_not_lt
    intro hlt
    rcases prefix_or ha' with ⟨z, hz, _⟩ | ⟨x, z, hz, hz'⟩
    · rw [hz] at hlt; simp at hlt; omega
    · obtain ⟨t', ht'⟩ : ∃ t', x :: z = t' ++ [d] := by
        have h1 : (pl ++ b).getLast? = some d := by rw [hbt, ← List.append_assoc]; simp
        rw [hz, getLast_append _ (by simp)] at h1
        exact List.getLast?_eq_some_iff.1 h1
      rw [hz', ht'] at he'
      refine no_earlier (t := t') ?_ hdd hm he hne he'
      intro c hc
      rw [← ht'] at hc
      apply hplain c
      rw [List.append_assoc, ← hbt, hz]
      exact List.mem_append_right _ hc
  have hact : act (mapFor false) ds = es := act_iff_digitised.2 hes
  rw [parseWith_eq, readNumber_extension hs hcand hmx hext]
  have e1 : parseWith db country (pl ++ b.filter isDigit) = afterRead db country { national := pl ++ b } := by
    rw [afterRead_plain db country hpl hb' hd' h3 (by rw [filter_digits hd])]
    rcases hpl with rfl | rfl
    · exact parseWith_digits db country hd hdne
    · exact parseWith_plus_digits db country hd hdne
  rw [e1]
  have := afterRead_ext db country { national := pl ++ b } (some ds)
  rw [Option.map_some, act_nd hnd, hact] at this
  exact this

/-! ## Concrete cases -/

/-- ASCII texts meet the condition on the Unicode tables. -/
theorem marksNotDigits_ascii {s : Str} (h : s.all (fun c => decide (c.toNat < 128)) = true) : Spec.MarksNotDigits s := by
  intro c hc hw
  have := of_decide_eq_true (List.all_eq_true.1 h c hc)
  rw [mem_wideExt] at hw
  simp only [List.mem_cons, List.not_mem_nil, or_false] at hw
  omega

/-- Texts with a space that contain nothing that could be a number. -/
example : (∀ x, ¬ Spec.Candidate (str% "no number here") x) ∧ ∀ x, ¬ Spec.Candidate (str% "a plus + ...") x := by
  constructor <;> intro x h
  · have := extract_eq_ok.2 h
    rw [show extract (str% "no number here") = .err .error by kernel_rfl] at this
    cases this
  · have := extract_eq_ok.2 h
    rw [show extract (str% "a plus + ...") = .err .error by kernel_rfl] at this
    cases this

/-- The part taken for the number, with letters and a second number. -/
example : Spec.Candidate (str% "Call 1 800 FLOWERS!") (str% "1 800 FLOWERS") ∧
    Spec.Candidate (str% "Call 650 253 0000 x 302/ x2303.") (str% "650 253 0000 x 302") :=
  ⟨extract_eq_ok.1 (by kernel_rfl), extract_eq_ok.1 (by kernel_rfl)⟩

example : parseWith Sample.db (some .US) (str% "Call 1 800 FLOWERS!") =
    .ok { code := ⟨1, .number⟩, national := ⟨8003569377⟩, extension := none, carrier := none } := by kernel_rfl

/-- The extension of a text and the part before it, as required by `C65_extension`. -/
example : Spec.Extension (str% "1 800 FLOWERS, ext. 12") (str% "1 800 FLOWERS") (some (str% "12")) ∧
    Spec.NoExtension (str% "1 800 FLOWERS") := by
  refine ⟨?_, find_extn_none.1 (by kernel_rfl)⟩
  exact find_extn (m := ⟨str% "1 800 FLOWERS", str% ", ext. 12", [], [⟨2, 20, str% "12"⟩]⟩) (by kernel_rfl)

example : parseWith Sample.db (some .US) (str% "Call 1 800 FLOWERS, ext. 12!") =
    .ok { code := ⟨1, .number⟩, national := ⟨8003569377⟩, extension := some (str% "12"), carrier := none } := by kernel_rfl

/-- Extensions in the forms that are recognised but not accepted. -/
example : Spec.ExtText (str% ";ext=123") none ∧ Spec.ExtText (str% " - 123#") none := by
  refine ⟨.rfc (str% ";ext=") (str% "123") (by decide) (by decide) ?_, .hash (str% " - ") (str% "123") (by simp) (by decide) (by simp) (by decide) ?_⟩ <;>
  · have : (str% "123").all isNd = true := by kernel_rfl
    exact List.all_eq_true.1 this

example : parseWith Sample.db (some .US) (str% "650 253 0000;ext=123") = .err .noNumber ∧
    parseWith Sample.db (some .US) (str% "650 253 0000 - 123#") = .err .noNumber := ⟨by kernel_rfl, by kernel_rfl⟩

/-- A written number that meets the conditions of `C65_written`. -/
example (db : Database) (country : Option Id) : parseWith db country (str% "Tel: (650) 253-0000, EXT: - 123#.") =
    parseWith db country (str% "6502530000") >>= fun p => .ok (Spec.withExtension (str% "123") p) := by
  refine C65_written db country (str% "Tel: (") [] (str% "650) 253-0000") (str% ", EXT: - 123#") (str% ".") (str% "123") (str% "123")
    ?_ ?_ (.inl rfl) (by unfold Spec.Plain; decide) (fun _ => ⟨'6', _, rfl, by decide⟩) ⟨str% "650) 253-000", '0', by decide, by decide⟩ (by decide)
    (.word (str% ", ") (str% "EXT") (str% ":") (str% " - ") (str% "123") (str% "#") (by decide) (by decide) (by decide) (by decide) (by decide) ?_
      (.inr rfl)) (by simp) (marksNotDigits_ascii (by kernel_rfl)) ?_ (by decide)
  · have : (str% "Tel: (").all (fun c => !Spec.startsNumber c) = true := by kernel_rfl
    intro c hc; simpa using List.all_eq_true.1 this c hc
  · have : (str% ".").all (fun c => !Spec.endsNumber c) = true := by kernel_rfl
    intro c hc; simpa using List.all_eq_true.1 this c hc
  · have : (str% "123").all isNd = true := by kernel_rfl
    exact List.all_eq_true.1 this
  · exact act_iff_digitised.1 (by kernel_rfl)

example : parseWith Sample.db (some .US) (str% "Tel: (650) 253-0000, EXT: - 123#.") =
    .ok { code := ⟨1, .default⟩, national := ⟨6502530000⟩, extension := some (str% "123"), carrier := none } := by kernel_rfl

end Phone
