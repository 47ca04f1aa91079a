import Verif.Props.Normalize
import Verif.Props.Viable
import Verif.Props.Database
import Verif.Props.NationalNumber
/-! # What each stage of the parser does

Lemmas about the stages of `parse_with`, used by the theorems about the whole parser. -/

namespace Phone
open Helper

variable [UnicodeTables]

/-- Invariant of the intermediate number after normalisation. -/
structure Norm (n : Number) : Prop where
  national : Digits n.national
  pref : ∀ p, n.pref = some p → Digits p
  extension : ∀ e, n.extension = some e → Digits e

omit [UnicodeTables] in
theorem norm_normalize (n : Number) (v : Bool) : Norm (normalize n (mapFor v)) := by
  refine ⟨act_digits (digitMap_mapFor v) _, ?_, ?_⟩
  · intro p hp
    simp only [normalize, Option.map_eq_some_iff] at hp
    obtain ⟨a, _, rfl⟩ := hp
    exact act_digits (digitMap_mapFor v) _
  · intro p hp
    simp only [normalize, Option.map_eq_some_iff] at hp
    obtain ⟨a, _, rfl⟩ := hp
    exact act_digits (digitMap_mapFor v) _

/-! ## Removing an IDD -/

/-- Removing an IDD from a digit string either changes nothing or drops a non-... prefix and marks the number. -/
theorem stripIdd_spec {ε : Type} (idd : Option Regex) (n : Number) :
    stripIdd idd n = (.ok n : Outcome ε Number) ∨
    ∃ pre rest re, idd = some re ∧ MatchesAt re.re [] n.national ∧ n.national = pre ++ rest ∧
      stripIdd idd n = (.ok { n with country := if n.country = .plus then .plus else .idd, national := rest } : Outcome ε Number) := by
  unfold stripIdd
  cases hf : idd.bind (·.find n.national) with
  | none => exact .inl rfl
  | some m =>
    simp only
    split
    · rename_i hs
      rw [Option.bind_eq_some_iff] at hf
      obtain ⟨re, hre, hm⟩ := hf
      have f := find_eq_some hm
      obtain ⟨h1, _, _, _⟩ := f.stop_eq
      rw [h1]
      simp only [Outcome.slice_some, Outcome.bind_ok]
      split
      · exact .inl rfl
      · right
        refine ⟨m.text, m.post, re, hre, ?_, ?_, ?_⟩
        · exact find_at_start_iff.1 ⟨m, hm, Match.start_eq_zero.1 hs⟩
        · rw [f.split, Match.start_eq_zero.1 hs]; rfl
        · simp [trim, h1]
    · exact .inl rfl

/-! ## `international_prefix` -/

/-- What `international_prefix` guarantees, for a number whose national part has no line break. -/
structure PrefixPost (idd : Option Regex) (n r : Number) : Prop where
  norm : Norm r
  suffix : ∃ k, r.national = (act (mapFor (Spec.vanity n.national)) n.national).drop k
  pref : r.pref = n.pref.map (act (mapFor (Spec.vanity n.national)))
  extension : r.extension = n.extension.map (act (mapFor (Spec.vanity n.national)))
  carrier : r.carrier = n.carrier
  country : r.country = .plus ∨ r.country = .idd ∨ r.country = .default
  withPref : n.pref.isSome → r.country = .plus ∧ r.national = act (mapFor (Spec.vanity n.national)) n.national
  default_whole : r.country = .default → r.national = act (mapFor (Spec.vanity n.national)) n.national
  plus_cause : r.country = .plus → n.pref.isSome ∨ ∃ c s, n.national = c :: s ∧ Spec.isPlus c = true
  idd_cause : r.country = .idd →
    ∃ re, idd = some re ∧ MatchesAt re.re [] (act (mapFor (Spec.vanity n.national)) n.national)
  plus_whole : r.country = .plus → (∀ re, idd = some re →
      ¬ MatchesAt re.re [] (act (mapFor (Spec.vanity n.national)) n.national)) →
    r.national = act (mapFor (Spec.vanity n.national)) n.national

omit [UnicodeTables] in
theorem normChar_plus {v : Bool} {c : Char} (h : Spec.isPlus c = true) : normChar (mapFor v) c = none := by
  rw [← plus_eq] at h
  simp only [Valid.plus, containsChar_iff, List.mem_cons, List.not_mem_nil, or_false] at h
  rcases h with rfl | rfl <;> cases v <;> decide

omit [UnicodeTables] in
theorem act_plus {v : Bool} {p s : Str} (h : ∀ c ∈ p, Spec.isPlus c = true) :
    act (mapFor v) (p ++ s) = act (mapFor v) s := by
  induction p with
  | nil => rfl
  | cons c p ih =>
    have h1 := normChar_plus (v := v) (h c (by simp))
    have ih := ih fun d hd => h d (by simp [hd])
    rw [act_eq_filterMap] at ih ⊢
    simpa [h1] using ih

omit [UnicodeTables] in
theorem drop_of_append {s a b : Str} (h : s = a ++ b) : b = s.drop a.length := by subst h; simp

theorem internationalPrefix_spec {ε : Type} (idd : Option Regex) (n : Number) (hn : '\n' ∉ n.national) :
    ∃ r, internationalPrefix idd n = (.ok r : Outcome ε Number) ∧ PrefixPost idd n r := by
  unfold internationalPrefix
  simp only [validAlphaPhone_iff hn]
  have hm : (if Spec.vanity n.national = true then Consts.alphaPhoneMappings else Consts.asciiMappings) =
      mapFor (Spec.vanity n.national) := rfl
  rw [hm]
  generalize hv : Spec.vanity n.national = v
  split
  · rename_i hp
    refine ⟨_, rfl, ?_⟩
    subst hv; constructor
    · exact norm_normalize _ _
    · exact ⟨0, rfl⟩
    · rfl
    · rfl
    · rfl
    · exact .inl rfl
    · exact fun _ => ⟨rfl, rfl⟩
    · exact fun _ => rfl
    · exact fun _ => .inl hp
    · intro h; cases h
    · exact fun _ _ => rfl
  · rename_i hp
    have hpref : n.pref = none := by
      cases h : n.pref with
      | none => rfl
      | some p => simp [h] at hp
    split
    · rename_i hstart
      have hplus : ∀ c ∈ n.national.takeWhile Valid.plus, Spec.isPlus c = true := by
        intro c hc; rw [← plus_eq]; exact takeWhile_all _ c hc
      have hsplit : n.national = n.national.takeWhile Valid.plus ++ n.national.dropWhile Valid.plus :=
        List.takeWhile_append_dropWhile.symm
      have hdrop : dropBytes n.national (byteLen (n.national.takeWhile Valid.plus)) = some (n.national.dropWhile Valid.plus) := by
        have := dropBytes_append (n.national.takeWhile Valid.plus) (n.national.dropWhile Valid.plus)
        rwa [← hsplit] at this
      have hact : act (mapFor v) (n.national.dropWhile Valid.plus) = act (mapFor v) n.national := by
        conv => rhs; rw [hsplit]
        rw [act_plus hplus]
      have hcause : ∃ c s, n.national = c :: s ∧ Spec.isPlus c = true := by
        cases ht : n.national.takeWhile Valid.plus with
        | nil => rw [ht] at hstart; simp at hstart
        | cons c s =>
          rw [ht] at hsplit hplus
          exact ⟨c, _, hsplit, hplus c (by simp)⟩
      simp only [trim, hdrop, Outcome.slice_some, Outcome.bind_ok]
      have base : PrefixPost idd n
          (normalize { n with country := .plus, national := n.national.dropWhile Valid.plus } (mapFor v)) := by
        subst hv; constructor
        · exact norm_normalize _ _
        · exact ⟨0, by simp [normalize, hact]⟩
        · rfl
        · rfl
        · rfl
        · exact .inl rfl
        · intro h; simp [hpref] at h
        · intro h; cases h
        · exact fun _ => .inr hcause
        · intro h; cases h
        · exact fun _ _ => hact
      split
      · exact ⟨_, rfl, base⟩
      · rcases stripIdd_spec (ε := ε) idd
          (normalize { n with country := .plus, national := n.national.dropWhile Valid.plus } (mapFor v)) with h | ⟨pre, rest, re, hre, hmat, hspl, h⟩
        · exact ⟨_, h, base⟩
        · refine ⟨_, h, ?_⟩
          have hspl' : act (mapFor v) n.national = pre ++ rest := by rw [← hact]; exact hspl
          have hnr : Digits rest := by
            have := base.norm.national
            rw [hspl] at this
            exact (digits_append.1 this).2
          subst hv; constructor
          · exact ⟨hnr, base.norm.pref, base.norm.extension⟩
          · exact ⟨pre.length, drop_of_append hspl'⟩
          · rfl
          · rfl
          · rfl
          · exact .inl rfl
          · intro h; simp [hpref] at h
          · intro h; simp [normalize] at h
          · exact fun _ => .inr hcause
          · intro h; simp [normalize] at h
          · intro _ hno
            refine absurd hmat ?_
            have := hno re hre
            rw [← hact] at this
            exact this
    · have base : PrefixPost idd n (normalize { n with country := .default } (mapFor v)) := by
        subst hv; constructor
        · exact norm_normalize _ _
        · exact ⟨0, rfl⟩
        · rfl
        · rfl
        · rfl
        · exact .inr (.inr rfl)
        · intro h; simp [hpref] at h
        · exact fun _ => rfl
        · intro h; cases h
        · intro h; cases h
        · intro h; cases h
      rcases stripIdd_spec (ε := ε) idd (normalize { n with country := .default } (mapFor v)) with h | ⟨pre, rest, re, hre, hmat, hspl, h⟩
      · exact ⟨_, h, base⟩
      · refine ⟨_, h, ?_⟩
        have hspl' : act (mapFor v) n.national = pre ++ rest := hspl
        have hnr : Digits rest := by
          have := base.norm.national
          rw [hspl] at this
          exact (digits_append.1 this).2
        subst hv; constructor
        · exact ⟨hnr, base.norm.pref, base.norm.extension⟩
        · exact ⟨pre.length, drop_of_append hspl'⟩
        · rfl
        · rfl
        · rfl
        · exact .inr (.inl rfl)
        · intro h; simp [hpref] at h
        · intro h; simp [normalize] at h
        · intro h; simp [normalize] at h
        · exact fun _ => ⟨re, hre, hmat⟩
        · intro h; simp [normalize] at h

/-- C15: `international_prefix` turns the national part and the extension into digits, reading letters as keypad digits exactly
if the national part has at least three of them; the national part is kept whole unless a dialling prefix is at its start. -/
theorem C15_keypad {ε : Type} (idd : Option Regex) (n r : Number) (hn : '\n' ∉ n.national)
    (h : internationalPrefix idd n = (.ok r : Outcome ε Number)) :
    ∃ ds k, Spec.Digitised (Spec.vanity n.national) n.national ds ∧ r.national = ds.drop k ∧
      (n.pref.isSome ∨ (∀ re m, idd = some re → re.find ds = some m → m.start ≠ 0) → k = 0) ∧
      ∀ e, n.extension = some e → ∃ es, r.extension = some es ∧ Spec.Digitised (Spec.vanity n.national) e es := by
  obtain ⟨r', hr, post⟩ := internationalPrefix_spec (ε := ε) idd n hn
  rw [hr] at h
  cases h
  have hext : ∀ e, n.extension = some e → ∃ es, r.extension = some es ∧ Spec.Digitised (Spec.vanity n.national) e es := by
    intro e he
    exact ⟨_, by rw [post.extension, he]; rfl, act_iff_digitised.1 rfl⟩
  obtain ⟨k, hk⟩ := post.suffix
  by_cases hw : r.national = act (mapFor (Spec.vanity n.national)) n.national
  · exact ⟨_, 0, act_iff_digitised.1 rfl, by rw [hw]; rfl, fun _ => rfl, hext⟩
  · refine ⟨_, k, act_iff_digitised.1 rfl, hk, ?_, hext⟩
    intro hcond
    exfalso
    rcases hcond with hp | hno
    · exact hw (post.withPref hp).2
    · have hno' : ∀ re, idd = some re → ¬ MatchesAt re.re [] (act (mapFor (Spec.vanity n.national)) n.national) := by
        intro re hre hm
        obtain ⟨m, hm, h0⟩ := find_at_start_iff.2 hm
        exact hno re m hre hm (Match.start_eq_zero.2 h0)
      rcases post.country with hc | hc | hc
      · exact hw (post.plus_whole hc hno')
      · obtain ⟨re, hre, hm⟩ := post.idd_cause hc
        exact hno' re hre hm
      · exact hw (post.default_whole hc)

/-- Three letters are read as keypad digits, two are dropped. -/
example : internationalPrefix (ε := ParseErr) none { national := str% "+1 800-FLO ٣", extension := some (str% "b4") } =
      .ok { national := str% "18003563", country := .plus, extension := some (str% "24") } ∧
    internationalPrefix (ε := ParseErr) none { national := str% "1 800-FL9" } = .ok { national := str% "18009" } := by
  constructor <;> kernel_rfl

/-! ## `country_code` -/

omit [UnicodeTables] in
/-- The loop over calling code lengths takes the first length whose value is a known code. -/
theorem codeLoop_spec (db : Database) (n : Number) (hd : Digits n.national) (lens : List Nat)
    (hl : ∀ l ∈ lens, 0 < l ∧ l ≤ 3 ∧ l ≤ n.national.length) :
    (codeLoop db n lens = .err .invalidCountryCode ∧ ∀ l ∈ lens, db.byCode (decVal (n.national.take l)) = none) ∨
    ∃ before len after, lens = before ++ len :: after ∧
      (∀ l ∈ before, db.byCode (decVal (n.national.take l)) = none) ∧
      (db.byCode (decVal (n.national.take len))).isSome ∧
      codeLoop db n lens = .ok { n with national := n.national.drop len, pref := some (decStr (decVal (n.national.take len))) } := by
  induction lens with
  | nil => left; simp [codeLoop]
  | cons l lens ih =>
    obtain ⟨h0, h3, hlen⟩ := hl l (by simp)
    have htake : takeBytes n.national l = some (n.national.take l) := hd.takeBytes hlen
    have hdt : Digits (n.national.take l) := hd.take l
    have hne : n.national.take l ≠ [] := by
      intro h
      have := congrArg List.length h
      simp at this
      rcases this with h | h
      · omega
      · simp [h] at hlen; omega
    have hlt : decVal (n.national.take l) < u16Bound := by
      have h1 := decVal_lt hdt
      have h2 : (n.national.take l).length ≤ 3 := by simp; omega
      have h4 : 10 ^ (n.national.take l).length ≤ 10 ^ 3 := Nat.pow_le_pow_right (by omega) h2
      unfold u16Bound; omega
    have hparse : parseUInt u16Bound (n.national.take l) = some (decVal (n.national.take l)) := by
      rw [parseUInt_digits hdt hne, if_pos hlt]
    unfold codeLoop
    simp only [htake, Outcome.slice_some, Outcome.bind_ok, hparse, Outcome.unwrap_some]
    cases hb : db.byCode (decVal (n.national.take l)) with
    | some mds =>
      right
      refine ⟨[], l, lens, rfl, by simp, by simp [hb], ?_⟩
      simp [trim, hd.dropBytes hlen]
    | none =>
      simp only [Option.isSome_none, Bool.false_eq_true, if_false]
      rcases ih (fun l' hl' => hl l' (by simp [hl'])) with ⟨h1, h2⟩ | ⟨before, len, after, rfl, h2, h3, h4⟩
      · left
        refine ⟨h1, ?_⟩
        intro l' hl'
        simp only [List.mem_cons] at hl'
        rcases hl' with rfl | hl'
        · exact hb
        · exact h2 l' hl'
      · right
        refine ⟨l :: before, len, after, rfl, ?_, h3, h4⟩
        intro l' hl'
        simp only [List.mem_cons] at hl'
        rcases hl' with rfl | hl'
        · exact hb
        · exact h2 l' hl'

/-- What `country_code` guarantees about its result `r` for input `n`. -/
structure CodePost (db : Database) (country : Option Id) (n r : Number) : Prop where
  norm : Norm r
  suffix : ∃ k, r.national = (act (mapFor (Spec.vanity n.national)) n.national).drop k
  extension : r.extension = n.extension.map (act (mapFor (Spec.vanity n.national)))
  carrier : r.carrier = n.carrier
  withPref : n.pref.isSome → r.country = .plus
  keepPref : n.pref.isSome → r.pref = n.pref.map (act (mapFor (Spec.vanity n.national)))
  plus_cause : r.country = .plus → n.pref.isSome ∨ ∃ c s, n.national = c :: s ∧ Spec.isPlus c = true
  /-- a calling code read from the number is known -/
  intl : (r.country = .plus ∨ r.country = .idd) →
    ∃ p code, r.pref = some p ∧ parseUInt u16Bound p = some code ∧ (db.byCode code).isSome
  /-- otherwise it is the reference country's -/
  natl : (r.country = .number ∨ r.country = .default) →
    ∃ c md, country = some c ∧ db.byId c.asRef = some md ∧ r.pref = some (decStr md.countryCode)

/-- The dialling prefix pattern used with a reference country. -/
def iddFor (db : Database) (country : Option Id) : Option Regex :=
  ((country.bind fun c => db.byId c.asRef).bind (·.internationalPrefix)).or
    (if country.isNone then some Consts.defaultIdd else none)

/-- What an error of `country_code` means. -/
structure CodeErr (db : Database) (country : Option Id) (n : Number) (e : ParseErr) : Prop where
  kind : e = .tooShortNsn ∨ (∃ k, e = .malformedInteger k) ∨ e = .invalidCountryCode
  malformed : ∀ k, e = .malformedInteger k → n.pref.isSome ∧ k ≠ .invalidDigit
  /-- a nationally written number with a reference country never has an invalid country code -/
  invalid : (∀ k, e ≠ .malformedInteger k) → e = .tooShortNsn ∨ country = none ∨ n.pref.isSome ∨
    (∃ c s, n.national = c :: s ∧ Spec.isPlus c = true) ∨
    ∃ re, iddFor db country = some re ∧ MatchesAt re.re [] (act (mapFor (Spec.vanity n.national)) n.national)
  intl : e = .tooShortNsn → n.pref.isSome ∨ (∃ c s, n.national = c :: s ∧ Spec.isPlus c = true) ∨
    ∃ re, iddFor db country = some re ∧ MatchesAt re.re [] (act (mapFor (Spec.vanity n.national)) n.national)

theorem countryCode_spec (db : Database) (country : Option Id) (n : Number) (hn : '\n' ∉ n.national) :
    (countryCode db country n = .panic .unwrap ∧ ∃ c, country = some c ∧ db.byId c.asRef = none) ∨
    (∃ e, countryCode db country n = .err e ∧ CodeErr db country n e) ∨
    ∃ r, countryCode db country n = .ok r ∧ CodePost db country n r := by
  unfold countryCode
  obtain ⟨r, hr, post⟩ := internationalPrefix_spec (ε := ParseErr) (iddFor db country) n hn
  simp only [iddFor] at hr
  simp only [hr, Outcome.bind_ok]
  clear hr
  have intl : r.country = .plus ∨ r.country = .idd →
      let o := (if byteLen r.national ≤ Consts.minLengthForNsn then .err .tooShortNsn
        else match r.pref with
          | some p => do
            let code ← Outcome.okOr (.malformedInteger (intErr u16Bound p)) (parseUInt u16Bound p)
            if (db.byCode code).isNone = true then .err .invalidCountryCode else .ok r
          | none =>
            if startsWith r.national ['0'] = true then .err .invalidCountryCode
            else codeLoop db r ((List.range Consts.maxLengthForCountryCode).map (· + 1)) : Outcome ParseErr Number)
      (∃ e, o = .err e ∧ CodeErr db country n e) ∨
      ∃ r, o = .ok r ∧ CodePost db country n r := by
    intro hcountry
    have cause : n.pref.isSome ∨ (∃ c s, n.national = c :: s ∧ Spec.isPlus c = true) ∨
        ∃ re, iddFor db country = some re ∧ MatchesAt re.re [] (act (mapFor (Spec.vanity n.national)) n.national) := by
      rcases hcountry with h | h
      · rcases post.plus_cause h with h | h
        · exact .inl h
        · exact .inr (.inl h)
      · exact .inr (.inr (post.idd_cause h))
    have e1 : CodeErr db country n .tooShortNsn := ⟨.inl rfl, by simp, fun _ => .inl rfl, fun _ => cause⟩
    have e2 : CodeErr db country n .invalidCountryCode := ⟨.inr (.inr rfl), by simp, fun _ => .inr (.inr cause), by simp⟩
    simp only
    split
    · exact .inl ⟨_, rfl, e1⟩
    · rename_i hlen
      cases hp : r.pref with
      | some p =>
        simp only
        cases hu : parseUInt u16Bound p with
        | none =>
          refine .inl ⟨_, rfl, .inr (.inl ⟨_, rfl⟩), fun k hk => ⟨?_, ?_⟩, by simp, by simp⟩
          rotate_left
          · cases hk
            rcases intErr_digits (by decide) (post.norm.pref p hp) hu with ⟨_, h⟩ | ⟨_, _, h⟩ <;> rw [h] <;> simp
          cases hpn : n.pref with
          | none => rw [post.pref, hpn] at hp; cases hp
          | some p => rfl
        | some code =>
          simp only [Outcome.okOr_some, Outcome.bind_ok]
          cases hb : db.byCode code with
          | none => exact .inl ⟨_, rfl, e2⟩
          | some mds =>
            right
            refine ⟨r, rfl, ⟨post.norm, post.suffix, post.extension, post.carrier, fun h => (post.withPref h).1, fun _ => post.pref, post.plus_cause,
              fun _ => ⟨p, code, hp, hu, by simp [hb]⟩, ?_⟩⟩
            rintro (h | h) <;> rcases hcountry with h' | h' <;> rw [h] at h' <;> cases h'
      | none =>
        simp only
        split
        · exact .inl ⟨_, rfl, e2⟩
        · have hlens : (List.range Consts.maxLengthForCountryCode).map (· + 1) = [1, 2, 3] := by decide
          have hlen3 : 3 ≤ r.national.length := by
            rw [post.norm.national.byteLen] at hlen
            unfold Consts.minLengthForNsn at hlen; omega
          rw [hlens]
          rcases codeLoop_spec db r post.norm.national [1, 2, 3]
            (by intro l hl; simp at hl; omega) with ⟨h1, _⟩ | ⟨before, len, after, hl, _, h2, h3⟩
          · exact .inl ⟨_, h1, e2⟩
          · right
            refine ⟨_, h3, ?_⟩
            constructor
            · exact ⟨post.norm.national.drop len, by intro p hp; cases hp; exact digits_decStr _, post.norm.extension⟩
            · obtain ⟨k, hk⟩ := post.suffix
              exact ⟨k + len, by rw [hk]; simp [Nat.add_comm]⟩
            · exact post.extension
            · exact post.carrier
            · exact fun h => (post.withPref h).1
            · intro h
              rw [post.pref, Option.map_eq_none_iff] at hp
              rw [hp] at h; cases h
            · exact post.plus_cause
            · intro _
              refine ⟨_, _, rfl, parseUInt_decStr ?_, h2⟩
              have hmem : len ∈ [1, 2, 3] := by rw [hl]; simp
              have h5 := decVal_lt (post.norm.national.take len)
              have h6 : (r.national.take len).length ≤ 3 := by simp at hmem; simp; omega
              have h4 : 10 ^ (r.national.take len).length ≤ 10 ^ 3 := Nat.pow_le_pow_right (by omega) h6
              unfold u16Bound; omega
            · rintro (h | h) <;> rcases hcountry with h' | h' <;> (simp only at h; rw [h] at h'; cases h')
  rcases post.country with h | h | h
  · simp only [h]; exact .inr (intl (.inl h))
  · simp only [h]; exact .inr (intl (.inr h))
  · simp only [h]
    clear intl
    cases hco : country with
    | none => exact .inr (.inl ⟨_, rfl, .inr (.inr rfl), by simp, fun _ => .inr (.inl rfl), by simp⟩)
    | some c =>
      cases hmd : db.byId c.asRef with
      | none => exact .inl ⟨by simp [hmd], c, rfl, hmd⟩
      | some md =>
      right; right
      simp only [hmd, Outcome.unwrap_some, Outcome.bind_ok]
      split
      · rename_i hs
        rw [Bool.and_eq_true] at hs
        obtain ⟨rest, hrest⟩ := startsWith_iff.1 hs.1
        have hd : dropBytes r.national (byteLen (decStr md.countryCode)) = some rest := by rw [hrest]; simp
        simp only [trim, hd, Outcome.slice_some, Outcome.bind_ok]
        refine ⟨_, rfl, ?_⟩
        constructor
        · refine ⟨?_, by intro p hp; cases hp; exact digits_decStr _, post.norm.extension⟩
          have := post.norm.national
          rw [hrest] at this
          exact (digits_append.1 this).2
        · obtain ⟨k, hk⟩ := post.suffix
          refine ⟨k + (decStr md.countryCode).length, ?_⟩
          have := drop_of_append hrest
          rw [this, hk]; simp
        · exact post.extension
        · exact post.carrier
        · intro hp; rw [(post.withPref hp).1] at h; cases h
        · intro hp; rw [(post.withPref hp).1] at h; cases h
        · intro h; cases h
        · rintro (h | h) <;> cases h
        · exact fun _ => ⟨c, md, rfl, hmd, rfl⟩
      · refine ⟨_, rfl, ?_⟩
        constructor
        · exact ⟨post.norm.national, by intro p hp; cases hp; exact digits_decStr _, post.norm.extension⟩
        · exact post.suffix
        · exact post.extension
        · exact post.carrier
        · intro hp; rw [(post.withPref hp).1] at h; cases h
        · intro hp; rw [(post.withPref hp).1] at h; cases h
        · intro h; cases h
        · rintro (h' | h') <;> cases h'
        · exact fun _ => ⟨c, md, rfl, hmd, rfl⟩

end Phone
