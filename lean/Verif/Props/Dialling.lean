import Verif.Props.ParseText
import Verif.Props.NationalPrefix
import Verif.Spec.Dialling
/-! # C61: international dialling prefixes -/

namespace Phone
open Helper

variable [UnicodeTables]

/-! ## The stages after the calling code do not depend on where it comes from -/

omit [UnicodeTables] in
theorem Outcome.bind_congr {ε α β : Type} {x : Outcome ε α} {f g : α → Outcome ε β} (h : ∀ a, f a = g a) : x >>= f = x >>= g := by
  rw [funext h]

/-- A number with another source. -/
def Number.from (s : Source) (n : Number) : Number := { n with country := s }

omit [UnicodeTables] in
theorem codeLoop_from (s : Source) (db : Database) (n : Number) (lens : List Nat) :
    codeLoop db (n.from s) lens = codeLoop db n lens >>= fun r => .ok (r.from s) := by
  induction lens with
  | nil => rfl
  | cons l lens ih =>
    simp only [codeLoop, Outcome.bind_assoc]
    refine Outcome.bind_congr fun pre => ?_
    refine Outcome.bind_congr fun code => ?_
    split
    · simp only [Outcome.bind_assoc]; rfl
    · exact ih

theorem stripNational_from (s : Source) (md : Option Metadata) (n : Number) :
    stripNational md (n.from s) = stripNational md n >>= fun r => .ok (r.from s) := stripNational_source md n s

omit [UnicodeTables] in
theorem finishParse_from (s : Source) (n : Number) :
    finishParse (n.from s) = finishParse n >>= fun p => .ok (Spec.withSource s p) := by
  unfold finishParse
  rw [show prefixCode (n.from s) = prefixCode n from rfl, show (n.from s).national = n.national from rfl]
  split
  · rfl
  · split
    · rfl
    · simp only [Outcome.bind_assoc, Outcome.pure_eq]; rfl

/-- The stages after the source of the calling code has been found, for an international number. -/
def afterSource (db : Database) (n : Number) : Outcome ParseErr PhoneNumber :=
  (if byteLen n.national ≤ Consts.minLengthForNsn then .err .tooShortNsn
    else if startsWith n.national ['0'] then .err .invalidCountryCode
    else codeLoop db n ((List.range Consts.maxLengthForCountryCode).map (· + 1))) >>= fun n =>
    (prefixCode n >>= fun code => sourceFor db code (n.national.dropWhile (· == '0')) >>= fun src =>
      pure (src.bind (sourceMeta db))) >>= fun md => stripNational md n >>= finishParse

theorem afterSource_from (db : Database) (s : Source) (n : Number) :
    afterSource db (n.from s) = afterSource db n >>= fun p => .ok (Spec.withSource s p) := by
  unfold afterSource
  rw [show (n.from s).national = n.national from rfl]
  split
  · rfl
  · split
    · rfl
    · simp only [codeLoop_from, Outcome.bind_assoc, Outcome.bind_ok]
      refine Outcome.bind_congr fun r => ?_
      rw [show prefixCode (r.from s) = prefixCode r from rfl, show (r.from s).national = r.national from rfl]
      refine Outcome.bind_congr fun code => ?_
      refine Outcome.bind_congr fun src => ?_
      simp only [Outcome.pure_eq, Outcome.bind_ok, stripNational_from, Outcome.bind_assoc, finishParse_from]

omit [UnicodeTables] in
theorem codeLoop_guard {db : Database} {r n : Number}
    (h : (if byteLen r.national ≤ Consts.minLengthForNsn then .err .tooShortNsn
      else if startsWith r.national ['0'] then .err .invalidCountryCode
      else codeLoop db r ((List.range Consts.maxLengthForCountryCode).map (· + 1)) : Outcome ParseErr Number) = .ok n) :
    n.country = r.country := by
  split at h
  · cases h
  · split at h
    · cases h
    · exact codeLoop_country h

omit [UnicodeTables] in
theorem afterRead_congr (X : Outcome ParseErr Number) (f g : Number → Outcome ParseErr (Option Metadata))
    (k : Option Metadata → Number → Outcome ParseErr PhoneNumber) (h : ∀ n, X = .ok n → f n = g n) :
    (X >>= fun n => f n >>= fun md => k md n) = X >>= fun n => g n >>= fun md => k md n := by
  cases X with
  | err e => rfl
  | panic e => rfl
  | ok n => simp only [Outcome.bind_ok, h n rfl]

/-- How an international number without a separate prefix continues. -/
theorem afterRead_international (db : Database) (country : Option Id) (n r : Number) (hv : isViable n.national = true)
    (hi : internationalPrefix (iddFor db country) n = (.ok r : Outcome ParseErr Number)) (hr : r.country = .plus ∨ r.country = .idd)
    (hp : r.pref = none) : afterRead db country n = afterSource db r := by
  unfold afterRead afterSource
  simp only [hv, Bool.not_true, Bool.false_eq_true, if_false]
  unfold countryCode
  simp only [iddFor] at hi
  simp only [hi, Outcome.bind_ok, hp]
  clear hi
  obtain ⟨c, nat, p, e, k⟩ := r
  simp only at hr hp ⊢
  subst hp
  have key : ∀ c, c = .plus ∨ c = .idd → ∀ n', (n' : Number).country = c →
      parseMeta db country n' = (prefixCode n' >>= fun code => sourceFor db code (n'.national.dropWhile (· == '0')) >>= fun src =>
        pure (src.bind (sourceMeta db))) := by
    intro c hc n' hn
    unfold parseMeta
    rcases hc with h | h <;> rw [hn, h] <;> cases country <;> rfl
  rcases hr with rfl | rfl <;> simp only [] <;>
    refine afterRead_congr _ _ _ (fun md n => stripNational md n >>= finishParse) fun n' h => ?_
  · exact key _ (.inl rfl) n' (codeLoop_guard (r := ⟨.plus, nat, none, e, k⟩) h)
  · exact key _ (.inr rfl) n' (codeLoop_guard (r := ⟨.idd, nat, none, e, k⟩) h)

/-! ## Removing the prefix -/

theorem dialled_find {db : Database} {country : Option Id} {ds rest : Str} (h : Spec.Dialled db country ds rest) :
    ∃ re m, iddFor db country = some re ∧ re.find ds = some m ∧ m.pre = [] ∧ m.post = rest := by
  cases country with
  | none =>
    simp only [Spec.Dialled] at h
    have hl : MatchesAt Consts.defaultIdd.re [] ds := by
      refine ⟨['0', '0'], rest, by simp [h], ?_⟩
      exact lang_cat.2 ⟨['0'], ['0'], rfl, lang_chr.2 rfl, lang_chr.2 rfl⟩
    obtain ⟨m, hm, hp⟩ := find_at_start_iff.2 hl
    have f := find_eq_some hm
    refine ⟨_, m, by simp [iddFor], hm, hp, ?_⟩
    obtain ⟨u, v, ht, hu, hv⟩ := lang_cat.1 f.lang
    rw [lang_chr.1 hu, lang_chr.1 hv] at ht
    have := f.split
    rw [hp, ht, h] at this
    simpa using this.symm
  | some c =>
    obtain ⟨md, re, m, h1, h2, h3, h4, h5⟩ := h
    exact ⟨re, m, by simp [iddFor, h1, h2], h3, h4, h5⟩

theorem stripIdd_dialled {ε : Type} {db : Database} {country : Option Id} {ds rest : Str} (h : Spec.Dialled db country ds rest)
    (s : Source) : stripIdd (ε := ε) (iddFor db country) { national := ds, country := s } =
      .ok (if ['0'] <+: rest then { national := ds, country := s }
        else { national := rest, country := if s = .plus then .plus else .idd }) := by
  obtain ⟨re, m, h1, h2, h3, h4⟩ := dialled_find h
  have f := find_eq_some h2
  obtain ⟨e1, e2, _, _⟩ := f.stop_eq
  have hs : m.start = 0 := Match.start_eq_zero.2 h3
  have hdrop : dropBytes ds m.stop = some rest := by rw [← h4]; exact e1
  unfold stripIdd
  simp only [h1, Option.bind_some, h2, hs, if_true, hdrop, Outcome.slice_some, Outcome.bind_ok, trim]
  by_cases h0 : ['0'] <+: rest
  · rw [if_pos h0, if_pos (startsWith_iff.2 (by obtain ⟨t, ht⟩ := h0; exact ⟨t, ht.symm⟩))]
  · rw [if_neg h0, if_neg]
    intro hh
    obtain ⟨t, ht⟩ := startsWith_iff.1 hh
    exact h0 ⟨t, ht.symm⟩

theorem dialled_begins {db : Database} {country : Option Id} {ds rest : Str} (h : Spec.Dialled db country ds rest) :
    ((iddFor db country).map fun re => matchesAtStart re ds).getD false = true := by
  obtain ⟨re, m, h1, h2, h3, _⟩ := dialled_find h
  simp only [h1, Option.map_some, Option.getD_some]
  exact matchesAtStart_iff.2 ⟨m, h2, Match.start_eq_zero.2 h3⟩

omit [UnicodeTables] in
theorem viable_digits {ds : Str} (hd : Digits ds) (h2 : 2 ≤ ds.length) : isViable ds = true := by
  have hplain : ∀ c ∈ ds, c ∈ plainChars ∧ c ≠ '+' := plain_iff.1 fun c hc => .inl (hd c hc)
  by_cases h3 : 3 ≤ ds.length
  · have := viable_plain (pl := []) (x := ds) (.inl rfl) hplain (by rw [filter_digits hd]; exact h3)
    simpa using this
  · rw [C14_isViable_iff]
    match ds, hd, (show ds.length = 2 by omega) with
    | [a, b], hd, _ => exact .inl ⟨a, b, rfl, by simp at hd; exact hd⟩

omit [UnicodeTables] in
theorem viable_plus_digits {ds : Str} (hd : Digits ds) (h3 : 3 ≤ ds.length) : isViable ('+' :: ds) = true := by
  have hplain : ∀ c ∈ ds, c ∈ plainChars ∧ c ≠ '+' := plain_iff.1 fun c hc => .inl (hd c hc)
  have := viable_plain (pl := ['+']) (x := ds) (.inr rfl) hplain (by rw [filter_digits hd]; exact h3)
  simpa using this

theorem internationalPrefix_dialled {ε : Type} {db : Database} {country : Option Id} {ds rest : Str} (hd : Digits ds)
    (h : Spec.Dialled db country ds rest) : internationalPrefix (ε := ε) (iddFor db country) { national := ds } =
      .ok (if ['0'] <+: rest then { national := ds, country := .default } else { national := rest, country := .idd }) := by
  have hplain : ∀ c ∈ ds, c ∈ plainChars ∧ c ≠ '+' := plain_iff.1 fun c hc => .inl (hd c hc)
  have hpre := internationalPrefix_plain (ε := ε) (iddFor db country) (pl := []) (x := ds) (.inl rfl) hplain
  simp only [List.nil_append, if_true, filter_digits hd] at hpre
  rw [hpre, stripIdd_dialled h]
  rfl

theorem internationalPrefix_plus_dialled {ε : Type} {db : Database} {country : Option Id} {ds rest : Str} (hd : Digits ds)
    (h : Spec.Dialled db country ds rest) : internationalPrefix (ε := ε) (iddFor db country) { national := '+' :: ds } =
      .ok (if ['0'] <+: rest then { national := ds, country := .plus } else { national := rest, country := .plus }) := by
  have hplain : ∀ c ∈ ds, c ∈ plainChars ∧ c ≠ '+' := plain_iff.1 fun c hc => .inl (hd c hc)
  have hpre := internationalPrefix_plain (ε := ε) (iddFor db country) (pl := ['+']) (x := ds) (.inr rfl) hplain
  simp only [List.cons_append, List.nil_append, filter_digits hd] at hpre
  rw [hpre, if_neg (by simp), dialled_begins h, if_neg (by simp), stripIdd_dialled h]
  rfl

omit [UnicodeTables] in
theorem parseWith_digits [UnicodeTables] (db : Database) (country : Option Id) {ds : Str} (hd : Digits ds) (hne : ds ≠ []) :
    parseWith db country ds = afterRead db country { national := ds } := by
  rw [parseWith_eq, readNumber_of_digits hd hne]; rfl

theorem parseWith_plus_digits (db : Database) (country : Option Id) {ds : Str} (hd : Digits ds) (hne : ds ≠ []) :
    parseWith db country ('+' :: ds) = afterRead db country { national := '+' :: ds } := by
  rw [parseWith_eq, readNumber_of_plus_digits hd hne]; rfl

theorem dialled_digits {db : Database} {country : Option Id} {ds rest : Str} (hd : Digits ds) (h : Spec.Dialled db country ds rest) :
    Digits rest ∧ rest.length ≤ ds.length := by
  obtain ⟨re, m, _, h2, _, h4⟩ := dialled_find h
  have f := find_eq_some h2
  have := f.split
  rw [h4] at this
  constructor
  · intro c hc; exact hd c (by rw [this]; simp [hc])
  · rw [this]; simp only [List.length_append]; omega

omit [UnicodeTables] in
theorem digits_of_trim {ε : Type} {ds t : Str} {k : Nat} (hd : Digits ds) (h : trim ds k = (.ok t : Outcome ε Str)) : Digits t := by
  obtain ⟨p, rfl, _⟩ := dropBytes_eq_some (Outcome.slice_eq_ok.1 h)
  exact fun c hc => hd c (List.mem_append.2 (.inr hc))

/-! ## C61 -/

/-- C61: digits that begin with the international dialling prefix of the reference country (00 without one) are read like the digits
after it written with a plus, except that the calling code is reported to come from a dialling prefix. There must be at least three
digits after the prefix; they must not start with 0 or with the dialling prefix again. -/
theorem C61_dialled (db : Database) (country : Option Id) (ds rest : Str) (hd : ∀ c ∈ ds, isDigit c = true)
    (h : Spec.Dialled db country ds rest) (h0 : ¬ ['0'] <+: rest) (hidd : ¬ Spec.BeginsWithIdd db country rest) (h3 : 3 ≤ rest.length) :
    parseWith db country ds = parseWith db country ('+' :: rest) >>= fun p => .ok (Spec.withSource .idd p) := by
  obtain ⟨hdr, hle⟩ := dialled_digits hd h
  have hne : ds ≠ [] := by rintro rfl; simp at hle; simp [hle] at h3
  have hner : rest ≠ [] := by rintro rfl; simp at h3
  rw [parseWith_digits db country hd hne, parseWith_plus_digits db country hdr hner]
  have e1 := internationalPrefix_dialled (ε := ParseErr) hd h
  rw [if_neg h0] at e1
  rw [afterRead_international db country _ _ (show isViable ds = true from viable_digits hd (by omega)) e1 (.inr rfl) rfl,
    afterRead_international db country _ _ (show isViable ('+' :: rest) = true from viable_plus_digits hdr h3) (internationalPrefix_plus_digits db country hdr hidd) (.inl rfl) rfl]
  exact afterSource_from db .idd { national := rest, country := .plus }

/-- C61: a dialling prefix after a plus is skipped. -/
theorem C61_plus_dialled (db : Database) (country : Option Id) (ds rest : Str) (hd : ∀ c ∈ ds, isDigit c = true)
    (h : Spec.Dialled db country ds rest) (h0 : ¬ ['0'] <+: rest) (hidd : ¬ Spec.BeginsWithIdd db country rest) (h3 : 3 ≤ rest.length) :
    parseWith db country ('+' :: ds) = parseWith db country ('+' :: rest) := by
  obtain ⟨hdr, hle⟩ := dialled_digits hd h
  have hne : ds ≠ [] := by rintro rfl; simp at hle; simp [hle] at h3
  have hner : rest ≠ [] := by rintro rfl; simp at h3
  rw [parseWith_plus_digits db country hd hne, parseWith_plus_digits db country hdr hner]
  have e1 := internationalPrefix_plus_dialled (ε := ParseErr) hd h
  rw [if_neg h0] at e1
  rw [afterRead_international db country _ _ (show isViable ('+' :: ds) = true from viable_plus_digits hd (by omega)) e1 (.inl rfl) rfl,
    afterRead_international db country _ _ (show isViable ('+' :: rest) = true from viable_plus_digits hdr h3) (internationalPrefix_plus_digits db country hdr hidd) (.inl rfl) rfl]

/-- C61: fewer than three digits after a dialling prefix are too few, whether or not a plus precedes it. -/
theorem C61_too_short (db : Database) (country : Option Id) (ds rest : Str) (hd : ∀ c ∈ ds, isDigit c = true)
    (h : Spec.Dialled db country ds rest) (h0 : ¬ ['0'] <+: rest) (h2 : rest.length ≤ 2) :
    (2 ≤ ds.length → parseWith db country ds = .err .tooShortNsn) ∧
    (3 ≤ ds.length → parseWith db country ('+' :: ds) = .err .tooShortNsn) := by
  obtain ⟨hdr, hle⟩ := dialled_digits hd h
  have key : ∀ s, afterSource db { national := rest, country := s } = .err .tooShortNsn := by
    intro s
    unfold afterSource
    rw [if_pos]
    · rfl
    · simp only [Digits.byteLen hdr, Consts.minLengthForNsn]; exact h2
  constructor
  · intro hl
    have hne : ds ≠ [] := by rintro rfl; simp at hl
    have e1 := internationalPrefix_dialled (ε := ParseErr) hd h
    rw [if_neg h0] at e1
    rw [parseWith_digits db country hd hne, afterRead_international db country _ _ (show isViable ds = true from viable_digits hd hl) e1 (.inr rfl) rfl, key]
  · intro hl
    have hne : ds ≠ [] := by rintro rfl; simp at hl
    have e1 := internationalPrefix_plus_dialled (ε := ParseErr) hd h
    rw [if_neg h0] at e1
    rw [parseWith_plus_digits db country hd hne, afterRead_international db country _ _ (show isViable ('+' :: ds) = true from viable_plus_digits hd hl) e1 (.inl rfl) rfl, key]

/-- C61: if a 0 follows the dialling prefix, it is not taken for one: without reference country the digits are rejected, with one they
are read as a national number. -/
theorem C61_zero_after (db : Database) (country : Option Id) (ds rest : Str) (hd : ∀ c ∈ ds, isDigit c = true)
    (h : Spec.Dialled db country ds rest) (h0 : ['0'] <+: rest) (h2 : 2 ≤ ds.length) :
    (country = none → parseWith db country ds = .err .invalidCountryCode) ∧
    ∀ p, parseWith db country ds = .ok p → p.code.source = .default ∨ p.code.source = .number := by
  have hne : ds ≠ [] := by rintro rfl; simp at h2
  have e1 := internationalPrefix_dialled (ε := ParseErr) hd h
  rw [if_pos h0] at e1
  simp only [iddFor] at e1
  rw [parseWith_digits db country hd hne]
  unfold afterRead
  simp only [viable_digits hd h2, Bool.not_true, Bool.false_eq_true, if_false]
  unfold countryCode
  simp only [e1, Outcome.bind_ok]
  constructor
  · rintro rfl; rfl
  · intro p hp
    cases country with
    | none => cases hp
    | some c =>
      simp only [Outcome.bind_eq_ok] at hp
      obtain ⟨r, ⟨md, _, hr⟩, mt, _, q, hq, hf⟩ := hp
      have hp' : p.code.source = q.country := (finishParse_ok hf).2.2.2.1
      rw [hp']
      split at hr
      · simp only [Outcome.bind_eq_ok] at hr
        obtain ⟨nat, hnat, hr⟩ := hr
        cases hr
        exact .inr ((stripNational_ok (digits_of_trim hd hnat) rfl hq).1)
      · cases hr
        refine .inl ((stripNational_ok ?_ rfl hq).1)
        exact hd

/-- The hypotheses are met: in the sample data the United States dial 011 and, without a country, the prefix is 00. -/
example : Spec.Dialled Sample.db (some .US) (str% "011442071838750") (str% "442071838750") ∧
    ¬ Spec.BeginsWithIdd Sample.db (some .US) (str% "442071838750") ∧
    Spec.Dialled Sample.db none (str% "00442071838750") (str% "442071838750") ∧
    ¬ ['0'] <+: (str% "442071838750") ∧ 3 ≤ (str% "442071838750").length := by
  refine ⟨⟨(Sample.db.byId (str% "US")).get (by kernel_rfl),
    ((Sample.db.byId (str% "US")).get (by kernel_rfl)).internationalPrefix.get (by kernel_rfl),
    ((((Sample.db.byId (str% "US")).get (by kernel_rfl)).internationalPrefix.get (by kernel_rfl)).find (str% "011442071838750")).get (by kernel_rfl),
    by kernel_rfl, by kernel_rfl, by kernel_rfl, by kernel_rfl, by kernel_rfl⟩, ?_, rfl, by decide, by decide⟩
  rintro ⟨md, re, m, h1, h2, h3, h4⟩
  have : ((Sample.db.byId (Id.asRef .US)).bind (·.internationalPrefix)).map (fun re => matchesAtStart re (str% "442071838750")) =
      some false := by kernel_rfl
  rw [h1] at this
  simp [h2, matchesAtStart, h3, h4] at this

/-- What that gives: the Finnish prefix 990, and the same digits after a plus. -/
example : parseWith Sample.db (some .FI) (str% "99016502530000") =
      .ok { code := ⟨1, .idd⟩, national := ⟨6502530000⟩, extension := none, carrier := none } ∧
    parseWith Sample.db (some .FI) (str% "+16502530000") =
      .ok { code := ⟨1, .plus⟩, national := ⟨6502530000⟩, extension := none, carrier := none } :=
  ⟨by kernel_rfl, by kernel_rfl⟩

end Phone
