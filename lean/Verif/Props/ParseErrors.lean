import Verif.Props.ParseText
/-! # C20, C47, C50, C51: what is accepted and what the errors mean -/

namespace Phone
open Helper

variable [UnicodeTables]

/-- C20: whatever is accepted contains at least two ASCII digits. -/
theorem C20_two_digits (db : Database) (country : Option Id) (s : Str) (p : PhoneNumber) (h : parseWith db country s = .ok p) :
    2 ≤ s.countP isDigit := by
  obtain ⟨n0, n1, md, n2, h0, hv, h1, post, h2, h3, h4⟩ := parseWith_stages h
  obtain ⟨_, a, b, rfl⟩ := readNumber_ok h0
  have := hv.two_digits
  simp only [List.countP_append]
  omega

example : (parseWith Sample.db none (str% "call +1 650 253 0000")).IsOk ∧ ¬ (parseWith Sample.db none (str% "call ٣٣٣")).IsOk := by
  rw [show parseWith Sample.db none (str% "call +1 650 253 0000") =
    .ok { code := ⟨1, .plus⟩, national := ⟨6502530000⟩, extension := none, carrier := none } by kernel_rfl]
  refine ⟨trivial, ?_⟩
  cases h : parseWith Sample.db none (str% "call ٣٣٣") with
  | ok p => exact absurd (C20_two_digits _ _ _ _ h) (by decide)
  | err e => exact id
  | panic e => exact id

/-- C20: a text with fewer than two ASCII digits is rejected with the error that there is no number in it. -/
theorem C20_rejected (db : Database) (country : Option Id) (s : Str) (h : s.countP isDigit < 2) :
    parseWith db country s = .err .noNumber := by
  have hp := readNumber_no_panic s
  unfold parseWith
  cases h0 : readNumber s with
  | panic e => rw [h0] at hp; exact absurd trivial hp
  | err e =>
    have : e = .noNumber := by
      unfold readNumber at h0
      repeat' split at h0
      all_goals first | (cases h0; rfl) | cases h0
    rw [this]; rfl
  | ok n0 =>
    have hv : isViable n0.national = false := by
      rw [← Bool.not_eq_true, C14_isViable_iff]
      intro hv
      have := hv.two_digits
      obtain ⟨_, a, b, rfl⟩ := readNumber_ok h0
      simp only [List.countP_append] at h
      omega
    show (if (!isViable n0.national) = true then _ else _) = _
    rw [hv]; rfl

example (db : Database) (country : Option Id) : parseWith db country (str% "someone1@example.org") = .err .noNumber :=
  C20_rejected db country _ (by decide)

/-- Without transform rules national prefix handling only drops digits at the start. -/
theorem stripNational_suffix {db : Database} (hnt : ∀ md, Spec.Entry db md → md.nationalPrefixTransformRule = none)
    {country : Option Id} {n1 n2 : Number} {md : Option Metadata} (hd : Digits n1.national) (hc : n1.carrier = none)
    (hm : parseMeta db country n1 = .ok md) (h : stripNational md n1 = .ok n2) : ∃ k, n2.national = n1.national.drop k := by
  obtain ⟨_, _, _, _, h5⟩ := stripNational_ok hd hc h
  rcases h5 with h5 | ⟨m, re, t, mm, k, rfl, _, htr, _⟩
  · exact h5
  · rw [hnt m (parseMeta_entry hm)] at htr; cases htr

/-- C47: without transform rules the national digits are a suffix of the digits of the number part of the text, so no digit is
invented, reordered or taken from the middle. -/
theorem C47_suffix (db : Database) (hnt : ∀ md, Spec.Entry db md → md.nationalPrefixTransformRule = none)
    (country : Option Id) (s : Str) (p : PhoneNumber) (h : parseWith db country s = .ok p) :
    ∃ a x b ds k, s = a ++ x ++ b ∧ Spec.Viable x ∧ Spec.Digitised (Spec.vanity x) x ds ∧
      p.national.display = ds.drop k := by
  obtain ⟨n0, n1, md, n2, h0, hv, h1, post, h2, h3, h4⟩ := parseWith_stages h
  obtain ⟨hc0, a, b, hs⟩ := readNumber_ok h0
  have hc : n1.carrier = none := by rw [post.carrier]; exact hc0
  obtain ⟨k, hk⟩ := stripNational_suffix hnt post.norm.national hc h2 h3
  obtain ⟨k', hk'⟩ := post.suffix
  obtain ⟨g1, g2, _, _, g3, _⟩ := finishParse_ok h4
  have hd : Digits n2.national := by rw [hk]; exact post.norm.national.drop k
  rw [hd.byteLen] at g2
  refine ⟨a, n0.national, b, _, k' + k, hs, hv, act_iff_digitised.1 rfl, ?_⟩
  rw [(fromStr_ok_digits hd g2 g3).1, hk, hk']; simp

example : (∀ md, Spec.Entry Sample.plainDb md → md.nationalPrefixTransformRule = none) ∧
    parseWith Sample.plainDb (some .RU) (str% "8 (912) FLOWERS") =
      .ok { code := ⟨7, .default⟩, national := ⟨9123569377⟩, extension := none, carrier := none } :=
  ⟨Sample.plainDb_noTransform, by kernel_rfl⟩

/-! ## Errors -/

omit [UnicodeTables] in
theorem fromStr_err_digits {s : Str} {e : ParseErr} (hd : Digits s) (hl : s.length ≤ 17)
    (h : NationalNumber.fromStr s = .err e) :
    (e = .tooLong ∧ 2 ^ 56 ≤ decVal s) ∨ (e = .malformedInteger .empty ∧ ∀ c ∈ s, c = '0') := by
  have hsplit : s = List.replicate (s.takeWhile (· == '0')).length '0' ++ s.dropWhile (· == '0') := by
    rw [← takeWhile_zero, List.takeWhile_append_dropWhile]
  have hd' : Digits (s.dropWhile (· == '0')) := fun c hc => hd c ((List.dropWhile_sublist _).subset hc)
  by_cases hne : s.dropWhile (· == '0') = []
  · right
    have hall := (dropWhile_eq_nil_iff s).1 hne
    refine ⟨?_, fun c hc => by simpa using hall c hc⟩
    unfold NationalNumber.fromStr at h
    have hz : dropBytes s (s.takeWhile (· == '0')).length = some [] := by
      rw [(dropWhile_all hall).2]
      simpa using hd.dropBytes (n := s.length) (Nat.le_refl _)
    simp [hz, parseUInt, optPlus] at h
    exact h.symm
  · left
    have hv : decVal (s.dropWhile (· == '0')) < 2 ^ 64 := by
      have h1 := decVal_lt hd'
      have h2 : (s.dropWhile (· == '0')).length ≤ 17 := Nat.le_trans (List.dropWhile_sublist _).length_le hl
      have h3 : 10 ^ (s.dropWhile (· == '0')).length ≤ 10 ^ 17 := Nat.pow_le_pow_right (by omega) h2
      omega
    have hval : decVal s = decVal (s.dropWhile (· == '0')) := by
      conv => lhs; rw [hsplit]
      rw [decVal_replicate_zero]
    rw [hsplit, NationalNumber.fromStr_zeros hd' hne (dropWhile_zero_head s) hv] at h
    have hvn : (UInt64.ofNat (decVal (s.dropWhile (· == '0')))).toNat = decVal (s.dropWhile (· == '0')) :=
      UInt64.toNat_ofNat_of_lt' (by simpa using hv)
    by_cases hbig : 2 ^ 56 ≤ decVal s
    · rw [NationalNumber.new_err (by rw [hvn, ← hval]; exact hbig)] at h
      cases h; exact ⟨rfl, hbig⟩
    · rw [NationalNumber.new_ok (by rw [hvn, ← hval]; omega)] at h
      cases h

omit [UnicodeTables] in
theorem prefixCode_err {n : Number} {e : ParseErr} (h : prefixCode n = .err e) :
    (∃ k, e = .malformedInteger k) ∧ ∃ p, n.pref = some p ∧
      parseUInt u16Bound p = none ∧ e = .malformedInteger (intErr u16Bound p) := by
  unfold prefixCode at h
  split at h
  · cases h
  · rename_i p hp
    cases hu : parseUInt u16Bound p with
    | none => rw [hu] at h; cases h; exact ⟨⟨_, rfl⟩, p, hp, hu, rfl⟩
    | some v => rw [hu] at h; cases h

theorem sourceLoop_no_err {ε : Type} (db : Database) (s : Str) (rs : List Str) (e : ε) : sourceLoop db s rs ≠ .err e := by
  induction rs with
  | nil => simp [sourceLoop]
  | cons r rs ih =>
    intro h
    unfold sourceLoop at h
    simp only [Outcome.bind_eq_err] at h
    rcases h with h | ⟨_, _, h⟩
    · cases hx : db.byId r <;> rw [hx] at h <;> cases h
    · split at h
      · simp only [Outcome.bind_eq_err, Outcome.pure_eq, reduceCtorEq, and_false, exists_false, or_false] at h
        cases hx : Id.fromStr r <;> rw [hx] at h <;> cases h
      · exact ih h

theorem sourceFor_no_err {ε : Type} (db : Database) (code : Nat) (s : Str) (e : ε) : sourceFor db code s ≠ .err e := by
  unfold sourceFor
  split
  · simp
  · split
    · split <;> simp
    · exact sourceLoop_no_err _ _ _ _

theorem parseMeta_err {db : Database} {country : Option Id} {n : Number} {e : ParseErr} (h : parseMeta db country n = .err e) :
    (∃ k, e = .malformedInteger k) ∧ ∃ p, n.pref = some p ∧
      parseUInt u16Bound p = none ∧ e = .malformedInteger (intErr u16Bound p) := by
  unfold parseMeta at h
  split at h
  · cases h
  · simp only [Outcome.bind_eq_err, Outcome.pure_eq, reduceCtorEq, and_false, exists_false, or_false] at h
    rcases h with h | ⟨_, _, h⟩
    · exact prefixCode_err h
    · exact absurd h (sourceFor_no_err _ _ _ _)

omit [UnicodeTables] in
theorem slice_ne_err {ε α : Type} (x : Option α) (e : ε) : (Outcome.slice x : Outcome ε α) ≠ .err e := by
  cases x <;> simp

omit [UnicodeTables] in
theorem trim_ne_err {ε : Type} (s : Str) (k : Nat) (e : ε) : trim s k ≠ .err e := slice_ne_err _ _

theorem stripNational_ne_err (md : Option Metadata) (n : Number) (e : ParseErr) : stripNational md n ≠ .err e := by
  unfold stripNational
  split
  · simp
  · rename_i m
    intro h
    simp only [Outcome.bind_eq_err, Outcome.pure_eq, reduceCtorEq, and_false, exists_false, or_false] at h
    rcases h with h | ⟨p, _, h⟩
    · unfold nationalNumber at h
      split at h
      · split at h
        · split at h
          · simp only [Outcome.bind_eq_err, reduceCtorEq, and_false, exists_false, or_false] at h
            exact trim_ne_err _ _ _ h
          · cases h
        · cases h
      · split at h
        · cases h
        · split at h
          · cases h
          · simp only at h
            split at h
            · split at h
              · cases h
              · simp only [Outcome.bind_eq_err, reduceCtorEq, and_false, exists_false, or_false] at h
                revert h
                generalize Match.get _ 1 = o
                cases o <;> simp
            · simp only [Outcome.bind_eq_err] at h
              rcases h with h | ⟨_, _, h⟩
              · exact slice_ne_err _ _ h
              · split at h
                · cases h
                · simp only [Outcome.bind_eq_err, reduceCtorEq, and_false, exists_false, or_false] at h
                  exact trim_ne_err _ _ _ h
    · unfold dropNationalPrefix at h
      split at h
      · split at h
        · simp only [Outcome.bind_eq_err, Outcome.pure_eq, reduceCtorEq, and_false, exists_false, or_false] at h
          exact trim_ne_err _ _ _ h
        · cases h
      · cases h

omit [UnicodeTables] in
theorem finishParse_err {n : Number} {e : ParseErr} (hd : Digits n.national) (h : finishParse n = .err e) :
    (e = .tooShortNsn ∧ n.national.length < 2) ∨ (e = .tooLong ∧ (17 < n.national.length ∨ 2 ^ 56 ≤ decVal n.national)) ∨
    ((∃ k, e = .malformedInteger k) ∧
      ((∃ p, n.pref = some p ∧ parseUInt u16Bound p = none ∧ e = .malformedInteger (intErr u16Bound p)) ∨
      2 ≤ n.national.length ∧ (∀ c ∈ n.national, c = '0') ∧ e = .malformedInteger .empty)) := by
  unfold finishParse at h
  rw [hd.byteLen] at h
  unfold Consts.minLengthForNsn Consts.maxLengthForNsn at h
  split at h
  · rename_i h1; cases h; exact .inl ⟨rfl, h1⟩
  · split at h
    · rename_i h1; cases h; exact .inr (.inl ⟨rfl, .inl h1⟩)
    · rename_i h1 h2
      simp only [Outcome.bind_eq_err, Outcome.pure_eq, reduceCtorEq, and_false, exists_false, or_false] at h
      rcases h with h | ⟨_, _, h⟩
      · obtain ⟨h3, h4⟩ := prefixCode_err h
        exact .inr (.inr ⟨h3, .inl h4⟩)
      · rcases fromStr_err_digits hd (by omega) h with ⟨h3, h4⟩ | ⟨h3, h4⟩
        · exact .inr (.inl ⟨h3, .inr h4⟩)
        · exact .inr (.inr ⟨⟨_, h3⟩, .inr ⟨by omega, h4, h3⟩⟩)

omit [UnicodeTables] in
theorem finishParse_err_kind {n : Number} {e : ParseErr} (h : finishParse n = .err e) :
    e = .tooShortNsn ∨ e = .tooLong ∨ ∃ k, e = .malformedInteger k := by
  unfold finishParse at h
  split at h
  · cases h; simp
  · split at h
    · cases h; simp
    · simp only [Outcome.bind_eq_err, Outcome.pure_eq, reduceCtorEq, and_false, exists_false, or_false] at h
      rcases h with h | ⟨_, _, h⟩
      · simp [(prefixCode_err h).1]
      · unfold NationalNumber.fromStr at h
        simp only [Outcome.bind_eq_err] at h
        rcases h with h | ⟨_, _, h | ⟨_, _, h⟩⟩
        · exact absurd h (slice_ne_err _ _)
        · revert h
          cases parseUInt u64Bound _ <;> simp
          intro h; simp [← h]
        · unfold NationalNumber.new at h
          split at h
          · cases h; simp
          · cases h

/-- Where an error comes from. -/
theorem parseWith_err {db : Database} {country : Option Id} {s : Str} {e : ParseErr} (h : parseWith db country s = .err e) :
    (e = .noNumber ∧ (readNumber s = .err .noNumber ∨ ∃ n0, readNumber s = .ok n0 ∧ ¬ Spec.Viable n0.national)) ∨
    ∃ n0, readNumber s = .ok n0 ∧ Spec.Viable n0.national ∧
      ((countryCode db country n0 = .err e ∧ CodeErr db country n0 e) ∨
      ∃ n1, countryCode db country n0 = .ok n1 ∧ CodePost db country n0 n1 ∧
        (((∃ k, e = .malformedInteger k) ∧ ∃ p, n1.pref = some p ∧ parseUInt u16Bound p = none ∧
          e = .malformedInteger (intErr u16Bound p)) ∨
        ∃ md n2, parseMeta db country n1 = .ok md ∧ stripNational md n1 = .ok n2 ∧ finishParse n2 = .err e)) := by
  unfold parseWith at h
  rw [Outcome.bind_eq_err] at h
  rcases h with h | ⟨n0, h0, h⟩
  · have : e = .noNumber := by
      unfold readNumber at h
      split at h
      · cases h
      · cases h
      · cases h; rfl
      · split at h
        · cases h
        · cases h
        · cases h; rfl
    subst this
    exact .inl ⟨rfl, .inl h⟩
  · split at h
    · rename_i hv
      cases h
      refine .inl ⟨rfl, .inr ⟨n0, h0, ?_⟩⟩
      rw [← C14_isViable_iff]
      simpa using hv
    · rename_i hv
      have hv := (C14_isViable_iff n0.national).1 (by simpa using hv)
      right
      refine ⟨n0, h0, hv, ?_⟩
      simp only [Outcome.bind_eq_err] at h
      have hspec := countryCode_spec db country n0 hv.no_newline
      rcases h with h | ⟨n1, h1, h⟩
      · left
        refine ⟨h, ?_⟩
        rcases hspec with ⟨he, _⟩ | ⟨e', he, hc⟩ | ⟨r, hr, _⟩
        · rw [he] at h; cases h
        · rw [he] at h; cases h; exact hc
        · rw [hr] at h; cases h
      · right
        have post : CodePost db country n0 n1 := by
          rcases hspec with ⟨he, _⟩ | ⟨e', he, hc⟩ | ⟨r, hr, post⟩
          · rw [he] at h1; cases h1
          · rw [he] at h1; cases h1
          · rw [hr] at h1; cases h1; exact post
        refine ⟨n1, h1, post, ?_⟩
        rcases h with h | ⟨md, h2, h | ⟨n2, h3, h⟩⟩
        · exact .inl (parseMeta_err h)
        · exact absurd h (stripNational_ne_err _ _ _)
        · exact .inr ⟨md, n2, h2, h3, h⟩

/-- C50: `TooShortAfterIdd` is never returned. -/
theorem C50_never_tooShortAfterIdd (db : Database) (country : Option Id) (s : Str) :
    parseWith db country s ≠ .err .tooShortAfterIdd := by
  intro h
  rcases parseWith_err h with ⟨h, _⟩ | ⟨_, _, _, ⟨_, h⟩ | ⟨_, _, _, ⟨h, _⟩ | ⟨_, _, _, _, h⟩⟩⟩
  · cases h
  · have := h.kind; simp at this
  · obtain ⟨_, h⟩ := h; cases h
  · have := finishParse_err_kind h; simp at this

/-- C50: `TooLong` is only returned if the number part of the text has more than 17 digits or has 17 digits that form a number
of at least 2^56 (databases without transform rules). -/
theorem C50_tooLong (db : Database) (hnt : ∀ md, Spec.Entry db md → md.nationalPrefixTransformRule = none)
    (country : Option Id) (s : Str) (h : parseWith db country s = .err .tooLong) :
    ∃ a x b ds, s = a ++ x ++ b ∧ Spec.Viable x ∧ Spec.Digitised (Spec.vanity x) x ds ∧
      (17 < ds.length ∨ ds.length = 17 ∧ 2 ^ 56 ≤ decVal ds) := by
  rcases parseWith_err h with ⟨h, _⟩ | ⟨n0, h0, hv, ⟨_, h⟩ | ⟨n1, h1, post, ⟨h, _⟩ | ⟨md, n2, h2, h3, h4⟩⟩⟩
  · cases h
  · have := h.kind; simp at this
  · obtain ⟨_, h⟩ := h; cases h
  · obtain ⟨hc0, a, b, hs⟩ := readNumber_ok h0
    have hc : n1.carrier = none := by rw [post.carrier]; exact hc0
    obtain ⟨k, hk⟩ := stripNational_suffix hnt post.norm.national hc h2 h3
    obtain ⟨k', hk'⟩ := post.suffix
    have hd : Digits n2.national := by rw [hk]; exact post.norm.national.drop k
    rw [hk', List.drop_drop] at hk
    generalize hds : act (mapFor (Spec.vanity n0.national)) n0.national = ds at hk
    refine ⟨a, n0.national, b, ds, hs, hv, act_iff_digitised.1 hds, ?_⟩
    have hlen : n2.national.length = ds.length - (k' + k) := by rw [hk]; simp
    rcases finishParse_err hd h4 with ⟨h, _⟩ | ⟨_, h⟩ | ⟨h, _⟩
    · cases h
    · rcases h with h | h
      · left; omega
      · have h5 := decVal_lt hd
        have h6 : 17 ≤ n2.national.length := by
          rcases Nat.lt_or_ge n2.national.length 17 with hlt | hge
          · have : 10 ^ n2.national.length ≤ 10 ^ 16 := Nat.pow_le_pow_right (by omega) (by omega)
            omega
          · exact hge
        rcases Nat.lt_or_ge 17 ds.length with hlt | hge
        · exact .inl hlt
        · right
          have : k' + k = 0 := by omega
          rw [this] at hk
          simp only [List.drop_zero] at hk
          rw [← hk]
          exact ⟨by omega, h⟩
    · obtain ⟨_, h⟩ := h; cases h

example : parseWith Sample.plainDb none (str% "+7 1234567 1234567 1234") = .err .tooLong ∧
    parseWith Sample.plainDb (some .FI) (str% "9 9000 0000 0000 0000") = .err .tooLong :=
  ⟨by kernel_rfl, by kernel_rfl⟩

/-- A prefix is only read from a text with a plus or a parameter. -/
theorem readNumber_pref_cause {s : Str} {n0 : Number} (h0 : readNumber s = .ok n0) (hp : n0.pref.isSome) : '+' ∈ s ∨ ';' ∈ s := by
  unfold readNumber at h0
  split at h0
  · rename_i n' hr
    cases h0
    unfold Rfc3966.phoneNumber at hr
    split at hr
    · cases hr
    · simp only at hr
      split at hr
      · cases hr
      · split at hr
        · cases hr
        · cases hr
          obtain ⟨a, ha⟩ := optTel_suffix s
          obtain ⟨a', ha'⟩ := optPrefix_suffix (Rfc3966.optTel s)
          cases hpre : Rfc3966.optPrefix (Rfc3966.optTel s) with
          | mk pre rest =>
            rw [hpre] at hp ha'
            cases pre with
            | some p =>
              obtain ⟨t, ht⟩ := optPrefix_some hpre
              left; rw [ha, ht]; simp
            | none =>
              right
              simp only [Option.orElse_none, Option.isSome_map] at hp
              have : ∃ t, rest.dropWhile Rfc3966.number = ';' :: t := by
                cases hr : rest.dropWhile Rfc3966.number with
                | nil => rw [hr] at hp; simp [Rfc3966.params, Rfc3966.getParam] at hp
                | cons c t =>
                  by_cases hc : c = ';'
                  · exact ⟨t, by rw [hc]⟩
                  · rw [hr] at hp
                    have : Rfc3966.parameter (c :: t) = none := by
                      unfold Rfc3966.parameter
                      split
                      · rename_i he; cases he; exact absurd rfl hc
                      · rfl
                    simp [Rfc3966.params, this, Rfc3966.getParam] at hp
              obtain ⟨t, ht⟩ := this
              have hmem : ';' ∈ rest := (List.dropWhile_sublist Rfc3966.number).subset (by rw [ht]; simp)
              rw [ha, ha']
              simp [hmem]
  · cases h0
  · cases h0
  · split at h0
    · rename_i n' hn
      cases h0
      rcases natural_spec s with ⟨e, he⟩ | ⟨n', a, b, he, hs, hpn, hc⟩
      · rw [he] at hn; cases hn
      · rw [he] at hn; cases hn
        rw [hpn] at hp; cases hp
    · cases h0
    · cases h0

/-- C50: `MalformedInteger` is only returned if the text has a plus sign or a parameter, or the national digits are all zero
(databases without transform rules; calling codes are 16-bit numbers). -/
theorem C50_malformed (db : Database) (hnt : ∀ md, Spec.Entry db md → md.nationalPrefixTransformRule = none)
    (h16 : ∀ md, Spec.Entry db md → md.countryCode < 65536)
    (country : Option Id) (s : Str) (k : IntErr) (h : parseWith db country s = .err (.malformedInteger k)) :
    ('+' ∈ s ∨ ';' ∈ s) ∨
    ∃ a x b ds k, s = a ++ x ++ b ∧ Spec.Viable x ∧ Spec.Digitised (Spec.vanity x) x ds ∧
      2 ≤ (ds.drop k).length ∧ ∀ c ∈ ds.drop k, c = '0' := by
  have known : ∀ n0 n1, CodePost db country n0 n1 → ∀ p, n1.pref = some p → parseUInt u16Bound p ≠ none := by
    intro n0 n1 post p hp
    cases hs : n1.country with
    | plus => obtain ⟨p', c, h1, h2, _⟩ := post.intl (.inl hs); rw [h1] at hp; cases hp; simp [h2]
    | idd => obtain ⟨p', c, h1, h2, _⟩ := post.intl (.inr hs); rw [h1] at hp; cases hp; simp [h2]
    | number =>
      obtain ⟨c, md, _, h2, h3⟩ := post.natl (.inl hs)
      rw [h3] at hp; cases hp; rw [parseUInt_decStr (b := u16Bound) (h16 md (.inl ⟨_, h2⟩))]; simp
    | default =>
      obtain ⟨c, md, _, h2, h3⟩ := post.natl (.inr hs)
      rw [h3] at hp; cases hp; rw [parseUInt_decStr (b := u16Bound) (h16 md (.inl ⟨_, h2⟩))]; simp
  rcases parseWith_err h with ⟨h, _⟩ | ⟨n0, h0, hv, ⟨_, h⟩ | ⟨n1, h1, post, ⟨_, p, hp, hu, _⟩ | ⟨md, n2, h2, h3, h4⟩⟩⟩
  · cases h
  · exact .inl (readNumber_pref_cause h0 (h.malformed _ rfl).1)
  · exact absurd hu (known n0 n1 post p hp)
  · obtain ⟨hc0, a, b, hs⟩ := readNumber_ok h0
    have hc : n1.carrier = none := by rw [post.carrier]; exact hc0
    obtain ⟨k, hk⟩ := stripNational_suffix hnt post.norm.national hc h2 h3
    obtain ⟨k', hk'⟩ := post.suffix
    have hd : Digits n2.national := by rw [hk]; exact post.norm.national.drop k
    rw [hk', List.drop_drop] at hk
    rcases finishParse_err hd h4 with ⟨h, _⟩ | ⟨h, _⟩ | ⟨_, h⟩
    · cases h
    · cases h
    · rcases h with ⟨p, hp, hu, _⟩ | ⟨h5, h6, _⟩
      · rw [(stripNational_ok post.norm.national hc h3).2.1] at hp
        exact absurd hu (known n0 n1 post p hp)
      · right
        refine ⟨a, n0.national, b, _, k' + k, hs, hv, act_iff_digitised.1 rfl, ?_, ?_⟩
        · rw [← hk]; exact h5
        · rw [← hk]; exact h6

example : parseWith Sample.plainDb (some .US) (str% "000-000") = .err (.malformedInteger .empty) ∧
    parseWith Sample.plainDb none (str% "+abc-1234") = .err (.malformedInteger .empty) :=
  ⟨by kernel_rfl, by kernel_rfl⟩

/-- C50: a nationally written number with a reference country never gets `InvalidCountryCode`: that error needs a missing
reference country, a plus sign, a parameter, or the reference country's dialling prefix at the start. -/
theorem C50_invalidCountryCode (db : Database) (c : Id) (ds : Str) (hd : Digits ds)
    (hidd : ¬ Spec.BeginsWithIdd db (some c) ds) : parseWith db (some c) ds ≠ .err .invalidCountryCode := by
  intro h
  cases hds : ds with
  | nil =>
    have : readNumber [] = .err .noNumber := by kernel_rfl
    rw [hds, parseWith_eq, this] at h; cases h
  | cons x xs =>
    have hr := readNumber_of_digits hd (by simp [hds] : ds ≠ [])
    rcases parseWith_err h with ⟨h, _⟩ | ⟨n0, h0, hv, ⟨_, h⟩ | ⟨n1, h1, post, ⟨h, _⟩ | ⟨md, n2, h2, h3, h4⟩⟩⟩
    · cases h
    · rw [hr] at h0
      cases h0
      have := h.invalid (by simp)
      simp only [reduceCtorEq, Option.isSome_none, Bool.false_eq_true, false_or] at this
      rcases this with ⟨a, b, hab, ha⟩ | ⟨re, hre, hm⟩
      · have := not_plus_of_digit (hd a (by rw [hab]; simp))
        rw [ha] at this; cases this
      · rw [act_of_digits hd] at hm
        apply hidd
        simp only [iddFor, Option.bind_some, Option.isNone_some, Bool.false_eq_true, if_false, Option.or_none] at hre
        cases hmd : db.byId c.asRef with
        | none => simp [hmd] at hre
        | some md =>
          simp only [hmd, Option.bind_some] at hre
          obtain ⟨m, hm, h0⟩ := find_at_start_iff.2 hm
          exact ⟨md, re, m, hmd, hre, hm, Match.start_eq_zero.2 h0⟩
    · obtain ⟨_, h⟩ := h; cases h
    · have := finishParse_err_kind h4; simp at this

/-- The hypothesis can hold, and the error does occur when it does not. -/
example : ¬ Spec.BeginsWithIdd Sample.plainDb (some .US) (str% "650253000") ∧
    parseWith Sample.plainDb (some .US) (str% "011999999999") = .err .invalidCountryCode := by
  refine ⟨?_, by kernel_rfl⟩
  rintro ⟨md, re, m, h1, h2, h3, h4⟩
  have : ((Sample.plainDb.byId (Id.asRef .US)).bind (·.internationalPrefix)).map (fun re => matchesAtStart re (str% "650253000")) =
      some false := by kernel_rfl
  rw [h1] at this
  simp [h2, matchesAtStart, h3, h4] at this

/-- C50: a plainly written number with at least three digits is never rejected with `NoNumber`. -/
theorem C50_noNumber (db : Database) (country : Option Id) (pl b : Str) (hpl : pl = [] ∨ pl = ['+'])
    (hb : Spec.Plain b) (hsp : pl = ['+'] → ' ' ∈ b)
    (h3 : 3 ≤ (b.filter isDigit).length) : parseWith db country (pl ++ b) ≠ .err .noNumber := by
  rw [C13_formatting_ignored db country pl b hpl hb hsp h3]
  have hd := digits_filter b
  have hplain : ∀ c ∈ b.filter isDigit, c ∈ plainChars ∧ c ≠ '+' := plain_iff.1 fun c hc => .inl (hd c hc)
  have hne : b.filter isDigit ≠ [] := by intro h; rw [h] at h3; simp at h3
  have hr : readNumber (pl ++ b.filter isDigit) = .ok { national := pl ++ b.filter isDigit } := by
    rcases hpl with rfl | rfl
    · exact readNumber_of_digits hd hne
    · exact readNumber_of_plus_digits hd hne
  have hv := (C14_isViable_iff _).1 (viable_plain hpl hplain (by rw [filter_digits hd]; exact h3))
  intro h
  rcases parseWith_err h with ⟨_, h⟩ | ⟨_, _, _, ⟨_, h⟩ | ⟨_, _, _, ⟨h, _⟩ | ⟨_, _, _, _, h⟩⟩⟩
  · rcases h with h | ⟨n0, h0, h⟩
    · rw [hr] at h; cases h
    · rw [hr] at h0; cases h0; exact h hv
  · have := h.kind; simp at this
  · obtain ⟨_, h⟩ := h; cases h
  · have := finishParse_err_kind h; simp at this

example : Spec.Plain (str% " (1) 650-253/00.00") ∧ ' ' ∈ (str% " (1) 650-253/00.00") ∧
    3 ≤ ((str% " (1) 650-253/00.00").filter isDigit).length := by
  refine ⟨?_, by decide, by decide⟩
  unfold Spec.Plain
  decide

/-- The condition on the start matters. -/
example : parseWith Sample.plainDb (some .US) (str% "1/x2345") = .err .noNumber := by kernel_rfl

/-! ## The calling code of an international number -/

theorem countryCode_plus_digits (db : Database) (country : Option Id) {ds : Str} (hd : Digits ds)
    (hidd : ¬ Spec.BeginsWithIdd db country ds) :
    countryCode db country { national := '+' :: ds } =
      if byteLen ds ≤ Consts.minLengthForNsn then .err .tooShortNsn
      else if startsWith ds ['0'] then .err .invalidCountryCode
      else codeLoop db { national := ds, country := .plus } [1, 2, 3] := by
  unfold countryCode
  have hk := internationalPrefix_plus_digits db country hd hidd
  simp only [iddFor] at hk
  simp only [hk, Outcome.bind_ok]
  rfl

/-- C51: the calling code of a number written as plus and digits is the shortest known code the digits start with; the number
is rejected with `InvalidCountryCode` exactly if there is none or the first digit is zero, and with `NoNumber` exactly if there
are fewer than three digits. -/
theorem C51_shortest_code (db : Database) (country : Option Id) (ds : Str) (hd : Digits ds)
    (hidd : ¬ Spec.BeginsWithIdd db country ds) :
    (parseWith db country ('+' :: ds) = .err .noNumber ↔ ds.length < 3) ∧
    (parseWith db country ('+' :: ds) = .err .invalidCountryCode ↔
      3 ≤ ds.length ∧ (ds.head? = some '0' ∨ ∀ l, ¬ Spec.ShortestCode db ds l)) ∧
    (∀ p, parseWith db country ('+' :: ds) = .ok p →
      ∃ l, Spec.ShortestCode db ds l ∧ p.code.value = decVal (ds.take l) ∧ p.code.source = .plus) := by
  have hplain : ∀ c ∈ ds, c ∈ plainChars ∧ c ≠ '+' := plain_iff.1 fun c hc => .inl (hd c hc)
  by_cases h3 : ds.length < 3
  · have hno : parseWith db country ('+' :: ds) = .err .noNumber := by
      cases hds : ds with
      | nil =>
        have : readNumber ['+'] = .err .noNumber := by kernel_rfl
        rw [parseWith_eq, this]; rfl
      | cons x xs =>
        rw [← hds, parseWith_eq, readNumber_of_plus_digits hd (by simp [hds] : ds ≠ [])]
        simp only [Outcome.bind_ok, afterRead]
        have : isViable ('+' :: ds) = false := by
          rw [Bool.eq_false_iff, ne_eq, C14_isViable_iff]
          rintro (⟨a, b, hab, ha, _⟩ | ⟨p, f1, d1, f2, d2, f3, d3, rest, he, _, _, _, _, hd1, hd2, hd3, _⟩)
          · cases hab; revert ha; decide
          · have h1 := congrArg (List.countP isDigit) he
            have h2 : List.countP isDigit ds ≤ ds.length := List.countP_le_length
            have h4 : isDigit '+' = false := by decide
            simp only [List.countP_cons, List.countP_append, hd1, hd2, hd3, if_true, h4, Bool.false_eq_true, if_false] at h1
            omega
        simp [this]
    rw [hno]
    refine ⟨by simp [h3], ?_, by simp⟩
    simp; omega
  · have hne : ds ≠ [] := by intro h; rw [h] at h3; simp at h3
    have hr := readNumber_of_plus_digits hd hne
    have hv : Spec.Viable ('+' :: ds) := (C14_isViable_iff _).1
      (viable_plain (pl := ['+']) (x := ds) (.inr rfl) hplain (by rw [filter_digits hd]; omega))
    have hcc := countryCode_plus_digits db country hd hidd
    rw [hd.byteLen, if_neg (by unfold Consts.minLengthForNsn; omega)] at hcc
    have hloop := codeLoop_spec db { national := ds, country := .plus } hd [1, 2, 3] (by simp; omega)
    have hzero : startsWith ds ['0'] = true ↔ ds.head? = some '0' := by
      rw [startsWith_iff]
      constructor
      · rintro ⟨r, rfl⟩; rfl
      · intro h
        cases hds : ds with
        | nil => exact absurd hds hne
        | cons c cs => rw [hds] at h; cases h; exact ⟨cs, rfl⟩
    refine ⟨?_, ?_, ?_⟩
    · refine ⟨fun h => ?_, fun h => absurd h h3⟩
      exfalso
      rcases parseWith_err h with ⟨_, h⟩ | ⟨_, _, _, ⟨_, h⟩ | ⟨_, _, _, ⟨h, _⟩ | ⟨_, _, _, _, h⟩⟩⟩
      · rcases h with h | ⟨n0, h0, h⟩
        · rw [hr] at h; cases h
        · rw [hr] at h0; cases h0; exact h hv
      · have := h.kind; simp at this
      · obtain ⟨_, h⟩ := h; cases h
      · have := finishParse_err_kind h; simp at this
    · constructor
      · intro h
        refine ⟨by omega, ?_⟩
        rcases parseWith_err h with ⟨h, _⟩ | ⟨n0, h0, _, ⟨h, _⟩ | ⟨_, _, _, ⟨h, _⟩ | ⟨_, _, _, _, h⟩⟩⟩
        · cases h
        · rw [hr] at h0
          cases h0
          rw [hcc] at h
          split at h
          · rename_i hz; exact .inl (hzero.1 hz)
          · right
            rcases hloop with ⟨_, h1⟩ | ⟨_, _, _, _, _, _, h2⟩
            · rintro l ⟨hl1, hl3, hl, _⟩
              have := h1 l (by simp; omega)
              simp only at this
              rw [this] at hl; cases hl
            · rw [h2] at h; cases h
        · obtain ⟨_, h⟩ := h; cases h
        · have := finishParse_err_kind h; simp at this
      · rintro ⟨_, h⟩
        have he : countryCode db country { national := '+' :: ds } = .err .invalidCountryCode := by
          rw [hcc]
          split
          · rfl
          · rename_i hz
            rcases h with h | h
            · exact absurd (hzero.2 h) hz
            · rcases hloop with ⟨h1, _⟩ | ⟨before, len, after, hsp, hb, hk, _⟩
              · exact h1
              · exfalso
                simp only at hb hk
                apply h len
                have hmem : len ∈ [1, 2, 3] := by rw [hsp]; simp
                refine ⟨by simp at hmem; omega, by simp at hmem; omega, hk, ?_⟩
                intro k h1 h2
                apply hb
                match before, hsp with
                | [], hsp => simp at hsp; omega
                | [a], hsp => simp at hsp; obtain ⟨rfl, rfl, _⟩ := hsp; simp; omega
                | [a, b], hsp => simp at hsp; obtain ⟨rfl, rfl, rfl, _⟩ := hsp; simp; omega
                | a :: b :: c :: t, hsp => simp at hsp
        rw [parseWith_eq, hr]
        simp only [Outcome.bind_ok, afterRead, (C14_isViable_iff _).2 hv, Bool.not_true, Bool.false_eq_true, if_false, he]
        rfl
    · intro p h
      obtain ⟨n0, n1, md, n2, h0, _, h1, post, h2, h3', h4⟩ := parseWith_stages h
      have hc : n1.carrier = none := by rw [post.carrier]; exact (readNumber_ok h0).1
      obtain ⟨k1, k2, _⟩ := stripNational_ok post.norm.national hc h3'
      obtain ⟨_, _, g1, g2, _⟩ := finishParse_ok h4
      rw [hr] at h0
      cases h0
      rw [hcc] at h1
      split at h1
      · cases h1
      · rcases hloop with ⟨he, _⟩ | ⟨before, len, after, hsp, hb, hk, he⟩
        · rw [he] at h1; cases h1
        · rw [he] at h1
          cases h1
          simp only at hb hk k1 k2
          refine ⟨len, ?_, ?_, by rw [g2, k1]⟩
          · have hmem : len ∈ [1, 2, 3] := by rw [hsp]; simp
            refine ⟨by simp at hmem; omega, by simp at hmem; omega, hk, ?_⟩
            intro k h1 h2
            apply hb
            match before, hsp with
            | [], hsp => simp at hsp; omega
            | [a], hsp => simp at hsp; obtain ⟨rfl, rfl, _⟩ := hsp; simp; omega
            | [a, b], hsp => simp at hsp; obtain ⟨rfl, rfl, rfl, _⟩ := hsp; simp; omega
            | a :: b :: c :: t, hsp => simp at hsp
          · unfold prefixCode at g1
            rw [k2] at g1
            simp only [Outcome.okOr_eq_ok] at g1
            obtain ⟨_, ds', hds', _, _, hval⟩ := parseUInt_eq_some g1
            rcases hds' with hds' | hds'
            · rw [← hval, ← hds', decVal_decStr]
            · exfalso
              have := digits_decStr (decVal (ds.take len))
              rw [hds'] at this
              simp [isDigit] at this

/-- A known code, a digit too many at the front and an unknown code. -/
example : Spec.ShortestCode Sample.db (str% "3581234567") 3 ∧
    parseWith Sample.db (some .US) (str% "+3581234567") =
      .ok { code := ⟨358, .plus⟩, national := ⟨1234567⟩, extension := none, carrier := none } ∧
    parseWith Sample.db none (str% "+0358123456") = .err .invalidCountryCode ∧
    parseWith Sample.db none (str% "+3591234567") = .err .invalidCountryCode := by
  refine ⟨⟨by decide, by decide, by kernel_rfl, ?_⟩, by kernel_rfl, by kernel_rfl, by kernel_rfl⟩
  intro k h1 h2
  match k, h1, h2 with
  | 1, _, _ => kernel_rfl
  | 2, _, _ => kernel_rfl

/-- C09: source `Plus` needs a plus sign or a parameter in the text. -/
theorem C09_plus_cause (db : Database) (country : Option Id) (s : Str) (p : PhoneNumber) (h : parseWith db country s = .ok p)
    (hs : p.code.source = .plus) : (∃ c ∈ s, Spec.isPlus c = true) ∨ ';' ∈ s := by
  obtain ⟨n0, n1, md, n2, h0, hv, h1, post, h2, h3, h4⟩ := parseWith_stages h
  obtain ⟨hc0, a, b, hab⟩ := readNumber_ok h0
  have hc : n1.carrier = none := by rw [post.carrier]; exact hc0
  obtain ⟨k1, _⟩ := stripNational_ok post.norm.national hc h3
  obtain ⟨_, _, _, g2, _⟩ := finishParse_ok h4
  rw [g2, k1] at hs
  rcases post.plus_cause hs with hp | ⟨c, t, hn, hc⟩
  · rcases readNumber_pref_cause h0 hp with h | h
    · exact .inl ⟨'+', h, rfl⟩
    · exact .inr h
  · exact .inl ⟨c, by rw [hab, hn]; simp, hc⟩

example : parseWith Sample.db none (str% "912-345-67-89;phone-context=7") =
      .ok { code := ⟨7, .plus⟩, national := ⟨9123456789⟩, extension := none, carrier := none } := by kernel_rfl

end Phone
