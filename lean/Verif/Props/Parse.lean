import Verif.Props.Entries
import Verif.Props.Stages
import Verif.Spec.Parse
/-! # Theorems about the whole parser -/

namespace Phone
open Helper

variable [UnicodeTables]

/-! ## Consistency of a database built from territories -/

omit [UnicodeTables] in
/-- Every region listed under a code has an entry, and each listed entry has that code. -/
theorem from_consistent {compile : Str → Option Regex} {ms : List Loader.Metadata} {db : Database}
    (h : Database.from compile ms = .ok db) :
    (∀ c rs, db.region c = some rs → ∀ r ∈ rs, (db.byId r).isSome) ∧
    (∀ c l, db.byCode c = some l → l ≠ [] ∧ ∀ md ∈ l, md.countryCode = c) ∧
    (∀ c rs, db.region c = some rs → ∃ l, db.byCode c = some l ∧ rs = l.map (·.id)) ∧
    (∀ i md, db.byId i = some md → md.id = i ∧ (db.byCode md.countryCode).isSome) := by
  obtain ⟨mds, hmap, hid, hcode, hlist, hreg⟩ := C27_indexes ms db h
  have hmem : ∀ md ∈ mds, ∃ m ∈ ms, m.countryCode = some md.countryCode := by
    intro md hmd
    have : (some md.id, some md.countryCode, md.mainCountryForCode) ∈
        ms.map (fun m => (m.id, m.countryCode, m.mainCountryForCode)) := by
      rw [← hmap]; exact List.mem_map.2 ⟨md, hmd, rfl⟩
    obtain ⟨m, hm, he⟩ := List.mem_map.1 this
    simp only [Prod.mk.injEq] at he
    exact ⟨m, hm, he.2.1⟩
  have hlisted : ∀ (c : Nat) (md : Metadata),
      md ∈ Spec.listed (·.mainCountryForCode) (mds.filter (·.countryCode == c)) ↔ md ∈ mds ∧ md.countryCode = c := by
    intro c md
    simp only [Spec.listed, List.mem_append, List.mem_reverse, List.mem_filter, beq_iff_eq]
    cases md.mainCountryForCode <;> simp
  have hsome : ∀ c, (db.byCode c).isSome → ∃ m ∈ ms, m.countryCode = some c := fun c => (hcode c).1
  have hl : ∀ c l, db.byCode c = some l → l = Spec.listed (·.mainCountryForCode) (mds.filter (·.countryCode == c)) := by
    intro c l hl
    have := (hlist c (hsome c (by simp [hl]))).1
    rw [hl] at this
    exact Option.some.inj this
  have hr : ∀ c rs, db.region c = some rs → rs = (Spec.listed (·.mainCountryForCode) (mds.filter (·.countryCode == c))).map (·.id) := by
    intro c rs hrs
    have := (hlist c (hsome c ((hreg c).1 (by simp [hrs])))).2
    rw [hrs] at this
    exact Option.some.inj this
  refine ⟨?_, ?_, ?_, ?_⟩
  · intro c rs hrs r hr'
    rw [hr c rs hrs] at hr'
    obtain ⟨md, hmd, rfl⟩ := List.mem_map.1 hr'
    have hf : md ∈ mds.filter (·.id == md.id) := List.mem_filter.2 ⟨((hlisted c md).1 hmd).1, by simp⟩
    rw [hid]
    cases hx : mds.filter (·.id == md.id) with
    | nil => rw [hx] at hf; cases hf
    | cons => simp
  · intro c l hc
    have e := hl c l hc
    refine ⟨?_, ?_⟩
    · obtain ⟨m, hm, hmc⟩ := hsome c (by simp [hc])
      have : (m.id, m.countryCode, m.mainCountryForCode) ∈
          mds.map (fun md => (some md.id, some md.countryCode, md.mainCountryForCode)) := by
        rw [hmap]; exact List.mem_map.2 ⟨m, hm, rfl⟩
      obtain ⟨md, hmd, he⟩ := List.mem_map.1 this
      simp only [Prod.mk.injEq, hmc, Option.some.injEq] at he
      intro h0
      have : md ∈ l := by rw [e]; exact (hlisted c md).2 ⟨hmd, he.2.1⟩
      rw [h0] at this; cases this
    · intro md hmd
      rw [e] at hmd
      exact ((hlisted c md).1 hmd).2
  · intro c rs hrs
    have := hlist c (hsome c ((hreg c).1 (by simp [hrs])))
    exact ⟨_, this.1, hr c rs hrs⟩
  · intro i md hmd
    rw [hid] at hmd
    have := List.mem_of_getLast? hmd
    rw [List.mem_filter] at this
    refine ⟨by simpa using this.2, (hcode _).2 (hmem md this.1)⟩

/-! ## `source_for` -/

theorem sourceLoop_no_panic {ε : Type} (db : Database) (s : Str) (rs : List Str)
    (h : ∀ r ∈ rs, (db.byId r).isSome ∧ (Id.fromStr r).isSome) : ∃ o, sourceLoop db s rs = (.ok o : Outcome ε _) := by
  induction rs with
  | nil => exact ⟨none, rfl⟩
  | cons r rs ih =>
    obtain ⟨h1, h2⟩ := h r (by simp)
    obtain ⟨md, hmd⟩ := Option.isSome_iff_exists.1 h1
    obtain ⟨id, hid⟩ := Option.isSome_iff_exists.1 h2
    unfold sourceLoop
    simp only [hmd, Outcome.unwrap_some, Outcome.bind_ok, hid]
    split
    · exact ⟨_, rfl⟩
    · exact ih fun r hr => h r (by simp [hr])

theorem sourceFor_ok {ε : Type} {db : Database} (hreg : ∀ c rs, db.region c = some rs → ∀ r ∈ rs, (db.byId r).isSome)
    (hs : Spec.SharedAreCountries db) (code : Nat) (s : Str) : ∃ o, sourceFor db code s = (.ok o : Outcome ε _) := by
  unfold sourceFor
  cases hr : db.region code with
  | none => exact ⟨_, rfl⟩
  | some rs =>
    simp only
    split
    · split
      · exact ⟨_, rfl⟩
      · exact ⟨_, rfl⟩
    · rename_i hne
      apply sourceLoop_no_panic
      intro r hr'
      refine ⟨hreg code rs hr r hr', hs code rs hr ?_ r hr'⟩
      intro hl
      match rs, hl with
      | [r], _ => exact hne r rfl

/-! ## `national_number` and what follows it -/

theorem nationalNumber_ok {ε : Type} (md : Metadata) (n r : Number) (hd : Digits n.national)
    (h : nationalNumber md n = (.ok r : Outcome ε Number)) :
    r.country = n.country ∧ r.pref = n.pref ∧ r.extension = n.extension ∧
    (r.carrier = n.carrier ∨ ∀ c, r.carrier = some c → Digits c) ∧
    ((∃ k, r.national = n.national.drop k) ∨ ∃ re t m, md.nationalPrefixForParsing = some re ∧
      md.nationalPrefixTransformRule = some t ∧ re.find n.national = some m ∧ m.pre = [] ∧
      (m.get re.ngroups).isSome ∧ r.national = expand m t ++ m.post) := by
  unfold nationalNumber at h
  split at h
  · split at h
    · split at h
      · rename_i hs
        obtain ⟨rest, hrest⟩ := startsWith_iff.1 hs
        simp only [trim, hrest, dropBytes_append, Outcome.slice_some, Outcome.bind_ok, Outcome.ok.injEq] at h
        subst h
        exact ⟨rfl, rfl, rfl, .inl rfl, .inl ⟨_, drop_of_append hrest⟩⟩
      · cases h; exact ⟨rfl, rfl, rfl, .inl rfl, .inl ⟨0, rfl⟩⟩
    · cases h; exact ⟨rfl, rfl, rfl, .inl rfl, .inl ⟨0, rfl⟩⟩
  · rename_i re hre
    split at h
    · cases h; exact ⟨rfl, rfl, rfl, .inl rfl, .inl ⟨0, rfl⟩⟩
    · rename_i m hm
      have f := find_eq_some hm
      have hget : ∀ k t, m.get k = some t → Digits t := by
        intro k t hk
        obtain ⟨x, y, hxy⟩ := f.get hk
        have := hd
        rw [f.split, hxy] at this
        simp only [digits_append] at this
        exact this.1.2.1.2
      split at h
      · cases h; exact ⟨rfl, rfl, rfl, .inl rfl, .inl ⟨0, rfl⟩⟩
      · rename_i hs
        have hs := Match.start_eq_zero.1 (Decidable.not_not.1 hs)
        simp only at h
        split at h
        · rename_i t l ht hl
          split at h
          · cases h; exact ⟨rfl, rfl, rfl, .inl rfl, .inl ⟨0, rfl⟩⟩
          · simp only [Outcome.bind_eq_ok, Outcome.unwrap_eq_ok, Outcome.ok.injEq] at h
            obtain ⟨fst, hf, rfl⟩ := h
            refine ⟨rfl, rfl, rfl, .inr ?_, .inr ⟨re, t, m, hre, ht, hm, hs, by simp [hl], ?_⟩⟩
            · intro c hc; cases hc; exact hget _ _ hf
            · simp [Regex.replace, hm, hs]
        · simp only [Outcome.bind_eq_ok, Outcome.slice_eq_ok] at h
          obtain ⟨again, _, h⟩ := h
          split at h
          · cases h; exact ⟨rfl, rfl, rfl, .inl rfl, .inl ⟨0, rfl⟩⟩
          · simp only [trim, Outcome.bind_eq_ok, Outcome.slice_eq_ok, Outcome.ok.injEq] at h
            obtain ⟨nat, hnat, rfl⟩ := h
            rw [f.stop_eq.1] at hnat
            cases hnat
            refine ⟨rfl, rfl, rfl, .inr ?_, .inl ⟨m.text.length, ?_⟩⟩
            · intro c hc
              simp only at hc
              split at hc
              · exact hget _ _ hc
              · cases hc
            · exact drop_of_append (by rw [f.split, hs]; rfl)

theorem nationalNumber_no_panic {ε : Type} (md : Metadata) (n : Number)
    (hf : Spec.FirstWithLast md) : ¬ (nationalNumber md n : Outcome ε Number).IsPanic := by
  unfold nationalNumber
  split
  · split
    · split
      · rename_i hs
        obtain ⟨rest, hrest⟩ := startsWith_iff.1 hs
        simp [trim, hrest]
      · simp
    · simp
  · rename_i re hre
    split
    · simp
    · rename_i m hm
      have f := find_eq_some hm
      split
      · simp
      · simp only
        split
        · rename_i t l ht hl
          split
          · simp
          · obtain ⟨x, hx⟩ := Option.isSome_iff_exists.1 (hf (by simp [ht]) re hre _ m hm (by simp [hl]))
            simp [hx]
        · simp only [f.stop_eq.2.2.1, Outcome.slice_some, Outcome.bind_ok]
          split
          · simp
          · simp [trim, f.stop_eq.1]

omit [UnicodeTables] in
theorem Digits.capRef {m : Match} (hm : ∀ k t, m.get k = some t → Digits t) (name : Str) : Digits (capRef m name) := by
  unfold Phone.capRef
  split
  · cases h : m.get (decVal name) with
    | none => simp
    | some t => simpa using hm _ _ h
  · simp

omit [UnicodeTables] in
theorem isNameChar_of_isDigit {c : Char} (h : isDigit c = true) : isNameChar c = true := by simp [isNameChar, h]

omit [UnicodeTables] in
theorem ne_dollar_of_isDigit {c : Char} (h : isDigit c = true) : c ≠ '$' := by rintro rfl; revert h; decide

omit [UnicodeTables] in
/-- A template of digits and group references expands to digits if the groups captured digits. -/
theorem digits_expand {m : Match} (hm : ∀ k t, m.get k = some t → Digits t) {t : Str} (ht : Spec.DigitTemplate t) :
    Digits (expand m t) := by
  have key : Digits (expandAux m .text t) ∧ ∀ acc, Digits (expandAux m (.name acc) t) := by
    induction ht with
    | nil => exact ⟨by simp [expandAux], fun acc => by simp only [expandAux]; exact Digits.capRef hm acc⟩
    | @digit c s hc _ ih =>
      refine ⟨?_, fun acc => ?_⟩
      · simp only [expandAux, if_neg (ne_dollar_of_isDigit hc), digits_cons]; exact ⟨hc, ih.1⟩
      · simp only [expandAux, isNameChar_of_isDigit hc, if_true]; exact ih.2 _
    | @ref c s hc _ ih =>
      have hb : c ≠ '{' := by rintro rfl; revert hc; decide
      have hdol : Digits (expandAux m .dollar (c :: s)) := by
        simp only [expandAux, if_neg (ne_dollar_of_isDigit hc), if_neg hb, isNameChar_of_isDigit hc, if_true]
        exact ih.2 _
      refine ⟨?_, fun acc => ?_⟩
      · simp only [expandAux, if_true]
        simpa only [expandAux] using hdol
      · rw [expandAux]
        rw [if_neg (by decide), if_pos rfl, digits_append]
        exact ⟨Digits.capRef hm acc, hdol⟩
  exact key.1

theorem stripNational_no_panic (md : Option Metadata) (n : Number)
    (hf : ∀ m, md = some m → Spec.FirstWithLast m) : ¬ (stripNational md n).IsPanic := by
  unfold stripNational
  split
  · simp
  · rename_i m
    apply Outcome.not_isPanic_bind (nationalNumber_no_panic m n (hf m rfl))
    intro p _
    apply Outcome.not_isPanic_bind _ (by simp)
    unfold dropNationalPrefix
    split
    · split
      · rename_i hs
        obtain ⟨rest, hrest⟩ := startsWith_iff.1 hs
        simp [trim, hrest]
      · simp
    · simp

/-- What national prefix handling preserves. -/
theorem stripNational_ok {md : Option Metadata} {n r : Number} (hd : Digits n.national) (hc : n.carrier = none)
    (h : stripNational md n = .ok r) :
    r.country = n.country ∧ r.pref = n.pref ∧ r.extension = n.extension ∧ (∀ c, r.carrier = some c → Digits c) ∧
    ((∃ k, r.national = n.national.drop k) ∨ ∃ m re t mm k, md = some m ∧ m.nationalPrefixForParsing = some re ∧
      m.nationalPrefixTransformRule = some t ∧ re.find n.national = some mm ∧ mm.pre = [] ∧
      (mm.get re.ngroups).isSome ∧ r.national = (expand mm t ++ mm.post).drop k) := by
  unfold stripNational at h
  split at h
  · cases h; exact ⟨rfl, rfl, rfl, by simp [hc], .inl ⟨0, rfl⟩⟩
  · rename_i m
    simp only [Outcome.bind_eq_ok] at h
    obtain ⟨p, hp, q, hq, h⟩ := h
    obtain ⟨h1, h2, h3, h4, h5⟩ := nationalNumber_ok m n p hd hp
    have hq' : q.country = p.country ∧ q.pref = p.pref ∧ q.extension = p.extension ∧ q.carrier = p.carrier ∧
        ∃ k, q.national = p.national.drop k := by
      unfold dropNationalPrefix at hq
      split at hq
      · split at hq
        · rename_i hs
          obtain ⟨rest, hrest⟩ := startsWith_iff.1 hs
          simp only [trim, hrest, dropBytes_append, Outcome.slice_some, Outcome.bind_ok, Outcome.pure_eq, Outcome.ok.injEq] at hq
          subst hq
          exact ⟨rfl, rfl, rfl, rfl, _, drop_of_append hrest⟩
        · cases hq; exact ⟨rfl, rfl, rfl, rfl, 0, rfl⟩
      · cases hq; exact ⟨rfl, rfl, rfl, rfl, 0, rfl⟩
    obtain ⟨g1, g2, g3, g4, k, g5⟩ := hq'
    simp only [Outcome.pure_eq, Outcome.ok.injEq] at h
    split at h
    · subst h
      refine ⟨g1.trans h1, g2.trans h2, g3.trans h3, ?_, ?_⟩
      · intro c hcc
        rw [g4] at hcc
        rcases h4 with h4 | h4
        · rw [h4, hc] at hcc; cases hcc
        · exact h4 c hcc
      · rcases h5 with ⟨k', h5⟩ | ⟨re, t, mm, h6, h7, h8, h9, h10, h11⟩
        · exact .inl ⟨k' + k, by rw [g5, h5]; simp⟩
        · exact .inr ⟨m, re, t, mm, k, rfl, h6, h7, h8, h9, h10, by rw [g5, h11]⟩
    · subst h; exact ⟨rfl, rfl, rfl, by simp [hc], .inl ⟨0, rfl⟩⟩

/-! ## Reading the number from the text -/

theorem cutBefore_ok (re : Regex) (t : Str) : ∃ r b, t = r ++ b ∧ cutBefore re t = .ok r := by
  unfold cutBefore
  cases hx : re.find t with
  | none => exact ⟨t, [], by simp, rfl⟩
  | some x =>
    have fx := find_eq_some hx
    exact ⟨x.pre, x.text ++ x.post, by simpa using fx.split, by simp [fx.stop_eq.2.2.2]⟩

theorem extract_spec (s : Str) : (∃ e, extract s = .err e) ∨ ∃ a r b, extract s = .ok r ∧ s = a ++ r ++ b ∧ r ≠ [] := by
  unfold extract
  cases hm : Consts.validStartChar.find s with
  | none => exact .inl ⟨_, rfl⟩
  | some m =>
    have f := find_eq_some hm
    simp only [f.stop_eq.2.2.1, Outcome.slice_some, Outcome.bind_ok]
    obtain ⟨r1, b1, e1, h1⟩ := cutBefore_ok Consts.unwantedEndChars (m.text ++ m.post)
    obtain ⟨r2, b2, e2, h2⟩ := cutBefore_ok Consts.secondNumberStart r1
    simp only [h1, h2, Outcome.bind_ok]
    split
    · exact .inl ⟨_, rfl⟩
    · rename_i hne
      have hsplit : s = m.pre ++ r2 ++ (b2 ++ b1) := by
        have h1 := f.split
        rw [List.append_assoc, e1, e2] at h1
        rw [h1]; simp
      have hd : dropBytes s (m.start + byteLen r2) = some (b2 ++ b1) := by
        have := dropBytes_append (m.pre ++ r2) (b2 ++ b1)
        rw [← hsplit, byteLen_append] at this
        exact this
      simp only [hd, Outcome.slice_some, Outcome.bind_ok]
      exact .inr ⟨m.pre, r2, b2 ++ b1, rfl, hsplit, by simpa using hne⟩

omit [UnicodeTables] in
theorem rfc_no_panic (s : Str) : ¬ (Rfc3966.phoneNumber s).IsPanic := by
  unfold Rfc3966.phoneNumber
  split
  · simp
  · simp only
    split
    · simp
    · split <;> simp

/-- The natural reader returns a piece of the text as the number and, if there is an extension, reports it. -/
theorem natural_spec (s : Str) : (∃ e, Natural.phoneNumber s = .err e) ∨
    ∃ n a b, Natural.phoneNumber s = .ok n ∧ s = a ++ n.national ++ b ∧ n.pref = none ∧ n.carrier = none := by
  unfold Natural.phoneNumber
  rcases extract_spec s with ⟨e, h⟩ | ⟨a, r, b, h, hs, _⟩
  · rw [h]; exact .inl ⟨_, rfl⟩
  · simp only [h, Outcome.bind_ok]
    cases hm : Consts.extnPattern.find r with
    | none => exact .inr ⟨_, a, b, rfl, hs, rfl, rfl⟩
    | some m =>
      have f := find_eq_some hm
      simp only
      cases m.get 2 with
      | none => exact .inl ⟨_, rfl⟩
      | some ext =>
        simp only [f.stop_eq.2.2.2, Outcome.slice_some, Outcome.bind_ok]
        refine .inr ⟨_, a, m.text ++ m.post ++ b, rfl, ?_, rfl, rfl⟩
        simp only
        have := f.split
        rw [hs, this]; simp

theorem readNumber_no_panic (s : Str) : ¬ (readNumber s).IsPanic := by
  unfold readNumber
  have h1 := rfc_no_panic s
  cases hr : Rfc3966.phoneNumber s with
  | ok n => simp
  | panic p => rw [hr] at h1; simp at h1
  | err e =>
    cases e with
    | failure => simp
    | error =>
      simp only
      rcases natural_spec s with ⟨e, h⟩ | ⟨n, a, b, h, _⟩
      · rw [h]; simp
      · rw [h]; simp

omit [UnicodeTables] in
theorem optTel_suffix (s : Str) : ∃ a, s = a ++ Rfc3966.optTel s := by
  unfold Rfc3966.optTel
  split
  · split
    · exact ⟨[_, _, _, _], rfl⟩
    · exact ⟨[], rfl⟩
  · exact ⟨[], rfl⟩

omit [UnicodeTables] in
theorem optPrefix_suffix (s : Str) : ∃ a, s = a ++ (Rfc3966.optPrefix s).2 := by
  unfold Rfc3966.optPrefix
  split
  · rename_i rest
    simp only
    split
    · exact ⟨[], rfl⟩
    · exact ⟨'+' :: rest.takeWhile fun c => !Rfc3966.separator c, by simp⟩
  · exact ⟨[], rfl⟩

/-- The number part is a piece of the text, and no carrier is read. -/
theorem readNumber_ok {s : Str} {n : Number} (h : readNumber s = .ok n) :
    n.carrier = none ∧ ∃ a b, s = a ++ n.national ++ b := by
  unfold readNumber at h
  split at h
  · rename_i n' hr
    cases h
    unfold Rfc3966.phoneNumber at hr
    split at hr
    · cases hr
    · simp only at hr
      split at hr
      · cases hr
      · split at hr
        · cases hr
        · cases hr
          refine ⟨rfl, ?_⟩
          obtain ⟨a, ha⟩ := optTel_suffix s
          obtain ⟨a', ha'⟩ := optPrefix_suffix (Rfc3966.optTel s)
          refine ⟨a ++ a', (Rfc3966.optPrefix (Rfc3966.optTel s)).2.dropWhile Rfc3966.number, ?_⟩
          simp only
          rw [List.append_assoc, List.takeWhile_append_dropWhile, List.append_assoc, ← ha', ← ha]
  · cases h
  · cases h
  · split at h
    · rename_i n' hn
      cases h
      rcases natural_spec s with ⟨e, he⟩ | ⟨n', a, b, he, hs, _, hc⟩
      · rw [he] at hn; cases hn
      · rw [he] at hn; cases hn; exact ⟨hc, a, b, hs⟩
    · cases h
    · cases h


/-! ## Decomposition of a successful parse -/

theorem parseWith_stages {db : Database} {country : Option Id} {s : Str} {p : PhoneNumber}
    (h : parseWith db country s = .ok p) :
    ∃ n0 n1 md n2, readNumber s = .ok n0 ∧ Spec.Viable n0.national ∧ countryCode db country n0 = .ok n1 ∧
      CodePost db country n0 n1 ∧ parseMeta db country n1 = .ok md ∧ stripNational md n1 = .ok n2 ∧ finishParse n2 = .ok p := by
  unfold parseWith at h
  simp only [Outcome.bind_eq_ok] at h
  obtain ⟨n0, h0, h⟩ := h
  split at h
  · cases h
  · rename_i hv
    have hv : isViable n0.national = true := by simpa using hv
    have hv := (C14_isViable_iff _).1 hv
    simp only [Outcome.bind_eq_ok] at h
    obtain ⟨n1, h1, md, h2, n2, h3, h4⟩ := h
    refine ⟨n0, n1, md, n2, h0, hv, h1, ?_, h2, h3, h4⟩
    rcases countryCode_spec db country n0 hv.no_newline with ⟨he, _⟩ | ⟨e, he, _⟩ | ⟨r, hr, post⟩
    · rw [he] at h1; cases h1
    · rw [he] at h1; cases h1
    · rw [hr] at h1; cases h1; exact post

omit [UnicodeTables] in
theorem prefixCode_no_panic (n : Number) : ¬ (prefixCode n).IsPanic := by
  unfold prefixCode
  split
  · simp
  · cases parseUInt u16Bound _ <;> simp

omit [UnicodeTables] in
theorem finishParse_no_panic (n : Number) : ¬ (finishParse n).IsPanic := by
  unfold finishParse
  split
  · simp
  · split
    · simp
    · apply Outcome.not_isPanic_bind (prefixCode_no_panic n)
      intro _ _
      refine Outcome.not_isPanic_bind ?_ (by simp)
      unfold NationalNumber.fromStr
      have h0 : dropBytes n.national (n.national.takeWhile (· == '0')).length = some (n.national.dropWhile (· == '0')) := by
        have hz : Digits (n.national.takeWhile (· == '0')) := by
          intro c hc
          have := takeWhile_all _ c hc
          simp only [beq_iff_eq] at this
          subst this; rfl
        have := dropBytes_append (n.national.takeWhile (· == '0')) (n.national.dropWhile (· == '0'))
        rwa [List.takeWhile_append_dropWhile, hz.byteLen] at this
      simp only [h0, Outcome.slice_some, Outcome.bind_ok]
      cases parseUInt u64Bound _ with
      | none => simp
      | some v =>
        simp only [Outcome.okOr_some, Outcome.bind_ok, NationalNumber.new]
        split <;> simp

theorem parseMeta_entry {db : Database} {country : Option Id} {n : Number} {md : Metadata}
    (h : parseMeta db country n = .ok (some md)) : Spec.Entry db md := by
  have src : ∀ x, sourceMeta db x = some md → Spec.Entry db md := by
    intro x hx
    cases x with
    | inl r => exact .inl ⟨_, hx⟩
    | inr c =>
      simp only [sourceMeta, Option.bind_eq_some_iff] at hx
      obtain ⟨l, h1, h2⟩ := hx
      exact .inr ⟨c, l, h1, List.mem_of_head? h2⟩
  unfold parseMeta at h
  split at h
  · simp only [Outcome.ok.injEq] at h
    exact .inl ⟨_, h⟩
  · simp only [Outcome.bind_eq_ok, Outcome.pure_eq, Outcome.ok.injEq] at h
    obtain ⟨code, _, o, _, h⟩ := h
    rw [Option.bind_eq_some_iff] at h
    obtain ⟨x, _, hx⟩ := h
    exact src x hx

/-! ## C04 -/

/-- C04: with a database built from territories in which regions sharing a calling code are countries and the first group of a
transform rule's pattern takes part whenever the last does, parsing never panics, whatever the text, if the reference country
is absent or in the database. -/
theorem C04_parse_no_panic (compile : Str → Option Regex) (ms : List Loader.Metadata) (db : Database)
    (hdb : Database.from compile ms = .ok db) (hs : Spec.SharedAreCountries db)
    (hf : ∀ md, Spec.Entry db md → Spec.FirstWithLast md)
    (country : Option Id) (hc : ∀ c, country = some c → (db.byId c.asRef).isSome) (s : Str) :
    ¬ (parseWith db country s).IsPanic := by
  unfold parseWith
  apply Outcome.not_isPanic_bind (readNumber_no_panic s)
  intro n0 h0
  split
  · simp
  · rename_i hv
    have hv : isViable n0.national = true := by simpa using hv
    have hv := (C14_isViable_iff _).1 hv
    rcases countryCode_spec db country n0 hv.no_newline with ⟨_, c, h1, h2⟩ | ⟨e, he, _⟩ | ⟨n1, h1, post⟩
    · have := hc c h1; simp [h2] at this
    · simp [he]
    · simp only [h1, Outcome.bind_ok]
      apply Outcome.not_isPanic_bind
      · unfold parseMeta
        split
        · simp
        · apply Outcome.not_isPanic_bind (prefixCode_no_panic n1)
          intro code _
          obtain ⟨o, ho⟩ := sourceFor_ok (ε := ParseErr) (from_consistent hdb).1 hs code (n1.national.dropWhile (· == '0'))
          simp [ho]
      · intro md hmd
        apply Outcome.not_isPanic_bind
        · apply stripNational_no_panic
          rintro m rfl
          exact hf m (parseMeta_entry hmd)
        · intro n2 _; exact finishParse_no_panic n2

/-- The conditions hold for the sample database; without them parsing can panic. -/
example (s : Str) : ¬ (parseWith Sample.db (some .RU) s).IsPanic ∧ ¬ (parseWith Sample.db none s).IsPanic :=
  ⟨C04_parse_no_panic _ _ _ Sample.from_territories Sample.db_shared Sample.db_firstWithLast _
    (by rintro c ⟨⟩; kernel_rfl) s,
   C04_parse_no_panic _ _ _ Sample.from_territories Sample.db_shared Sample.db_firstWithLast _ (by rintro c ⟨⟩) s⟩
example : parseWith Sample.db (some .DE) (str% "030 123456") = .panic .unwrap := by kernel_rfl

/-! ## The result of a successful parse -/

omit [UnicodeTables] in
theorem finishParse_ok {n : Number} {p : PhoneNumber} (h : finishParse n = .ok p) :
    2 ≤ byteLen n.national ∧ byteLen n.national ≤ 17 ∧ prefixCode n = .ok p.code.value ∧ p.code.source = n.country ∧
    NationalNumber.fromStr n.national = .ok p.national ∧ p.extension = n.extension ∧ p.carrier = n.carrier := by
  unfold finishParse at h
  split at h
  · cases h
  · split at h
    · cases h
    · rename_i h1 h2
      simp only [Outcome.bind_eq_ok, Outcome.pure_eq, Outcome.ok.injEq] at h
      obtain ⟨code, hc, nat, hn, rfl⟩ := h
      unfold Consts.minLengthForNsn at h1
      unfold Consts.maxLengthForNsn at h2
      exact ⟨by omega, by omega, hc, rfl, hn, rfl, rfl⟩

omit [UnicodeTables] in
theorem dropWhile_zero_head (s : Str) : (s.dropWhile (· == '0')).head? ≠ some '0' := by
  induction s with
  | nil => simp
  | cons c s ih =>
    simp only [List.dropWhile_cons]
    split
    · exact ih
    · rename_i h
      intro h'; simp at h'; simp [h'] at h

omit [UnicodeTables] in
theorem takeWhile_zero (s : Str) : s.takeWhile (· == '0') = List.replicate (s.takeWhile (· == '0')).length '0' := by
  rw [List.eq_replicate_iff]
  exact ⟨rfl, fun c hc => by simpa using takeWhile_all _ c hc⟩

omit [UnicodeTables] in
/-- A short digit string read as a national number is displayed unchanged. -/
theorem fromStr_ok_digits {s : Str} {n : NationalNumber} (hd : Digits s) (hl : s.length ≤ 17)
    (h : NationalNumber.fromStr s = .ok n) : n.display = s ∧ n.value.toNat ≠ 0 ∧ n.zeros.toNat + 1 ≤ s.length := by
  have hsplit : s = List.replicate (s.takeWhile (· == '0')).length '0' ++ s.dropWhile (· == '0') := by
    rw [← takeWhile_zero, List.takeWhile_append_dropWhile]
  have hd' : Digits (s.dropWhile (· == '0')) := fun c hc => hd c ((List.dropWhile_sublist _).subset hc)
  have hk : (s.takeWhile (· == '0')).length ≤ s.length := (List.takeWhile_sublist _).length_le
  by_cases hne : s.dropWhile (· == '0') = []
  · exfalso
    unfold NationalNumber.fromStr at h
    rw [hne, List.append_nil] at hsplit
    have hz : dropBytes s (s.takeWhile (· == '0')).length = some [] := by
      have hlen : (s.takeWhile (· == '0')).length = s.length := by
        conv => rhs; rw [hsplit]
        simp
      rw [hlen]
      simpa using hd.dropBytes (n := s.length) (Nat.le_refl _)
    simp [hz, parseUInt, optPlus] at h
  · have hv : decVal (s.dropWhile (· == '0')) < 2 ^ 64 := by
      have h1 := decVal_lt hd'
      have h2 : (s.dropWhile (· == '0')).length ≤ 17 := Nat.le_trans (List.dropWhile_sublist _).length_le hl
      have h3 : 10 ^ (s.dropWhile (· == '0')).length ≤ 10 ^ 17 := Nat.pow_le_pow_right (by omega) h2
      omega
    rw [hsplit, NationalNumber.fromStr_zeros hd' hne (dropWhile_zero_head s) hv] at h
    obtain ⟨h1, h2, h3⟩ := NationalNumber.new_value h
    have hvn : (UInt64.ofNat (decVal (s.dropWhile (· == '0')))).toNat = decVal (s.dropWhile (· == '0')) :=
      UInt64.toNat_ofNat_of_lt' (by simpa using hv)
    obtain ⟨n', g1, g2, g3, g4⟩ := C02_fromStr_display (s.takeWhile (· == '0')).length _ hd' hne (dropWhile_zero_head s)
      (by omega) (by omega)
    rw [NationalNumber.fromStr_zeros hd' hne (dropWhile_zero_head s) hv, h] at g1
    cases g1
    rw [← hsplit] at g4
    refine ⟨g4, ?_, ?_⟩
    · rw [g3]
      intro h0
      have := decStr_decVal hd' hne (dropWhile_zero_head s)
      rw [h0] at this
      have h5 := dropWhile_zero_head s
      rw [← this] at h5
      exact h5 rfl
    · rw [g2]
      have := congrArg List.length hsplit
      simp only [List.length_append, List.length_replicate] at this
      have : 0 < (s.dropWhile (· == '0')).length := List.length_pos_iff.2 hne
      omega

theorem entry_digits {db : Database} {country : Option Id} {n1 n2 : Number} {md : Option Metadata} (hd : Digits n1.national)
    (hc : n1.carrier = none)
    (ht : ∀ md, Spec.Entry db md → ∀ t, md.nationalPrefixTransformRule = some t → Spec.DigitTemplate t)
    (hm : parseMeta db country n1 = .ok md) (h : stripNational md n1 = .ok n2) : Digits n2.national := by
  obtain ⟨_, _, _, _, h5⟩ := stripNational_ok hd hc h
  rcases h5 with ⟨k, h5⟩ | ⟨m, re, t, mm, k, rfl, _, htr, hfind, hpre, _, h5⟩
  · rw [h5]; exact hd.drop k
  · have f := find_eq_some hfind
    have hd' := hd
    rw [f.split] at hd'
    simp only [digits_append] at hd'
    rw [h5]
    apply Digits.drop
    rw [digits_append]
    refine ⟨digits_expand ?_ (ht m (parseMeta_entry hm) t htr), hd'.2⟩
    intro k t hk
    obtain ⟨x, y, hxy⟩ := f.get hk
    rw [hxy] at hd'
    simp only [digits_append] at hd'
    exact hd'.1.2.1.2

/-- C06: a parsed national number has 2 to 17 digits, is not zero and has at most 16 leading zeros, if the transform rules of
the database consist of digits and group references. -/
theorem C06_national_digits (db : Database)
    (ht : ∀ md, Spec.Entry db md → ∀ t, md.nationalPrefixTransformRule = some t → Spec.DigitTemplate t)
    (country : Option Id) (s : Str) (p : PhoneNumber) (h : parseWith db country s = .ok p) :
    2 ≤ p.national.display.length ∧ p.national.display.length ≤ 17 ∧ (∀ c ∈ p.national.display, isDigit c = true) ∧
    1 ≤ p.national.value.toNat ∧ p.national.value.toNat ≤ 2 ^ 56 - 1 ∧ p.national.zeros.toNat ≤ 16 := by
  obtain ⟨n0, n1, md, n2, h0, hv, h1, post, h2, h3, h4⟩ := parseWith_stages h
  have hc : n1.carrier = none := by rw [post.carrier]; exact (readNumber_ok h0).1
  have hd := entry_digits post.norm.national hc ht h2 h3
  obtain ⟨g1, g2, _, _, g3, _⟩ := finishParse_ok h4
  rw [hd.byteLen] at g1 g2
  obtain ⟨e1, e2, e3⟩ := fromStr_ok_digits hd g2 g3
  rw [e1]
  refine ⟨g1, g2, hd, by omega, ?_, by omega⟩
  rw [NationalNumber.toNat_value]; omega

example : (∀ md, Spec.Entry Sample.db md → ∀ t, md.nationalPrefixTransformRule = some t → Spec.DigitTemplate t) ∧
    parseWith Sample.db (some .AR) (str% "011 15-2345-6789") =
      .ok { code := ⟨54, .default⟩, national := ⟨91123456789⟩, extension := none, carrier := some (str% "11") } :=
  ⟨Sample.db_templates, by kernel_rfl⟩

/-- C08: the extension and the carrier of a parsed number consist of ASCII digits. -/
theorem C08_digits (db : Database) (country : Option Id) (s : Str) (p : PhoneNumber) (h : parseWith db country s = .ok p) :
    (∀ e, p.extension = some e → ∀ c ∈ e, isDigit c = true) ∧ (∀ e, p.carrier = some e → ∀ c ∈ e, isDigit c = true) := by
  obtain ⟨n0, n1, md, n2, h0, hv, h1, post, h2, h3, h4⟩ := parseWith_stages h
  have hc : n1.carrier = none := by rw [post.carrier]; exact (readNumber_ok h0).1
  obtain ⟨_, _, k3, k4, _⟩ := stripNational_ok post.norm.national hc h3
  obtain ⟨_, _, _, _, _, g4, g5⟩ := finishParse_ok h4
  refine ⟨?_, ?_⟩
  · intro e he
    rw [g4, k3] at he
    exact post.norm.extension e he
  · intro e he
    rw [g5] at he
    exact k4 e he

example : parseWith Sample.db none (str% "tel:+54-01115-2345-6789;ext=1.2") =
    .ok { code := ⟨54, .plus⟩, national := ⟨91123456789⟩, extension := some (str% "12"), carrier := some (str% "11") } := by
  kernel_rfl

theorem parsed_code {db : Database} {country : Option Id} {s : Str} {p : PhoneNumber} (h : parseWith db country s = .ok p) :
    ((p.code.source = .plus ∨ p.code.source = .idd) → (db.byCode p.code.value).isSome) ∧
    ((p.code.source = .number ∨ p.code.source = .default) →
      ∃ c md, country = some c ∧ db.byId c.asRef = some md ∧ p.code.value = md.countryCode) := by
  obtain ⟨n0, n1, md, n2, h0, hv, h1, post, h2, h3, h4⟩ := parseWith_stages h
  have hc : n1.carrier = none := by rw [post.carrier]; exact (readNumber_ok h0).1
  obtain ⟨k1, k2, _, _, _⟩ := stripNational_ok post.norm.national hc h3
  obtain ⟨_, _, g1, g2, _⟩ := finishParse_ok h4
  rw [k1] at g2
  unfold prefixCode at g1
  rw [k2] at g1
  rw [g2]
  refine ⟨fun hs => ?_, fun hs => ?_⟩
  · obtain ⟨pr, code, e1, e2, e3⟩ := post.intl hs
    rw [e1] at g1
    simp only [e2, Outcome.okOr_some, Outcome.ok.injEq] at g1
    rw [← g1]; exact e3
  · obtain ⟨c, m, e1, e2, e3⟩ := post.natl hs
    refine ⟨c, m, e1, e2, ?_⟩
    rw [e3] at g1
    simp only [Outcome.okOr_eq_ok] at g1
    obtain ⟨_, ds, hds, _, _, hval⟩ := parseUInt_eq_some g1
    rcases hds with hds | hds
    · rw [← hval, ← hds, decVal_decStr]
    · exfalso
      have := digits_decStr m.countryCode
      rw [hds] at this
      simp [isDigit] at this

/-- C12: a number written nationally gets the calling code of the reference country. -/
theorem C12_reference_code (db : Database) (c : Id) (md : Metadata) (hmd : db.byId c.asRef = some md) (s : Str) (p : PhoneNumber)
    (h : parseWith db (some c) s = .ok p) (hs : p.code.source = .default ∨ p.code.source = .number) :
    p.code.value = md.countryCode := by
  obtain ⟨c', md', h1, h2, h3⟩ := (parsed_code h).2 hs.symm
  cases h1
  rw [hmd] at h2
  cases h2
  exact h3

example : (Sample.db.byId (Id.asRef .RU)).map (·.countryCode) = some 7 ∧
    parseWith Sample.db (some .RU) (str% "8 912 345-67-89") =
      .ok { code := ⟨7, .default⟩, national := ⟨9123456789⟩, extension := none, carrier := none } ∧
    parseWith Sample.db (some .RU) (str% "7 912 345-67-89") =
      .ok { code := ⟨7, .number⟩, national := ⟨9123456789⟩, extension := none, carrier := none } :=
  ⟨by kernel_rfl, by kernel_rfl, by kernel_rfl⟩

end Phone
