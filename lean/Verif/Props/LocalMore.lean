import Verif.Props.Local
/-! # C76: some territories are enough -/

namespace Phone
open Database
variable [UnicodeTables]

omit [UnicodeTables] in
theorem codeLoop_more {db db' : Database} (hk : ∀ k, (db.byCode k).isSome → (db'.byCode k).isSome) (hp : Spec.PrefixFree db') {n r : Number}
    (hd : Digits n.national) (h3 : 3 ≤ n.national.length) (h0 : startsWith n.national ['0'] = false)
    (h : Helper.codeLoop db n ((List.range Consts.maxLengthForCountryCode).map (· + 1)) = .ok r) :
    Helper.codeLoop db' n ((List.range Consts.maxLengthForCountryCode).map (· + 1)) = .ok r := by
  have hlens : (List.range Consts.maxLengthForCountryCode).map (· + 1) = [1, 2, 3] := by decide
  rw [hlens] at h ⊢
  have hl : ∀ l ∈ [1, 2, 3], 0 < l ∧ l ≤ 3 ∧ l ≤ n.national.length := by intro l hl; simp at hl; omega
  have hne : ∀ l ∈ [1, 2, 3], (n.national.take l).length = l := by
    intro l h
    have := hl l h
    rw [List.length_take]; omega
  have hdec : ∀ l ∈ [1, 2, 3], decStr (decVal (n.national.take l)) = n.national.take l := by
    intro l h
    refine decStr_decVal (hd.take l) (fun e => ?_) fun e => ?_
    · have h1 := hne l h
      have h2 := hl l h
      rw [e, List.length_nil] at h1; omega
    · rw [List.head?_take, if_neg (by have := hl l h; omega)] at e
      obtain ⟨t, ht⟩ := List.head?_eq_some_iff.1 e
      rw [ht] at h0
      cases h0
  rcases codeLoop_spec db n hd _ hl with ⟨e, _⟩ | ⟨b, len, a, e1, _, e2, e3⟩
  · rw [e] at h; cases h
  · rw [e3] at h
    have hm : len ∈ [1, 2, 3] := by rw [e1]; simp
    rcases codeLoop_spec db' n hd _ hl with ⟨_, e⟩ | ⟨b', len', a', e1', _, e2', e3'⟩
    · have := hk _ e2
      rw [e len hm] at this; cases this
    · have hm' : len' ∈ [1, 2, 3] := by rw [e1']; simp
      have key : ∀ {x y : Nat}, x ∈ [1, 2, 3] → y ∈ [1, 2, 3] → x ≤ y → (db'.byCode (decVal (n.national.take x))).isSome →
          (db'.byCode (decVal (n.national.take y))).isSome → x = y := by
        intro x y hx hy hxy h1 h2
        have := hp _ _ h1 h2 (by rw [hdec x hx, hdec y hy]; exact List.take_prefix_take_left hxy)
        rw [← hne x hx, ← hne y hy, ← hdec x hx, ← hdec y hy, this]
      have : len = len' := by
        rcases Nat.le_total len len' with hle | hle
        · exact key hm hm' hle (hk _ e2) e2'
        · exact (key hm' hm hle e2' (hk _ e2)).symm
      subst this
      rw [e3', h]

theorem countryCode_more {db db' : Database} (hk : ∀ k, (db.byCode k).isSome → (db'.byCode k).isSome) (hp : Spec.PrefixFree db')
    {country : Option Id} (hcountry : ∀ i : Id, country = some i → db.byId i.asRef = db'.byId i.asRef) {n r : Number} (hn : '\n' ∉ n.national)
    (h : Helper.countryCode db country n = .ok r) : Helper.countryCode db' country n = .ok r := by
  have hb : (country.bind fun c => db.byId c.asRef) = country.bind fun c => db'.byId c.asRef := by
    cases country with
    | none => rfl
    | some i => exact hcountry i rfl
  unfold Helper.countryCode at h ⊢
  rw [← hb]
  simp only [Outcome.bind_eq_ok] at h
  obtain ⟨n1, h1, h⟩ := h
  simp only [h1, Outcome.bind_ok]
  obtain ⟨r', hr', post⟩ := internationalPrefix_spec (ε := ParseErr)
    (((country.bind fun c => db.byId c.asRef).bind (·.internationalPrefix)).or (if country.isNone then some Consts.defaultIdd else none)) n hn
  rw [h1, Outcome.ok.injEq] at hr'
  subst hr'
  have main : ∀ {n1 : Number}, Digits n1.national → (if byteLen n1.national ≤ Consts.minLengthForNsn then (.err .tooShortNsn : Outcome ParseErr Number)
      else match n1.pref with
      | some p => do
        let code ← Outcome.okOr (.malformedInteger (intErr u16Bound p)) (parseUInt u16Bound p)
        if (db.byCode code).isNone then .err .invalidCountryCode else .ok n1
      | none =>
        if startsWith n1.national ['0'] then .err .invalidCountryCode
        else Helper.codeLoop db n1 ((List.range Consts.maxLengthForCountryCode).map (· + 1))) = .ok r →
      (if byteLen n1.national ≤ Consts.minLengthForNsn then (.err .tooShortNsn : Outcome ParseErr Number)
      else match n1.pref with
      | some p => do
        let code ← Outcome.okOr (.malformedInteger (intErr u16Bound p)) (parseUInt u16Bound p)
        if (db'.byCode code).isNone then .err .invalidCountryCode else .ok n1
      | none =>
        if startsWith n1.national ['0'] then .err .invalidCountryCode
        else Helper.codeLoop db' n1 ((List.range Consts.maxLengthForCountryCode).map (· + 1))) = .ok r := by
    intro n1 hd h
    split at h
    · cases h
    · rename_i hlen
      rw [if_neg hlen]
      have hlen : 3 ≤ n1.national.length := by
        rw [hd.byteLen] at hlen
        have : Consts.minLengthForNsn = 2 := rfl
        omega
      split at h
      · rename_i p hpref
        simp only [Outcome.bind_eq_ok] at h
        obtain ⟨code, hc, h⟩ := h
        simp only [hc, Outcome.bind_ok]
        split at h
        · cases h
        · rename_i hnone
          have := hk code (by rw [Option.isNone_iff_eq_none] at hnone; exact Option.isSome_iff_ne_none.2 hnone)
          rw [if_neg (by rw [Option.isNone_iff_eq_none]; exact Option.isSome_iff_ne_none.1 this)]
          exact h
      · split at h
        · cases h
        · rename_i h0
          rw [if_neg h0]
          exact codeLoop_more hk hp hd hlen (by simpa using h0) h
  split at h
  · exact main post.norm.national h
  · exact main post.norm.national h
  · exact main post.norm.national h
  · split at h
    · cases h
    · rename_i i
      rw [← hcountry i rfl]
      exact h

/-- C76: a text that some of the territories of a metadata file are enough to read is read as the same number with all of them, provided
those of the number's calling code and of the reference country are among them (and no calling code begins another). -/
theorem C76_some (compile : Str → Option Regex) (ms ms' : List Loader.Metadata) (db db' : Database)
    (hdb : Database.from compile ms = .ok db) (hdb' : Database.from compile ms' = .ok db')
    (hid : ((ms.filterMap (·.id)).filter (· ≠ worldId)).Nodup) (hid' : ((ms'.filterMap (·.id)).filter (· ≠ worldId)).Nodup)
    (hs : Spec.SharedAreCountries db) (hs' : Spec.SharedAreCountries db') (hp : Spec.PrefixFree db')
    (country : Option Id) (s : Str) (p : PhoneNumber) (h : parseWith db country s = .ok p)
    (hsub : ∀ m ∈ ms, m ∈ ms')
    (hcountry : ∀ i : Id, country = some i → ms.filter (·.id == some i.asRef) = ms'.filter (·.id == some i.asRef))
    (hc : ms.filter (·.countryCode == some p.code.value) = ms'.filter (·.countryCode == some p.code.value)) :
    parseWith db' country s = .ok p := by
  have hb := byCode_local hdb hdb' hc
  have hcn : ∀ i : Id, country = some i → db.byId i.asRef = db'.byId i.asRef := fun i hi => byId_local compile ms ms' db db' hdb hdb' (hcountry i hi)
  have hk : ∀ k, (db.byCode k).isSome → (db'.byCode k).isSome := by
    obtain ⟨_, _, _, h1, _⟩ := C27_indexes ms db hdb
    obtain ⟨_, _, _, h2, _⟩ := C27_indexes ms' db' hdb'
    intro k
    rw [h1, h2]
    rintro ⟨m, hm, e⟩
    exact ⟨m, hsub m hm, e⟩
  obtain ⟨n0, n1, md, n2, e0, hv, h1, post, h3, h4, h5⟩ := parseWith_stages h
  unfold parseWith
  rw [e0]
  simp only [Outcome.bind_ok]
  rw [if_neg (by rw [(C14_isViable_iff _).2 hv]; simp), countryCode_more hk hp hcn hv.no_newline h1]
  simp only [Outcome.bind_ok]
  have hcode : prefixCode n1 = .ok p.code.value := by
    have hp : prefixCode n2 = .ok p.code.value := by
      unfold finishParse at h5
      split at h5
      · cases h5
      · split at h5
        · cases h5
        · simp only [Outcome.bind_eq_ok, Outcome.pure_eq, Outcome.ok.injEq] at h5
          obtain ⟨c, hcc, _, _, rfl⟩ := h5
          exact hcc
    rw [← hp, prefixCode, prefixCode, stripNational_pref h4]
  have hmd : parseMeta db' country n1 = .ok md := by
    unfold parseMeta at h3 ⊢
    split at h3
    · rw [← hcn _ rfl]; exact h3
    · obtain ⟨src, src', e1, e2, e3⟩ := source_local compile ms ms' db db' hdb hdb' hid hid' hs hs' ParseErr hb
        (n1.national.dropWhile (· == '0'))
      simp only [hcode, Outcome.bind_ok, e1, Outcome.pure_eq, Outcome.ok.injEq] at h3
      simp only [hcode, Outcome.bind_ok, e2, Outcome.pure_eq, Outcome.ok.injEq]
      rw [← e3]; exact h3
  rw [hmd]
  simp only [Outcome.bind_ok]
  rw [h4]
  simp only [Outcome.bind_ok]
  exact h5

end Phone
