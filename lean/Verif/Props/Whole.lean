import Verif.Props.Reading
import Verif.Props.Dialling
import Verif.Props.Trunk
/-! # C66: the whole parser -/

namespace Phone
open Helper

variable [UnicodeTables]

/-! ## Dialling prefixes -/

theorem stripIdd_of_dialled {ε : Type} {db : Database} {country : Option Id} {n : Number} {rest : Str}
    (h : Spec.Dialled db country n.national rest) (h0 : ¬ ['0'] <+: rest) : stripIdd (ε := ε) (iddFor db country) n =
      .ok { n with national := rest, country := if n.country = .plus then .plus else .idd } := by
  obtain ⟨re, m, h1, h2, h3, h4⟩ := dialled_find h
  have f := find_eq_some h2
  have hs : m.start = 0 := Match.start_eq_zero.2 h3
  have hdrop : dropBytes n.national m.stop = some rest := by rw [← h4]; exact f.stop_eq.1
  unfold stripIdd
  simp only [h1, Option.bind_some, h2, hs, if_true, hdrop, Outcome.slice_some, Outcome.bind_ok, trim]
  rw [if_neg]
  intro hh
  obtain ⟨t, ht⟩ := startsWith_iff.1 hh
  exact h0 ⟨t, ht.symm⟩

theorem dialled_of_find {db : Database} {country : Option Id} {ds : Str} {re : Regex} {m : Match} (h1 : iddFor db country = some re)
    (h2 : re.find ds = some m) (h3 : m.pre = []) : Spec.Dialled db country ds m.post := by
  have f := find_eq_some h2
  cases country with
  | none =>
    have h1 : Consts.defaultIdd = re := by simpa [iddFor] using h1
    subst h1
    obtain ⟨u, v, ht, hu, hv⟩ := lang_cat.1 f.lang
    rw [lang_chr.1 hu, lang_chr.1 hv] at ht
    have := f.split
    rw [h3, ht] at this
    simpa [Spec.Dialled] using this
  | some c =>
    cases hb : db.byId c.asRef with
    | none => simp [iddFor, hb] at h1
    | some md =>
      have h1 : md.internationalPrefix = some re := by simpa [iddFor, hb] using h1
      exact ⟨md, re, m, hb, h1, h2, h3, rfl⟩

theorem stripIdd_of_not_dialled {ε : Type} {db : Database} {country : Option Id} {n : Number}
    (h : ∀ rest, Spec.Dialled db country n.national rest → ['0'] <+: rest) : stripIdd (ε := ε) (iddFor db country) n = .ok n := by
  unfold stripIdd
  split
  · rfl
  · rename_i m hm
    split
    · rename_i hs
      obtain ⟨re, h1, h2⟩ := Option.bind_eq_some_iff.1 hm
      have f := find_eq_some h2
      have h0 := h _ (dialled_of_find h1 h2 (Match.start_eq_zero.1 hs))
      have hdrop : dropBytes n.national m.stop = some m.post := f.stop_eq.1
      simp only [hdrop, Outcome.slice_some, Outcome.bind_ok]
      rw [if_pos]
      obtain ⟨t, ht⟩ := h0
      exact startsWith_iff.2 ⟨t, ht.symm⟩
    · rfl

theorem stripIdd_guard {ε : Type} {idd : Option Regex} {n : Number} :
    (if !((idd.map fun re => matchesAtStart re n.national).getD false) then .ok n else stripIdd (ε := ε) idd n) = stripIdd idd n := by
  split
  · rename_i h
    unfold stripIdd
    cases idd with
    | none => rfl
    | some re =>
      simp only [Option.map_some, Option.getD_some, Bool.not_eq_true'] at h
      simp only [Option.bind_some]
      cases hf : re.find n.national with
      | none => rfl
      | some m =>
        simp only [matchesAtStart, hf, Option.map_some, Option.getD_some, decide_eq_false_iff_not] at h
        simp only [if_neg h]
  · rfl

/-! ## The start of a number -/

/-- The number with its digits. -/
def Spec.Reading.digitised (r : Spec.Reading) (src : Source) (ds : Str) : Number :=
  { country := src
    national := ds
    pref := r.code.map (act (mapFor (Spec.vanity r.number)))
    extension := r.extension.map (act (mapFor (Spec.vanity r.number))) }

theorem internationalPrefix_apart {ε : Type} (idd : Option Regex) {r : Spec.Reading} (hn : '\n' ∉ r.number) {t ds : Str}
    (hc : r.code = some t) (hd : Spec.Digitised (Spec.vanity r.number) r.number ds) :
    internationalPrefix (ε := ε) idd r.toNumber = .ok (r.digitised .plus ds) := by
  unfold internationalPrefix
  simp only [Spec.Reading.toNumber, validAlphaPhone_iff hn]
  rw [if_pos (by simp [hc])]
  simp only [normalize, Spec.Reading.digitised]
  rw [← act_iff_digitised.2 hd]
  rfl

theorem internationalPrefix_plus {ε : Type} (idd : Option Regex) {r : Spec.Reading} (hn : '\n' ∉ r.number) {ds : Str}
    (hc : r.code = none) (hd : Spec.Digitised (Spec.vanity r.number) r.number ds)
    (hp : ∃ c, r.number.head? = some c ∧ Spec.isPlus c = true) :
    internationalPrefix (ε := ε) idd r.toNumber = stripIdd idd (r.digitised .plus ds) := by
  unfold internationalPrefix
  simp only [Spec.Reading.toNumber, validAlphaPhone_iff hn]
  rw [if_neg (by simp [hc])]
  obtain ⟨c, h1, h2⟩ := hp
  rw [if_pos]
  · obtain ⟨e1, e2, _⟩ := span_eq Valid.plus r.number
    have hdrop : dropBytes r.number (byteLen (r.number.takeWhile Valid.plus)) = some (r.number.dropWhile Valid.plus) := by
      have := dropBytes_append (r.number.takeWhile Valid.plus) (r.number.dropWhile Valid.plus)
      rwa [← e1] at this
    have hact : act (mapFor (Spec.vanity r.number)) (r.number.dropWhile Valid.plus) = ds := by
      rw [← act_iff_digitised.2 hd]
      conv => rhs; arg 2; rw [e1]
      rw [act_plus]
      intro c hc; rw [← plus_eq]; exact e2 c hc
    simp only [trim, hdrop, Outcome.slice_some, Outcome.bind_ok]
    rw [stripIdd_guard]
    unfold Spec.Reading.digitised
    rw [← hact]
    rfl
  · intro h0
    rw [byteLen_eq_zero] at h0
    cases hr : r.number with
    | nil => rw [hr] at h1; cases h1
    | cons d t =>
      rw [hr] at h1 h0
      cases h1
      rw [← plus_eq] at h2
      simp [h2] at h0

theorem internationalPrefix_none {ε : Type} (idd : Option Regex) {r : Spec.Reading} (hn : '\n' ∉ r.number) {ds : Str}
    (hc : r.code = none) (hd : Spec.Digitised (Spec.vanity r.number) r.number ds)
    (hp : ∀ c, r.number.head? = some c → Spec.isPlus c = false) :
    internationalPrefix (ε := ε) idd r.toNumber = stripIdd idd (r.digitised .default ds) := by
  unfold internationalPrefix
  simp only [Spec.Reading.toNumber, validAlphaPhone_iff hn]
  rw [if_neg (by simp [hc]), if_neg]
  · unfold Spec.Reading.digitised
    rw [← act_iff_digitised.2 hd]
    rfl
  · cases hr : r.number with
    | nil => simp
    | cons d t =>
      have := hp d (by rw [hr]; rfl)
      rw [← plus_eq] at this
      simp [this]

theorem internationalPrefix_international {ε : Type} {db : Database} {country : Option Id} {r : Spec.Reading} (hn : '\n' ∉ r.number)
    {ds rest : Str} {src : Source} (hc : r.code = none) (hd : Spec.Digitised (Spec.vanity r.number) r.number ds)
    (h : Spec.International db country r.number ds src rest) :
    internationalPrefix (ε := ε) (iddFor db country) r.toNumber = .ok (r.digitised src rest) := by
  cases h with
  | plus hp h =>
    rw [internationalPrefix_plus _ hn hc hd hp, stripIdd_of_not_dialled]
    exact h
  | plusDialled hp h h0 =>
    rw [internationalPrefix_plus _ hn hc hd hp, stripIdd_of_dialled (n := r.digitised .plus ds) h h0]
    rfl
  | dialled hp h h0 =>
    rw [internationalPrefix_none _ hn hc hd hp, stripIdd_of_dialled (n := r.digitised .default ds) h h0]
    rfl

/-! ## The calling code -/

omit [UnicodeTables] in
theorem parseUInt_nil (b : Nat) : parseUInt b [] = none := by simp [parseUInt, optPlus]

omit [UnicodeTables] in
theorem shortest_small {db : Database} {ds : Str} (hd : Digits ds) {l : Nat} (h : Spec.ShortestCode db ds l) :
    decVal (ds.take l) < 65536 := by
  have h5 := decVal_lt (hd.take l)
  have h6 : (ds.take l).length ≤ 3 := by have := h.2.1; simp; omega
  have h4 : 10 ^ (ds.take l).length ≤ 10 ^ 3 := Nat.pow_le_pow_right (by omega) h6
  omega

omit [UnicodeTables] in
theorem codeLoop_shortest {db : Database} {n : Number} (hd : Digits n.national) (h3 : 3 ≤ n.national.length) {l : Nat}
    (h : Spec.ShortestCode db n.national l) : codeLoop db n ((List.range Consts.maxLengthForCountryCode).map (· + 1)) =
      .ok { n with national := n.national.drop l, pref := some (decStr (decVal (n.national.take l))) } := by
  have hlens : (List.range Consts.maxLengthForCountryCode).map (· + 1) = [1, 2, 3] := by decide
  obtain ⟨hl1, hl3, hs, hleast⟩ := h
  rw [hlens]
  rcases codeLoop_spec db n hd [1, 2, 3] (by intro l hl; simp at hl; omega) with ⟨_, h2⟩ | ⟨before, len, after, hl, h1, h2, e⟩
  · have := h2 l (by simp; omega)
    rw [this] at hs; cases hs
  · have hlen : len = l := by
      have hmem : len ∈ [1, 2, 3] := by rw [hl]; simp
      have hsorted : ∀ k, k ∈ [1, 2, 3] → k < len → k ∈ before := by
        intro k hk hlt
        have hp : List.Pairwise (· < ·) [1, 2, 3] := by decide
        rw [hl] at hk hp
        simp only [List.mem_append, List.mem_cons] at hk
        rcases hk with h | rfl | h
        · exact h
        · omega
        · have := (List.pairwise_cons.1 (List.pairwise_append.1 hp).2.1).1 k h
          omega
      rcases Nat.lt_trichotomy len l with h | h | h
      · have := hleast len (by simp at hmem; omega) h
        rw [this] at h2; cases h2
      · exact h
      · have := h1 l (hsorted l (by simp; omega) h)
        rw [this] at hs; cases hs
    rw [e, hlen]

omit [UnicodeTables] in
theorem codeLoop_no_code {db : Database} {n : Number} (hd : Digits n.national) (h3 : 3 ≤ n.national.length)
    (h : ∀ l, ¬ Spec.ShortestCode db n.national l) :
    codeLoop db n ((List.range Consts.maxLengthForCountryCode).map (· + 1)) = .err .invalidCountryCode := by
  have hlens : (List.range Consts.maxLengthForCountryCode).map (· + 1) = [1, 2, 3] := by decide
  rw [hlens]
  rcases codeLoop_spec db n hd [1, 2, 3] (by intro l hl; simp at hl; omega) with ⟨e, _⟩ | ⟨before, len, after, hl, h1, h2, _⟩
  · exact e
  · exfalso
    have hmem : len ∈ [1, 2, 3] := by rw [hl]; simp
    have hsorted : ∀ k, k ∈ [1, 2, 3] → k < len → k ∈ before := by
      intro k hk hlt
      have hp : List.Pairwise (· < ·) [1, 2, 3] := by decide
      rw [hl] at hk hp
      simp only [List.mem_append, List.mem_cons] at hk
      rcases hk with h | rfl | h
      · exact h
      · omega
      · have := (List.pairwise_cons.1 (List.pairwise_append.1 hp).2.1).1 k h
        omega
    simp at hmem
    exact h len ⟨by omega, by omega, h2, fun k hk hlt => h1 k (hsorted k (by simp; omega) hlt)⟩

theorem Spec.International.digits {db : Database} {country : Option Id} {number ds rest : Str} {src : Source} (hd : Digits ds)
    (h : Spec.International db country number ds src rest) : Digits rest := by
  cases h with
  | plus _ _ => exact hd
  | plusDialled _ h _ => exact (dialled_digits hd h).1
  | dialled _ h _ => exact (dialled_digits hd h).1

omit [UnicodeTables] in
theorem Spec.Digitised.digits {v : Bool} {s ds : Str} (h : Spec.Digitised v s ds) : Digits ds := by
  rw [← act_iff_digitised.2 h]
  exact act_digits (digitMap_mapFor v) s

theorem Spec.International.source {db : Database} {country : Option Id} {number ds rest : Str} {src : Source}
    (h : Spec.International db country number ds src rest) : src = .plus ∨ src = .idd := by
  cases h <;> simp

theorem countryCode_international {db : Database} {country : Option Id} {r : Spec.Reading} (hn : '\n' ∉ r.number)
    {ds rest : Str} {src : Source} (hc : r.code = none) (hd : Spec.Digitised (Spec.vanity r.number) r.number ds)
    (h : Spec.International db country r.number ds src rest) : countryCode db country r.toNumber =
      if rest.length ≤ 2 then .err .tooShortNsn
      else if startsWith rest ['0'] then .err .invalidCountryCode
      else codeLoop db (r.digitised src rest) ((List.range Consts.maxLengthForCountryCode).map (· + 1)) := by
  have hi := internationalPrefix_international (ε := ParseErr) hn hc hd h
  unfold countryCode
  simp only [iddFor] at hi
  simp only [hi, Outcome.bind_ok]
  have hdr := h.digits hd.digits
  have hp : (r.digitised src rest).pref = none := by simp [Spec.Reading.digitised, hc]
  simp only [hp, show (r.digitised src rest).national = rest from rfl, hdr.byteLen, Consts.minLengthForNsn,
    show (r.digitised src rest).country = src from rfl]
  rcases h.source with rfl | rfl <;> rfl

theorem countryCode_apart {db : Database} {country : Option Id} {r : Spec.Reading} (hn : '\n' ∉ r.number) {ds t cs : Str}
    (hc : r.code = some t) (hd : Spec.Digitised (Spec.vanity r.number) r.number ds) (hcs : Spec.Digitised (Spec.vanity r.number) t cs) :
    countryCode db country r.toNumber =
      if ds.length ≤ 2 then .err .tooShortNsn
      else Outcome.okOr (.malformedInteger (intErr u16Bound cs)) (parseUInt u16Bound cs) >>= fun code =>
        if (db.byCode code).isNone then .err .invalidCountryCode else .ok (r.digitised .plus ds) := by
  have hi := internationalPrefix_apart (ε := ParseErr) (iddFor db country) hn hc hd
  unfold countryCode
  simp only [iddFor] at hi
  simp only [hi, Outcome.bind_ok]
  have hp : (r.digitised .plus ds).pref = some cs := by simp [Spec.Reading.digitised, hc, act_iff_digitised.2 hcs]
  simp only [hp, show (r.digitised .plus ds).national = ds from rfl, hd.digits.byteLen, Consts.minLengthForNsn,
    show (r.digitised .plus ds).country = .plus from rfl]

theorem countryCode_domestic {db : Database} {country : Option Id} {r : Spec.Reading} (hn : '\n' ∉ r.number) {ds : Str}
    (hc : r.code = none) (hd : Spec.Digitised (Spec.vanity r.number) r.number ds) : Spec.Domestic db country r.number ds →
    countryCode db country r.toNumber =
      match country with
      | none => .err .invalidCountryCode
      | some c => Outcome.unwrap (db.byId c.asRef) >>= fun md =>
        if startsWith ds (decStr md.countryCode) &&
            (!md.descriptors.general.isMatch ds || !(length md ds .unknown).possible) then
          trim ds (byteLen (decStr md.countryCode)) >>= fun nat =>
            .ok ({ r.digitised .number nat with pref := some (decStr md.countryCode) } : Number)
        else .ok ({ r.digitised .default ds with pref := some (decStr md.countryCode) } : Number) := by
  intro h
  have hi := internationalPrefix_none (ε := ParseErr) (iddFor db country) hn hc hd h.1
  rw [stripIdd_of_not_dialled (n := r.digitised .default ds) h.2] at hi
  unfold countryCode
  simp only [iddFor] at hi
  simp only [hi, Outcome.bind_ok]
  rfl

theorem ownCode_iff {md : Metadata} {ds : Str} : (startsWith ds (decStr md.countryCode) &&
      (!md.descriptors.general.isMatch ds || !(length md ds .unknown).possible)) = true ↔ Spec.OwnCode md ds := by
  unfold Spec.OwnCode
  rw [← length_possible, ← C26_isMatch_iff, Bool.and_eq_true, startsWith_iff]
  constructor
  · rintro ⟨⟨t, ht⟩, h⟩
    refine ⟨⟨t, ht.symm⟩, ?_⟩
    rintro ⟨h1, h2⟩
    simp [h1, h2] at h
  · rintro ⟨⟨t, ht⟩, h⟩
    refine ⟨⟨t, ht.symm⟩, ?_⟩
    cases h1 : md.descriptors.general.isMatch ds <;> cases h2 : (length md ds .unknown).possible <;> simp_all

/-- What the calling code stage gives. -/
theorem countryCode_of {db : Database} (hcc : ∀ md, Spec.Entry db md → md.countryCode < 65536) {country : Option Id} {r : Spec.Reading}
    (hn : '\n' ∉ r.number) {ds : Str} (hd : Spec.Digitised (Spec.vanity r.number) r.number ds)
    {o : Outcome ParseErr (Nat × Source × Str)} (h : Spec.Coded db country r ds o) :
    (∀ e, o = .err e → countryCode db country r.toNumber = .err e) ∧
    ∀ c src rest, o = .ok (c, src, rest) → ∃ p, countryCode db country r.toNumber =
      .ok { r.digitised src rest with pref := some p } ∧ parseUInt u16Bound p = some c ∧ Digits rest := by
  cases h with
  | @apartShort t h1 h2 =>
    refine ⟨?_, by rintro _ _ _ ⟨⟩⟩
    rintro e ⟨⟩
    rw [countryCode_apart hn h1 hd (act_iff_digitised.1 rfl), if_pos h2]
  | @apartEmpty t h1 h2 h3 =>
    refine ⟨?_, by rintro _ _ _ ⟨⟩⟩
    rintro e ⟨⟩
    rw [countryCode_apart hn h1 hd h3, if_neg (by omega), parseUInt_nil]
    rfl
  | @apartLarge t cs h1 h2 h3 h4 =>
    refine ⟨?_, by rintro _ _ _ ⟨⟩⟩
    rintro e ⟨⟩
    rw [countryCode_apart hn h1 hd h3, if_neg (by omega)]
    have hne : cs ≠ [] := by rintro rfl; simp [decVal] at h4
    have : parseUInt u16Bound cs = none := by
      rw [parseUInt_digits h3.digits hne, if_neg]
      unfold u16Bound
      omega
    rw [((intErr_digits (by decide) h3.digits this).resolve_left fun e => hne e.1).2.2, this]; rfl
  | @apartUnknown t cs h1 h2 h3 h4 h5 h6 =>
    refine ⟨?_, by rintro _ _ _ ⟨⟩⟩
    rintro e ⟨⟩
    rw [countryCode_apart hn h1 hd h3, if_neg (by omega), parseUInt_digits h3.digits h4, if_pos (by unfold u16Bound; omega)]
    simp [h6]
  | @apart t cs h1 h2 h3 h4 h5 h6 =>
    refine ⟨by rintro _ ⟨⟩, ?_⟩
    rintro c src rest ⟨⟩
    have hu : parseUInt u16Bound cs = some (decVal cs) := by
      rw [parseUInt_digits h3.digits h4, if_pos (by unfold u16Bound; omega)]
    refine ⟨cs, ?_, hu, hd.digits⟩
    rw [countryCode_apart hn h1 hd h3, if_neg (by omega), hu]
    have hb : (db.byCode (decVal cs)).isNone = false := by
      cases hb : db.byCode (decVal cs) with
      | none => rw [hb] at h6; cases h6
      | some _ => rfl
    have hp : (r.digitised .plus ds).pref = some cs := by simp [Spec.Reading.digitised, h1, act_iff_digitised.2 h3]
    simp only [Outcome.okOr_some, Outcome.bind_ok, hb, Bool.false_eq_true, if_false]
    rw [← hp]
  | short h1 h2 h3 =>
    refine ⟨?_, by rintro _ _ _ ⟨⟩⟩
    rintro e ⟨⟩
    rw [countryCode_international hn h1 hd h2, if_pos h3]
  | @unknown src rest h1 h2 h3 h4 =>
    refine ⟨?_, by rintro _ _ _ ⟨⟩⟩
    rintro e ⟨⟩
    rw [countryCode_international hn h1 hd h2, if_neg (by omega)]
    split
    · rfl
    · rename_i h0
      apply codeLoop_no_code (n := r.digitised src rest) (h2.digits hd.digits) h3
      rcases h4 with ⟨t, ht⟩ | h4
      · exact absurd (startsWith_iff.2 ⟨t, ht.symm⟩) h0
      · exact h4
  | @known src rest l h1 h2 h3 h4 h5 =>
    refine ⟨by rintro _ ⟨⟩, ?_⟩
    rintro c src' rest' ⟨⟩
    have hdr := h2.digits hd.digits
    refine ⟨_, ?_, parseUInt_decStr (b := u16Bound) (shortest_small hdr h5), hdr.drop l⟩
    rw [countryCode_international hn h1 hd h2, if_neg (by omega), if_neg]
    · exact codeLoop_shortest (n := r.digitised src rest) hdr h3 h5
    · intro h
      obtain ⟨t, ht⟩ := startsWith_iff.1 h
      exact h4 ⟨t, ht.symm⟩
  | nowhere h1 h2 h3 =>
    refine ⟨?_, by rintro _ _ _ ⟨⟩⟩
    rintro e ⟨⟩
    rw [countryCode_domestic hn h1 hd h2, h3]
  | @own c md rest h1 h2 h3 h4 h5 h6 =>
    refine ⟨by rintro _ ⟨⟩, ?_⟩
    rintro c' src' rest' ⟨⟩
    have he : Spec.Entry db md := .inl ⟨_, h4⟩
    refine ⟨_, ?_, parseUInt_decStr (b := u16Bound) (hcc md he), ?_⟩
    · rw [countryCode_domestic hn h1 hd h2]
      subst h3
      have hdrop : dropBytes ds (byteLen (decStr md.countryCode)) = some rest := by rw [h6]; simp
      simp only [h4, Outcome.unwrap_some, Outcome.bind_ok, ownCode_iff.2 h5, if_true, trim, hdrop, Outcome.slice_some]
    · have := hd.digits
      rw [h6] at this
      exact (digits_append.1 this).2
  | @national c md h1 h2 h3 h4 h5 =>
    refine ⟨by rintro _ ⟨⟩, ?_⟩
    rintro c' src' rest' ⟨⟩
    refine ⟨_, ?_, parseUInt_decStr (b := u16Bound) (hcc md (.inl ⟨_, h4⟩)), hd.digits⟩
    rw [countryCode_domestic hn h1 hd h2]
    subst h3
    simp only [h4, Outcome.unwrap_some, Outcome.bind_ok, if_neg (fun h => h5 (ownCode_iff.1 h))]

theorem coded_total {db : Database} {country : Option Id} (hk : ∀ c, country = some c → (db.byId c.asRef).isSome) (r : Spec.Reading)
    (ds : Str) : ∃ o, Spec.Coded db country r ds o := by
  have intl : r.code = none → ∀ src rest, Spec.International db country r.number ds src rest → ∃ o, Spec.Coded db country r ds o := by
    intro hc src rest h
    by_cases h3 : rest.length ≤ 2
    · exact ⟨_, .short hc h h3⟩
    · by_cases h0 : ['0'] <+: rest
      · exact ⟨_, .unknown hc h (by omega) (.inl h0)⟩
      · by_cases hl : ∃ l, Spec.ShortestCode db rest l
        · obtain ⟨l, hl⟩ := hl
          exact ⟨_, .known hc h (by omega) h0 hl⟩
        · exact ⟨_, .unknown hc h (by omega) (.inr fun l h => hl ⟨l, h⟩)⟩
  cases hc : r.code with
  | some t =>
    by_cases h3 : ds.length ≤ 2
    · exact ⟨_, .apartShort hc h3⟩
    · have h3 : 3 ≤ ds.length := by omega
      have hcs : Spec.Digitised (Spec.vanity r.number) t _ := act_iff_digitised.1 rfl
      generalize act (mapFor (Spec.vanity r.number)) t = cs at hcs
      by_cases h4 : cs = [] ∨ 65536 ≤ decVal cs
      · rcases h4 with rfl | h4
        · exact ⟨_, .apartEmpty hc h3 hcs⟩
        · exact ⟨_, .apartLarge hc h3 hcs h4⟩
      · rw [not_or, Nat.not_le] at h4
        cases hb : db.byCode (decVal cs) with
        | none => exact ⟨_, .apartUnknown hc h3 hcs h4.1 h4.2 hb⟩
        | some _ => exact ⟨_, .apart hc h3 hcs h4.1 h4.2 (by simp [hb])⟩
  | none =>
    by_cases hp : ∃ c, r.number.head? = some c ∧ Spec.isPlus c = true
    · by_cases hi : ∃ rest, Spec.Dialled db country ds rest ∧ ¬ ['0'] <+: rest
      · obtain ⟨rest, h1, h2⟩ := hi
        exact intl hc _ _ (.plusDialled hp h1 h2)
      · exact intl hc _ _ (.plus hp fun rest h => Classical.byContradiction fun h0 => hi ⟨rest, h, h0⟩)
    · have hp : ∀ c, r.number.head? = some c → Spec.isPlus c = false := by
        intro c h
        rw [Bool.eq_false_iff]
        exact fun h' => hp ⟨c, h, h'⟩
      by_cases hi : ∃ rest, Spec.Dialled db country ds rest ∧ ¬ ['0'] <+: rest
      · obtain ⟨rest, h1, h2⟩ := hi
        exact intl hc _ _ (.dialled hp h1 h2)
      · have hdom : Spec.Domestic db country r.number ds :=
          ⟨hp, fun rest h => Classical.byContradiction fun h0 => hi ⟨rest, h, h0⟩⟩
        cases hco : country with
        | none => rw [← hco]; exact ⟨_, .nowhere hc hdom hco⟩
        | some c =>
          obtain ⟨md, hmd⟩ := Option.isSome_iff_exists.1 (hk c hco)
          rw [← hco]
          by_cases ho : Spec.OwnCode md ds
          · obtain ⟨⟨rest, hr⟩, _⟩ := id ho
            exact ⟨_, .own hc hdom hco hmd ho hr.symm⟩
          · exact ⟨_, .national hc hdom hco hmd ho⟩

/-! ## C66 -/

omit [UnicodeTables] in
theorem digitisedOpt_of {v : Bool} {o o' : Option Str} (h : Spec.DigitisedOpt v o o') : o.map (act (mapFor v)) = o' := by
  cases h with
  | none => rfl
  | some h => simp [act_iff_digitised.2 h]

theorem afterRead_of {compile : Str → Option Regex} {ms : List Loader.Metadata} {db : Database} (hdb : Spec.Orderly compile ms db)
    {country : Option Id} {r : Spec.Reading} (hv : Spec.Viable r.number) {ds rest out : Str} {code : Nat} {src : Source}
    {ext car : Option Str} {o : Outcome ParseErr PhoneNumber} (hd : Spec.Digitised (Spec.vanity r.number) r.number ds)
    (hc : Spec.Coded db country r ds (.ok (code, src, rest))) (he : Spec.DigitisedOpt (Spec.vanity r.number) r.extension ext)
    (hr : Spec.Remaining db country code rest src out car) (ho : Spec.Verdict out (fun n => ⟨⟨code, src⟩, n, ext, car⟩) o) :
    afterRead db country r.toNumber = o := by
  obtain ⟨p, h1, h2, h3⟩ := (countryCode_of hdb.codes hv.no_newline hd hc).2 _ _ _ rfl
  have hcode : prefixCode { r.digitised src rest with pref := some p } = .ok code := by simp [prefixCode, h2]
  have hext : (r.digitised src rest).extension = ext := digitisedOpt_of he
  have : afterRead db country r.toNumber = tail db country { r.digitised src rest with pref := some p } := by
    unfold afterRead
    rw [if_neg (by simp [show r.toNumber.national = r.number from rfl, (C14_isViable_iff _).2 hv]), h1]
    rfl
  rw [this]
  cases hr with
  | @national c md _ _ h4 h5 h6 =>
    subst h4
    unfold tail
    have hm : parseMeta db (some c) { r.digitised .default rest with pref := some p } = .ok (some md) := by
      simp [parseMeta, Spec.Reading.digitised, h5]
    rw [hm, Outcome.bind_ok, stripNational_of rfl h6, Outcome.bind_ok]
    refine finishParse_of (n := { r.digitised .default rest with pref := some p, national := out, carrier := car }) (nationalPart_digits (hdb.templates md (.inl ⟨_, h5⟩)) h3 h6) hcode ?_
    simp only [hext]
    exact ho
  | international h4 h5 =>
    refine tail_international compile ms db hdb.made hdb.ids hdb.shared h3 rfl hcode h4 hdb.templates h5 ?_
    simp only [hext]
    exact ho

/-- C66: the parser gives what the text means. -/
theorem C66_sound {compile : Str → Option Regex} {ms : List Loader.Metadata} {db : Database} (hdb : Spec.Orderly compile ms db)
    (country : Option Id) (s : Str) (hs : Spec.MarksNotDigits s) (o : Outcome ParseErr PhoneNumber) (h : Spec.Parses db country s o) :
    parseWith db country s = o := by
  rw [parseWith_eq]
  cases h with
  | nothing h => rw [reads_sound hs h]; rfl
  | @notViable r h h1 =>
    rw [reads_sound hs h]
    simp only [Outcome.bind_ok]
    unfold afterRead
    rw [if_pos]
    rw [show r.toNumber.national = r.number from rfl, Bool.not_eq_true', Bool.eq_false_iff, ne_eq, C14_isViable_iff]
    exact h1
  | @noCode r ds e h h1 h2 h3 =>
    rw [reads_sound hs h]
    simp only [Outcome.bind_ok]
    unfold afterRead
    rw [if_neg (by simp [show r.toNumber.national = r.number from rfl, (C14_isViable_iff _).2 h1]),
      (countryCode_of hdb.codes h1.no_newline h2 h3).1 e rfl]
    rfl
  | judged h h1 h2 h3 h4 h5 h6 =>
    rw [reads_sound hs h]
    simp only [Outcome.bind_ok]
    exact afterRead_of hdb h1 h2 h3 h4 h5 h6

/-- C66: every text has a meaning. -/
theorem C66_total {compile : Str → Option Regex} {ms : List Loader.Metadata} {db : Database} (hdb : Spec.Orderly compile ms db)
    (country : Option Id) (hk : ∀ c, country = some c → (db.byId c.asRef).isSome) (s : Str) : ∃ o, Spec.Parses db country s o := by
  obtain ⟨o, h⟩ := reads_total s
  cases o with
  | none => exact ⟨_, .nothing h⟩
  | some r =>
    by_cases hv : Spec.Viable r.number
    · have hd : Spec.Digitised (Spec.vanity r.number) r.number _ := act_iff_digitised.1 rfl
      obtain ⟨o, hc⟩ := coded_total hk r (act (mapFor (Spec.vanity r.number)) r.number)
      have hext : ∃ ext, Spec.DigitisedOpt (Spec.vanity r.number) r.extension ext := by
        cases r.extension with
        | none => exact ⟨_, .none⟩
        | some e => exact ⟨_, .some (act_iff_digitised.1 rfl)⟩
      obtain ⟨ext, hext⟩ := hext
      cases o with
      | err e => exact ⟨_, .noCode h hv hd hc⟩
      | panic e => cases hc
      | ok x =>
        obtain ⟨code, src, rest⟩ := x
        obtain ⟨_, _, _, h3⟩ := (countryCode_of hdb.codes hv.no_newline hd hc).2 _ _ _ rfl
        by_cases hsrc : src = .default
        · subst hsrc
          cases hc with
          | known _ h _ _ _ => rcases h.source with h | h <;> cases h
          | @national c md h4 h5 h6 h7 h8 =>
            obtain ⟨out, car, o, h9, h10⟩ := C62_national_total md (hdb.groups md (.inl ⟨_, h7⟩)) (hdb.templates md (.inl ⟨_, h7⟩)) _ h3
              (fun car n => ⟨⟨md.countryCode, .default⟩, n, ext, car⟩)
            exact ⟨_, .judged h hv hd (.national h4 h5 h6 h7 h8) hext (.national h6 h7 h9) h10⟩
        · obtain ⟨out, car, o, h9, h10⟩ := C62_international_total compile ms db hdb.made hdb.ids hdb.shared hdb.groups hdb.templates
            code rest h3 (fun car n => ⟨⟨code, src⟩, n, ext, car⟩)
          exact ⟨_, .judged h hv hd hc hext (.international hsrc h9) h10⟩
    · exact ⟨_, .notViable h hv⟩

/-- C66: the parser gives an outcome exactly if it is what the text means. -/
theorem C66_exact {compile : Str → Option Regex} {ms : List Loader.Metadata} {db : Database} (hdb : Spec.Orderly compile ms db)
    (country : Option Id) (hk : ∀ c, country = some c → (db.byId c.asRef).isSome) (s : Str) (hs : Spec.MarksNotDigits s)
    (o : Outcome ParseErr PhoneNumber) : parseWith db country s = o ↔ Spec.Parses db country s o := by
  constructor
  · rintro rfl
    obtain ⟨o, h⟩ := C66_total hdb country hk s
    rw [C66_sound hdb country s hs o h]
    exact h
  · exact C66_sound hdb country s hs o

/-- The sample database meets the conditions. -/
theorem Sample.db_orderly : Spec.Orderly Sample.compile Sample.territories Sample.db where
  made := Sample.from_territories
  ids := by decide
  shared := Sample.db_shared
  codes := fun md h => of_decide_eq_true
    (forall_entry (p := fun md => decide (md.countryCode < 65536)) (db := Sample.db) (by kernel_rfl) h)
  groups := Sample.db_firstWithLast
  templates := Sample.db_templates

/-- A reading with the calling code in a parameter. -/
example : Spec.TelReading (str% "tEl:253-0000;foo=1;phone-context=+1-650;ext=7;junk") ⟨str% "253-0000", some (str% "1-650"), some (str% "7")⟩ := by
  refine .local (rest := str% ";foo=1;phone-context=+1-650;ext=7;junk")
    (ps := [(str% "foo", str% "1"), (str% "phone-context", str% "+1-650"), (str% "ext", str% "7")])
    (by decide) (.inl ⟨str% "tEl:", ⟨'t', 'E', 'l', by simp, by simp, by simp, by simp⟩, by simp⟩) (by simp) (by decide) (.inr rfl) ?_
  refine .param (k := str% "foo") (v := str% "1") (r := str% ";phone-context=+1-650;ext=7;junk") (by decide) (by decide)
    (by intro c h; cases h; decide) ?_
  refine .param (k := str% "phone-context") (v := str% "+1-650") (r := str% ";ext=7;junk") (by decide) (by decide)
    (by intro c h; cases h; decide) ?_
  refine .param (k := str% "ext") (v := str% "7") (r := str% ";junk") (by decide) (by decide) (by intro c h; cases h; decide) ?_
  refine .stop ?_
  intro k r hk h
  have : '=' ∈ (str% ";junk") := by rw [h]; simp
  revert this; decide

/-- Texts and what they mean. -/
example : Spec.Parses Sample.db (some .US) (str% "tel:253-0000;phone-context=+1-650;ext=7") (.err .invalidCountryCode) ∧
    Spec.Parses Sample.db (some .US) (str% "tel:650-253-0000;phone-context=+1;ext=7")
      (.ok ⟨⟨1, .plus⟩, ⟨6502530000⟩, some (str% "7"), none⟩) ∧
    Spec.Parses Sample.db (some .AR) (str% "call 011 15-2345-6789 ext. 4!")
      (.ok ⟨⟨54, .default⟩, ⟨91123456789⟩, some (str% "4"), some (str% "11")⟩) ∧
    Spec.Parses Sample.db none (str% "6502530000") (.err .invalidCountryCode) ∧
    Spec.Parses Sample.db (some .US) (str% "+") (.err .noNumber) := by
  have key : ∀ s : Str, ∀ o, s.all (fun c => decide (c.toNat < 128)) = true → ∀ country, (∀ c, country = some c → (Sample.db.byId c.asRef).isSome = true) →
      parseWith Sample.db country s = o → Spec.Parses Sample.db country s o := fun s o hs country hk h =>
    (C66_exact Sample.db_orderly country hk s (marksNotDigits_ascii hs) o).1 h
  refine ⟨key _ _ (by kernel_rfl) _ ?_ (by kernel_rfl), key _ _ (by kernel_rfl) _ ?_ (by kernel_rfl), key _ _ (by kernel_rfl) _ ?_ (by kernel_rfl),
    key _ _ (by kernel_rfl) _ ?_ (by kernel_rfl), key _ _ (by kernel_rfl) _ ?_ (by kernel_rfl)⟩
  all_goals
    intro c h
    cases h
  all_goals kernel_rfl

end Phone
