import Verif.Spec.NationalPrefix
import Verif.Spec.Dialling
import Verif.Props.RoundTrip
/-! # C45, C46, C49, C58: national prefix and carrier -/

namespace Phone
open Helper

variable [UnicodeTables]

/-- The stages after `country_code`. -/
def tail (db : Database) (country : Option Id) (n : Number) : Outcome ParseErr PhoneNumber :=
  parseMeta db country n >>= fun md => stripNational md n >>= finishParse

theorem beginsWithIdd_iff {db : Database} {c : Id} {md : Metadata} (hmd : db.byId c.asRef = some md) {ds : Str} :
    Spec.BeginsWithIdd db (some c) ds ↔ ∃ re m, md.internationalPrefix = some re ∧ re.find ds = some m ∧ m.start = 0 := by
  constructor
  · rintro ⟨md', re, m, h1, h2⟩
    rw [hmd] at h1; cases h1
    exact ⟨re, m, h2⟩
  · rintro ⟨re, m, h2⟩; exact ⟨md, re, m, hmd, h2⟩

theorem notDialled {db : Database} {c : Id} {ds : Str} (h : ¬ Spec.BeginsWithIdd db (some c) ds) : Spec.NotDialled db (some c) ds := by
  rintro rest ⟨md, re, m, h1, h2, h3, h4, _⟩
  exact absurd ⟨md, re, m, h1, h2, h3, Match.start_eq_zero.2 h4⟩ h

/-- A digit string with a reference country whose dialling prefix it does not begin with, or with a zero after it. -/
theorem parse_national {db : Database} {c : Id} {md : Metadata} (hmd : db.byId c.asRef = some md) {ds : Str} (hd : Digits ds)
    (hlen : 2 ≤ ds.length) (hidd : Spec.NotDialled db (some c) ds) :
    parseWith db (some c) ds =
      if startsWith ds (decStr md.countryCode) && (!md.descriptors.general.isMatch ds || !(length md ds .unknown).possible) then
        tail db (some c) { national := ds.drop (decStr md.countryCode).length, country := .number, pref := some (decStr md.countryCode) }
      else stripNational (some md) { national := ds, country := .default, pref := some (decStr md.countryCode) } >>= finishParse := by
  have hplain : ∀ c ∈ ds, c ∈ plainChars ∧ c ≠ '+' := plain_iff.1 fun c hc => .inl (hd c hc)
  have hne : ds ≠ [] := by intro h; rw [h] at hlen; simp at hlen
  have hv : isViable ds = true := by
    by_cases h3 : 3 ≤ ds.length
    · have := viable_plain (pl := []) (x := ds) (.inl rfl) hplain (by rw [filter_digits hd]; exact h3)
      simpa using this
    · rw [C14_isViable_iff]
      match ds, hd, (show ds.length = 2 by omega) with
      | [a, b], hd, _ => exact .inl ⟨a, b, rfl, by simp at hd; exact hd⟩
  have hpre := internationalPrefix_plain (ε := ParseErr) md.internationalPrefix (pl := []) (x := ds) (.inl rfl) hplain
  simp only [List.nil_append, if_true, filter_digits hd] at hpre
  have hs : stripIdd md.internationalPrefix { national := ds, country := .default } =
      (.ok { national := ds, country := .default } : Outcome ParseErr Number) := by
    unfold stripIdd
    cases hf : md.internationalPrefix.bind (·.find ds) with
    | none => rfl
    | some m =>
      simp only
      split
      · rename_i h0
        obtain ⟨re, hre, hm⟩ := Option.bind_eq_some_iff.1 hf
        obtain ⟨t, ht⟩ := hidd m.post ⟨md, re, m, hmd, hre, hm, Match.start_eq_zero.1 h0, rfl⟩
        rw [(find_eq_some hm).stop_eq.1]
        simp only [Outcome.slice_some, Outcome.bind_ok]
        rw [if_pos (startsWith_iff.2 ⟨t, ht.symm⟩)]
      · rfl
  rw [hs] at hpre
  rw [parseWith_eq, readNumber_of_digits hd hne]
  simp only [Outcome.bind_ok, afterRead, hv, Bool.not_true, Bool.false_eq_true, if_false]
  unfold countryCode
  simp only [Option.bind_some, hmd, Option.isNone_some, Bool.false_eq_true, if_false, Option.or_none, hpre, Outcome.bind_ok,
    Outcome.unwrap_some]
  split
  · rename_i h
    rw [Bool.and_eq_true] at h
    obtain ⟨r, hr⟩ := startsWith_iff.1 h.1
    subst hr
    simp only [trim, dropBytes_append, Outcome.slice_some, Outcome.bind_ok, List.drop_left, tail]
  · simp only [Outcome.bind_ok, parseMeta, hmd]

omit [UnicodeTables] in
theorem length_of_none {md : Metadata} (h : md.descriptors.general.possibleLength = []) (s : Str) :
    length md s .unknown = .invalidLength :=
  (C52_kind_ignored md .unknown s md.descriptors.general rfl).1 (.inl h)

omit [UnicodeTables] in
theorem drop_trim {α : Type} (np s : Str) (f : Str → Outcome ParseErr α) :
    (if startsWith s np then (trim s (byteLen np) >>= f) else f s) = f (Spec.dropOnce np s) := by
  unfold Spec.dropOnce
  rw [← startsWith_eq_isPrefixOf]
  split
  · rename_i h
    obtain ⟨r, rfl⟩ := startsWith_iff.1 h
    simp [trim]
  · rfl

theorem stripNational_simple {md : Metadata} {np : Str} (h : Spec.SimplePrefix md np) (n : Number) :
    stripNational (some md) n = .ok { n with national := Spec.dropOnce np (Spec.dropOnce np n.national) } := by
  have h1 : nationalNumber (ε := ParseErr) md n = .ok { n with national := Spec.dropOnce np n.national } := by
    unfold nationalNumber
    simp only [h.noPattern, h.np]
    exact drop_trim np n.national fun nat => .ok { n with national := nat }
  have h2 : ∀ n : Number, dropNationalPrefix md n = .ok { n with national := Spec.dropOnce np n.national } := by
    intro n
    unfold dropNationalPrefix
    simp only [h.np]
    exact drop_trim np n.national fun nat => .ok { n with national := nat }
  simp only [stripNational, h1, Outcome.bind_ok, h2, Outcome.pure_eq, length_of_none h.noLengths]
  rfl

/-- A nationally written number in a region with a plain national prefix. -/
theorem parse_simple {db : Database} {c : Id} {md : Metadata} (hmd : db.byId c.asRef = some md) {np : Str} (h : Spec.SimplePrefix md np)
    {ds : Str} (hds : Spec.WrittenNationally db c md ds) :
    parseWith db (some c) ds =
      finishParse { national := Spec.dropOnce np (Spec.dropOnce np ds), country := .default, pref := some (decStr md.countryCode) } := by
  have hc : startsWith ds (decStr md.countryCode) = false := by
    rw [Bool.eq_false_iff, ne_eq, startsWith_iff]
    rintro ⟨r, hr⟩
    exact hds.code ⟨r, hr.symm⟩
  rw [parse_national hmd hds.digits hds.length (notDialled hds.idd), hc]
  simp only [Bool.false_and, Bool.false_eq_true, if_false, stripNational_simple h, Outcome.bind_ok]

/-! ## C45, C46 -/

omit [UnicodeTables] in
theorem dropOnce_append (np s : Str) : Spec.dropOnce np (np ++ s) = s := by
  unfold Spec.dropOnce
  rw [if_pos (by simp)]; simp

omit [UnicodeTables] in
theorem dropOnce_keep {np s : Str} (h : ¬ np <+: s) : Spec.dropOnce np s = s := by
  unfold Spec.dropOnce
  rw [if_neg (by simpa using h)]

/-- C45: in a region with a plain national prefix, the national number of a nationally written number is what remains after removing
the prefix at the start, twice if it is there twice, but not more often. -/
theorem C45_removed_twice (db : Database) (c : Id) (md : Metadata) (hmd : db.byId c.asRef = some md) (np : Str)
    (h : Spec.SimplePrefix md np) (ds : Str) (hds : Spec.WrittenNationally db c md ds) (p : PhoneNumber)
    (hp : parseWith db (some c) ds = .ok p) :
    p.national.display = Spec.dropOnce np (Spec.dropOnce np ds) ∧ p.code.source = .default ∧ p.extension = none ∧ p.carrier = none := by
  rw [parse_simple hmd h hds] at hp
  obtain ⟨_, g2, _, g4, g5, g6, g7⟩ := finishParse_ok hp
  have hd : ∀ s, Digits s → Digits (Spec.dropOnce np s) := by
    intro s hs
    unfold Spec.dropOnce
    split
    · exact hs.drop _
    · exact hs
  have hd' := hd _ (hd _ hds.digits)
  rw [hd'.byteLen] at g2
  exact ⟨(fromStr_ok_digits hd' g2 g5).1, g4, g6, g7⟩

/-- C45: so a number written with the national prefix twice is accepted as if it had been written without. -/
theorem C45_twice (db : Database) (c : Id) (md : Metadata) (hmd : db.byId c.asRef = some md) (np : Str)
    (h : Spec.SimplePrefix md np) (r : Str) (hr : Spec.WrittenNationally db c md r) (hn : ¬ np <+: r)
    (hr2 : Spec.WrittenNationally db c md (np ++ (np ++ r))) :
    parseWith db (some c) (np ++ (np ++ r)) = parseWith db (some c) r := by
  rw [parse_simple hmd h hr, parse_simple hmd h hr2, dropOnce_append, dropOnce_append, dropOnce_keep hn, dropOnce_keep hn]

/-- C46: with and without the national prefix, a nationally written number is the same number. -/
theorem C46_national_bare (db : Database) (c : Id) (md : Metadata) (hmd : db.byId c.asRef = some md) (np : Str)
    (h : Spec.SimplePrefix md np) (r : Str) (hr : Spec.WrittenNationally db c md r) (hn : ¬ np <+: r)
    (hr2 : Spec.WrittenNationally db c md (np ++ r)) :
    parseWith db (some c) (np ++ r) = parseWith db (some c) r := by
  rw [parse_simple hmd h hr, parse_simple hmd h hr2, dropOnce_append, dropOnce_keep hn, dropOnce_keep hn]

theorem parseMeta_single {compile : Str → Option Regex} {ms : List Loader.Metadata} {db : Database}
    (hdb : Database.from compile ms = .ok db) (hid : ((ms.filterMap (·.id)).filter (· ≠ worldId)).Nodup)
    {c : Nat} (hc : c < 65536) {md : Metadata} (hl : db.byCode c = some [md]) (hmd : md.id = worldId ∨ (Id.fromStr md.id).isSome)
    {country : Option Id} {n : Number} (hp : n.pref = some (decStr c)) (hsrc : n.country ≠ .default) :
    parseMeta db country n = .ok (some md) := by
  have hcode : prefixCode n = .ok c := by
    unfold prefixCode
    rw [hp]
    simp only [parseUInt_decStr (b := u16Bound) hc, Outcome.okOr_some]
  obtain ⟨mds, _, _, hcc, hll, hrr⟩ := C27_indexes ms db hdb
  have hreg : db.region c = some [md.id] := by
    have hs : (db.byCode c).isSome := by simp [hl]
    obtain ⟨rs, hrs⟩ := Option.isSome_iff_exists.1 ((hrr c).2 hs)
    obtain ⟨l, h1, h2⟩ := (from_consistent hdb).2.2.1 c rs hrs
    rw [hl] at h1; cases h1
    rw [hrs, h2]; rfl
  have key : ∃ src, sourceFor (ε := ParseErr) db c (n.national.dropWhile (· == '0')) = .ok (some src) ∧ (sourceMeta db src).isSome := by
    unfold sourceFor
    rw [hreg]
    simp only
    by_cases hw : md.id = worldId
    · rw [if_pos hw]
      exact ⟨_, rfl, by simp [sourceMeta, hl]⟩
    · rw [if_neg hw]
      rcases hmd with h | h
      · exact absurd h hw
      · obtain ⟨i, hi⟩ := Option.isSome_iff_exists.1 h
        refine ⟨.inl i, by rw [hi]; rfl, ?_⟩
        have := ((C43_id_roundtrip _ _).1 hi)
        simp only [sourceMeta, this]
        exact (from_consistent hdb).1 c _ hreg md.id (by simp)
  obtain ⟨src, h1, h2⟩ := key
  obtain ⟨m, hm⟩ := Option.isSome_iff_exists.1 h2
  obtain ⟨_, l, h3, h4⟩ := source_mem hdb hid h1 hm
  rw [hl] at h3; cases h3
  simp only [List.mem_singleton] at h4
  subst h4
  unfold parseMeta
  split
  · rename_i h; exact absurd h hsrc
  · simp [hcode, h1, hm]

/-- C45: even an internationally written number, where no national prefix belongs, loses digits that look like it: with and without
them it is the same number. -/
theorem C45_international (compile : Str → Option Regex) (ms : List Loader.Metadata) (db : Database)
    (hdb : Database.from compile ms = .ok db) (hid : ((ms.filterMap (·.id)).filter (· ≠ worldId)).Nodup)
    (hp : Spec.PrefixFree db) (c : Nat) (hc : 1 ≤ c ∧ c ≤ 999) (md : Metadata) (hl : db.byCode c = some [md])
    (hmd : md.id = worldId ∨ (Id.fromStr md.id).isSome) (np : Str) (h : Spec.SimplePrefix md np)
    (r : Str) (hr : ∀ x ∈ np ++ r, isDigit x = true) (hlen : 2 ≤ r.length) (hn : ¬ np <+: r) :
    parseWith db none ('+' :: (decStr c ++ (np ++ r))) = parseWith db none ('+' :: (decStr c ++ r)) := by
  have hk : (db.byCode c).isSome := by simp [hl]
  have hlen1 : 1 ≤ (decStr c).length := List.length_pos_iff.2 (decStr_ne_nil _)
  have hr' : Digits r := fun x hx => hr x (by simp [hx])
  rw [parse_plus_code hp hk hc hr (by simp only [List.length_append]; omega) (fun x h => by cases h),
    parse_plus_code hp hk hc hr' (by simp only [List.length_append]; omega) (fun x h => by cases h),
    parseMeta_single hdb hid (by omega) hl hmd rfl (by simp), parseMeta_single hdb hid (by omega) hl hmd rfl (by simp)]
  simp only [Outcome.bind_ok, stripNational_simple h, dropOnce_append, dropOnce_keep hn]

/-! ## C49 -/

theorem nationalNumber_carrier {md : Metadata} {n r : Number} (h : nationalNumber (ε := ParseErr) md n = .ok r) (x : Str)
    (hx : r.carrier = some x) : n.carrier = some x ∨ ∃ re m, md.nationalPrefixForParsing = some re ∧ re.find n.national = some m ∧
      m.start = 0 ∧ Spec.CarrierGroup md re m x := by
  unfold nationalNumber at h
  split at h
  · split at h
    · split at h
      · simp only [Outcome.bind_eq_ok, Outcome.ok.injEq] at h
        obtain ⟨_, _, rfl⟩ := h
        exact .inl hx
      · cases h; exact .inl hx
    · cases h; exact .inl hx
  · rename_i re hre
    split at h
    · cases h; exact .inl hx
    · rename_i m hm
      split at h
      · cases h; exact .inl hx
      · rename_i h0
        have h0 : m.start = 0 := by simpa using h0
        simp only at h
        split at h
        · rename_i t l ht hl
          split at h
          · cases h; exact .inl hx
          · simp only [Outcome.bind_eq_ok, Outcome.ok.injEq] at h
            obtain ⟨f, hf, rfl⟩ := h
            refine .inr ⟨re, m, hre, hm, h0, ?_⟩
            unfold Spec.CarrierGroup
            rw [if_pos ⟨by simp [ht], by simp [hl]⟩]
            cases hg : m.get 1 with
            | none => rw [hg] at hf; simp [Outcome.unwrap] at hf
            | some g => rw [hg] at hf; simp [Outcome.unwrap] at hf; rw [hf]; exact hx
        · rename_i hno
          simp only [Outcome.bind_eq_ok] at h
          obtain ⟨_, _, h⟩ := h
          split at h
          · cases h; exact .inl hx
          · simp only [Outcome.bind_eq_ok, Outcome.ok.injEq] at h
            obtain ⟨_, _, rfl⟩ := h
            refine .inr ⟨re, m, hre, hm, h0, ?_⟩
            unfold Spec.CarrierGroup
            rw [if_neg]
            · simpa using hx
            · rintro ⟨h1, h2⟩
              obtain ⟨t, ht⟩ := Option.isSome_iff_exists.1 h1
              obtain ⟨l, hl⟩ := Option.isSome_iff_exists.1 h2
              exact hno t l ht hl

/-- C49: a carrier is only reported if the parsing pattern of some region fits at the start of the digits that follow the calling code,
and then it is the text of the group `Spec.CarrierGroup` describes. -/
theorem C49_carrier_origin (db : Database) (country : Option Id) (s : Str) (p : PhoneNumber) (x : Str)
    (h : parseWith db country s = .ok p) (hx : p.carrier = some x) :
    ∃ md re m ds, Spec.Entry db md ∧ md.nationalPrefixForParsing = some re ∧
      (∃ a y b full k, s = a ++ y ++ b ∧ Spec.Viable y ∧ Spec.Digitised (Spec.vanity y) y full ∧ ds = full.drop k) ∧
      re.find ds = some m ∧ m.start = 0 ∧ Spec.CarrierGroup md re m x := by
  obtain ⟨n0, n1, md, n2, h0, hv, h1, post, h2, h3, h4⟩ := parseWith_stages h
  obtain ⟨hc0, a, b, hs⟩ := readNumber_ok h0
  have hc : n1.carrier = none := by rw [post.carrier]; exact hc0
  obtain ⟨k, hk⟩ := post.suffix
  obtain ⟨_, _, _, _, _, _, g7⟩ := finishParse_ok h4
  rw [g7] at hx
  cases md with
  | none => simp only [stripNational, Outcome.ok.injEq] at h3; rw [← h3, hc] at hx; cases hx
  | some md =>
    have hent := parseMeta_entry h2
    simp only [stripNational, Outcome.bind_eq_ok, Outcome.pure_eq, Outcome.ok.injEq] at h3
    obtain ⟨q, hq, r, hr, h3⟩ := h3
    have hrc : r.carrier = q.carrier := by
      unfold dropNationalPrefix at hr
      split at hr
      · split at hr
        · simp only [Outcome.bind_eq_ok, Outcome.pure_eq, Outcome.ok.injEq] at hr
          obtain ⟨_, _, rfl⟩ := hr; rfl
        · cases hr; rfl
      · cases hr; rfl
    have hqx : q.carrier = some x := by
      split at h3
      · rw [← hrc, h3]; exact hx
      · rw [← h3, hc] at hx; cases hx
    rcases nationalNumber_carrier hq x hqx with h | ⟨re, m, e1, e2, e3, e4⟩
    · rw [hc] at h; cases h
    · exact ⟨md, re, m, _, hent, e1, ⟨a, n0.national, b, _, k, hs, hv, act_iff_digitised.1 rfl, hk⟩, e2, e3, e4⟩

/-- C49: in a region whose parsing pattern has no group and that has no transform rule, the part of a nationally written number that
the pattern fits, which is the national prefix, is itself reported as carrier. -/
theorem C49_prefix_as_carrier (db : Database) (c : Id) (md : Metadata) (hmd : db.byId c.asRef = some md) (re : Regex)
    (hre : md.nationalPrefixForParsing = some re) (hg : re.ngroups = 0) (ht : md.nationalPrefixTransformRule = none)
    (hlen : md.descriptors.general.possibleLength = []) (ds : Str) (hds : Spec.WrittenNationally db c md ds) (m : Match)
    (hm : re.find ds = some m) (h0 : m.start = 0) (p : PhoneNumber) (hp : parseWith db (some c) ds = .ok p) :
    p.carrier = some m.text := by
  have hc : startsWith ds (decStr md.countryCode) = false := by
    rw [Bool.eq_false_iff, ne_eq, startsWith_iff]
    rintro ⟨r, hr⟩
    exact hds.code ⟨r, hr.symm⟩
  rw [parse_national hmd hds.digits hds.length (notDialled hds.idd), hc] at hp
  simp only [Bool.false_and, Bool.false_eq_true, if_false, Outcome.bind_eq_ok] at hp
  obtain ⟨n2, h3, h4⟩ := hp
  obtain ⟨_, _, _, _, _, _, g7⟩ := finishParse_ok h4
  simp only [stripNational, Outcome.bind_eq_ok, Outcome.pure_eq, Outcome.ok.injEq, length_of_none hlen] at h3
  obtain ⟨q, hq, r, hr, h3⟩ := h3
  have hrc : r.carrier = q.carrier := by
    unfold dropNationalPrefix at hr
    split at hr
    · split at hr
      · simp only [Outcome.bind_eq_ok, Outcome.pure_eq, Outcome.ok.injEq] at hr
        obtain ⟨_, _, rfl⟩ := hr; rfl
      · cases hr; rfl
    · cases hr; rfl
  have hrn : r = n2 := by simpa using h3
  subst hrn
  rw [g7, hrc]
  unfold nationalNumber at hq
  simp only [hre, hm, h0, ht, ne_eq, not_true_eq_false, if_false, dropBytes_zero, Outcome.slice_some, Outcome.bind_ok, hg,
    Match.get, if_true] at hq
  split at hq
  · rename_i hh; simp only [Bool.and_eq_true, Bool.not_eq_true'] at hh; rw [hh.1] at hh; cases hh.2
  · simp only [Outcome.bind_eq_ok, Outcome.ok.injEq] at hq
    obtain ⟨_, _, rfl⟩ := hq
    simp

/-! ## C58 -/

omit [UnicodeTables] in
theorem Outcome.bind_assoc {ε α β γ : Type} (x : Outcome ε α) (f : α → Outcome ε β) (g : β → Outcome ε γ) :
    (x >>= f >>= g) = x >>= fun a => f a >>= g := by cases x <;> rfl

omit [UnicodeTables] in
theorem ite_bind {ε α β : Type} (c : Prop) [Decidable c] (x y : Outcome ε α) (f : α → Outcome ε β) :
    ((if c then x else y) >>= f) = if c then x >>= f else y >>= f := by split <;> rfl

/-- National prefix handling does not look at the source of the calling code. -/
theorem nationalNumber_source (md : Metadata) (n : Number) (x : Source) :
    nationalNumber (ε := ParseErr) md { n with country := x } = nationalNumber md n >>= fun r => .ok { r with country := x } := by
  unfold nationalNumber
  cases hre : md.nationalPrefixForParsing with
  | none =>
    cases md.nationalPrefix with
    | none => rfl
    | some pre => simp only [ite_bind, Outcome.bind_assoc, Outcome.bind_ok]
  | some re =>
    cases hm : re.find n.national with
    | none => simp only [hm]; rfl
    | some m =>
      simp only [hm, ite_bind, Outcome.bind_ok]
      split
      · rfl
      · cases md.nationalPrefixTransformRule with
        | none => simp only [Outcome.bind_assoc, ite_bind, Outcome.bind_ok]
        | some t =>
          cases m.get re.ngroups with
          | none => simp only [Outcome.bind_assoc, ite_bind, Outcome.bind_ok]
          | some l => simp only [Outcome.bind_assoc, ite_bind, Outcome.bind_ok]

theorem stripNational_source (md : Option Metadata) (n : Number) (x : Source) :
    stripNational md { n with country := x } = stripNational md n >>= fun r => .ok { r with country := x } := by
  unfold stripNational
  split
  · rfl
  · rename_i md
    simp only [nationalNumber_source, Outcome.bind_assoc, Outcome.bind_ok]
    congr 1
    funext r
    have : dropNationalPrefix md { r with country := x } = dropNationalPrefix md r >>= fun r => .ok { r with country := x } := by
      unfold dropNationalPrefix
      split
      · split
        · simp [Outcome.bind_assoc]
        · rfl
      · rfl
    rw [this]
    simp only [Outcome.bind_assoc, Outcome.bind_ok, Outcome.pure_eq]
    congr 1
    funext q
    split <;> rfl

omit [UnicodeTables] in
theorem finishParse_source (n : Number) (x : Source) :
    finishParse { n with country := x } = finishParse n >>= fun p => .ok { p with code := ⟨p.code.value, x⟩ } := by
  unfold finishParse
  simp only [prefixCode]
  split
  · rfl
  · split
    · rfl
    · simp [Outcome.bind_assoc]

theorem tail_source (db : Database) (country : Option Id) (n : Number) (x : Source) (h1 : n.country ≠ .default) (h2 : x ≠ .default) :
    tail db country { n with country := x } = tail db country n >>= fun p => .ok { p with code := ⟨p.code.value, x⟩ } := by
  have hm : parseMeta db country { n with country := x } = parseMeta db country n := by
    unfold parseMeta
    cases country with
    | none => simp [prefixCode]
    | some c =>
      cases x <;> cases hn : n.country <;> simp_all [prefixCode]
  unfold tail
  simp only [hm, stripNational_source, Outcome.bind_assoc, Outcome.bind_ok, finishParse_source]

/-- C58: in a region without lengths for its general description, digits that begin with the region's own calling code are read as if a
plus stood before them; only the source differs. A national number that happens to begin with the digits of the calling code is
therefore never read as such. -/
theorem C58_own_code (db : Database) (hp : Spec.PrefixFree db) (c : Id) (md : Metadata) (hmd : db.byId c.asRef = some md)
    (hk : (db.byCode md.countryCode).isSome) (hc : 1 ≤ md.countryCode ∧ md.countryCode ≤ 999)
    (hlen : md.descriptors.general.possibleLength = []) (r : Str) (hr : ∀ x ∈ r, isDigit x = true)
    (h3 : 3 ≤ (decStr md.countryCode ++ r).length) (hidd : ¬ Spec.BeginsWithIdd db (some c) (decStr md.countryCode ++ r)) :
    parseWith db (some c) (decStr md.countryCode ++ r) =
      (parseWith db none ('+' :: (decStr md.countryCode ++ r)) >>= fun p => .ok { p with code := ⟨p.code.value, .number⟩ }) := by
  have hd : Digits (decStr md.countryCode ++ r) := digits_append.2 ⟨digits_decStr _, hr⟩
  have h0 : ¬ Spec.BeginsWithIdd db none (decStr md.countryCode ++ r) := by
    have := decStr_head_ne_zero (n := md.countryCode) (by omega)
    obtain ⟨x, xs, hx⟩ := List.exists_cons_of_ne_nil (decStr_ne_nil md.countryCode)
    rw [hx] at this
    rw [hx]
    rintro ⟨t, ht⟩
    simp at ht
    exact this (by rw [← ht.1]; rfl)
  rw [C11_reference_irrelevant db none (some c) _ hd h0 hidd, parse_plus_code hp hk hc hr h3 (fun _ _ => hidd),
    parse_national hmd hd (by omega) (notDialled hidd), if_pos]
  · simp only [List.drop_left]
    exact tail_source db (some c) { national := r, country := .plus, pref := some (decStr md.countryCode) } .number (by simp) (by simp)
  · rw [length_of_none hlen, Bool.and_eq_true]
    exact ⟨startsWith_iff.2 ⟨r, rfl⟩, by rw [show Validation.possible .invalidLength = false from rfl]; simp⟩

/-! ## Concrete cases -/

omit [UnicodeTables] in
/-- A decidable form of `Spec.WrittenNationally` and `Spec.SimplePrefix`. -/
theorem simple_of_check [UnicodeTables] {db : Database} {c : Id} {np : Str} {dss : List Str}
    (h : (db.byId c.asRef).map (fun md => md.nationalPrefix == some np && md.nationalPrefixForParsing.isNone &&
      md.descriptors.general.possibleLength.isEmpty && dss.all fun ds => ds.all isDigit && decide (2 ≤ ds.length) &&
        ((md.internationalPrefix.map fun re => !matchesAtStart re ds).getD true) && !(decStr md.countryCode).isPrefixOf ds) = some true) :
    ∃ md, db.byId c.asRef = some md ∧ Spec.SimplePrefix md np ∧ ∀ ds ∈ dss, Spec.WrittenNationally db c md ds := by
  cases hmd : db.byId c.asRef with
  | none => rw [hmd] at h; cases h
  | some md =>
    rw [hmd] at h
    simp only [Option.map_some, Option.some.injEq, Bool.and_eq_true, beq_iff_eq, Option.isNone_iff_eq_none, List.isEmpty_iff,
      List.all_eq_true, decide_eq_true_eq, Bool.not_eq_true', ← Bool.not_eq_true, List.isPrefixOf_iff_prefix] at h
    obtain ⟨⟨⟨h1, h2⟩, h3⟩, h4⟩ := h
    refine ⟨md, rfl, ⟨h1, h2, h3⟩, fun ds hds => ?_⟩
    obtain ⟨⟨⟨g1, g2⟩, g3⟩, g4⟩ := h4 ds hds
    refine ⟨g1, g2, ?_, g4⟩
    rw [beginsWithIdd_iff hmd]
    rintro ⟨re, m, e1, e2, e3⟩
    rw [e1] at g3
    simp [matchesAtStart, e2, e3] at g3

/-- The Russian national prefix 8: the hypotheses of C45 and C46 hold and the number is accepted. -/
example : (∃ md, Sample.db.byId (Id.asRef .RU) = some md ∧ Spec.SimplePrefix md (str% "8") ∧
      ∀ ds ∈ [(str% "9123456789"), (str% "89123456789"), (str% "889123456789")], Spec.WrittenNationally Sample.db .RU md ds) ∧
    ¬ (str% "8") <+: (str% "9123456789") ∧
    [(str% "9123456789"), (str% "89123456789"), (str% "889123456789")].map (parseWith Sample.db (some .RU)) =
      List.replicate 3 (.ok ⟨⟨7, .default⟩, ⟨9123456789⟩, none, none⟩) :=
  ⟨simple_of_check (by kernel_rfl), by decide, by kernel_rfl⟩

/-- A Russian freephone number loses its first digit, written nationally or internationally. -/
example : ((str% "8 800 555 35 35") :: [(str% "+7 800 555 35 35")]).map
      (fun s => parseWith Sample.db (some .RU) s >>= fun p => .ok p.national.display) =
    List.replicate 2 (.ok (str% "005553535")) := by kernel_rfl

/-- The carrier of an Argentine mobile number is the area code. -/
example : parseWith Sample.db (some .AR) (str% "011 15-2345-6789") =
    .ok { code := ⟨54, .default⟩, national := ⟨91123456789⟩, extension := none, carrier := some (str% "11") } := by kernel_rfl

/-- Own calling code without plus. -/
example : parseWith Sample.db (some .RU) (str% "79123456789") = .ok ⟨⟨7, .number⟩, ⟨9123456789⟩, none, none⟩ ∧
    parseWith Sample.db none (str% "+79123456789") = .ok ⟨⟨7, .plus⟩, ⟨9123456789⟩, none, none⟩ := ⟨by kernel_rfl, by kernel_rfl⟩

end Phone
