import Verif.Props.Validator
import Verif.Spec.Region
/-! # C63: which region a number belongs to -/

namespace Phone
variable [UnicodeTables]

theorem regionHit_iff (md : Metadata) (v : Str) : regionHit md v = true ↔ Spec.Suits md v := by
  unfold regionHit Spec.Suits
  cases md.leadingDigits with
  | none => simp only [bne_iff_ne]; exact C23_known_iff md v
  | some re =>
    simp only
    have := C26_isMatch_iff ⟨re, [], [], none⟩ v
    simp only [Descriptor.isMatch, Spec.Accepts, ne_eq, not_true, false_and, if_false, true_or, true_and] at this
    exact this

omit [UnicodeTables] in
/-- With distinct ids, every region listed under a calling code but the non-geographic ones is found by its id. -/
theorem listed_by_id {compile : Str → Option Regex} {ms : List Loader.Metadata} {db : Database}
    (hdb : Database.from compile ms = .ok db) (hid : ((ms.filterMap (·.id)).filter (· ≠ worldId)).Nodup) {code : Nat}
    {l : List Metadata} (hl : db.byCode code = some l) {m : Metadata} (hm : m ∈ l) (hw : m.id ≠ worldId) :
    db.byId m.id = some m := by
  obtain ⟨mds, hmap, hbyId, hcode, hlist, hreg⟩ := C27_indexes ms db hdb
  have hc : (db.byCode code).isSome := by simp [hl]
  obtain ⟨hl', _⟩ := hlist _ ((hcode _).1 hc)
  rw [hl, Option.some.injEq] at hl'
  have hmm : m ∈ mds := by
    rw [hl'] at hm
    simp only [Spec.listed, List.mem_append, List.mem_reverse, List.mem_filter] at hm
    rcases hm with hm | hm <;> exact hm.1.1
  have e : ms.filterMap (·.id) = mds.map (·.id) := by
    have e := congrArg (List.map Prod.fst) hmap
    simp only [List.map_map] at e
    have e1 : mds.map (fun md => some md.id) = ms.map (fun m => m.id) := e
    rw [show ms.filterMap (·.id) = (ms.map (·.id)).filterMap id by simp [List.filterMap_map], ← e1]
    simp [List.filterMap_map]
  rw [e, List.filter_map] at hid
  rw [hbyId]
  cases hg : (mds.filter (·.id == m.id)).getLast? with
  | none =>
    rw [List.getLast?_eq_none_iff] at hg
    have : m ∈ mds.filter (·.id == m.id) := by simp [hmm]
    rw [hg] at this; cases this
  | some m' =>
    have h' := List.mem_filter.1 (List.mem_of_getLast? hg)
    have hi : m'.id = m.id := by simpa using h'.2
    rw [eq_of_nodup_map hid (a := m') (b := m) (by simp [h'.1, hi, hw]) (by simp [hmm, hw]) hi]

theorem sourceLoop_chosen {ε : Type} {db : Database} {v : Str} {l : List Metadata}
    (hb : ∀ m ∈ l, db.byId m.id = some m) (hi : ∀ m ∈ l, (Id.fromStr m.id).isSome) :
    ∃ o, sourceLoop (ε := ε) db v (l.map (·.id)) = .ok o ∧ o.bind (sourceMeta db) = l.find? (regionHit · v) := by
  induction l with
  | nil => exact ⟨none, rfl, rfl⟩
  | cons m l ih =>
    obtain ⟨o, h1, h2⟩ := ih (fun m hm => hb m (by simp [hm])) (fun m hm => hi m (by simp [hm]))
    simp only [List.map_cons, sourceLoop, hb m (by simp), Outcome.unwrap_some, Outcome.bind_ok]
    by_cases hh : regionHit m v = true
    · obtain ⟨i, hi'⟩ := Option.isSome_iff_exists.1 (hi m (by simp))
      refine ⟨some (.inl i), by simp [hh, hi'], ?_⟩
      rw [List.find?_cons_of_pos (p := (regionHit · v)) hh]
      have := (C43_id_roundtrip _ _).1 hi'
      simp only [Option.bind_some, sourceMeta, this]
      exact hb m (by simp)
    · rw [if_neg hh, List.find?_cons_of_neg (p := (regionHit · v)) hh]
      exact ⟨o, h1, h2⟩

/-- What `source_for` chooses. -/
theorem sourceFor_chosen (ε : Type) {compile : Str → Option Regex} {ms : List Loader.Metadata} {db : Database}
    (hdb : Database.from compile ms = .ok db) (hid : ((ms.filterMap (·.id)).filter (· ≠ worldId)).Nodup)
    (hs : Spec.SharedAreCountries db) (code : Nat) (v : Str) :
    ∃ o, sourceFor (ε := ε) db code v = .ok o ∧ Spec.RegionOf db code v (o.bind (sourceMeta db)) := by
  obtain ⟨mds, hmap, hbyId, hcode, hlist, hreg⟩ := C27_indexes ms db hdb
  unfold sourceFor
  cases hl : db.byCode code with
  | none =>
    have : db.region code = none := by rw [← Option.not_isSome_iff_eq_none, hreg, hl]; simp
    exact ⟨none, by simp [this], .unknown hl⟩
  | some l =>
    have hr : db.region code = some (l.map (·.id)) := by
      obtain ⟨h1, h2⟩ := hlist code ((hcode code).1 (by simp [hl]))
      rw [hl, Option.some.injEq] at h1
      rw [h2, ← h1]
    rw [hr]
    have loop : l.length ≠ 1 → ∃ o, sourceLoop (ε := ε) db v (l.map (·.id)) = .ok o ∧ Spec.RegionOf db code v (o.bind (sourceMeta db)) := by
      intro hlen
      have hne : l ≠ [] := by
        obtain ⟨m, hm, hmc⟩ := (hcode code).1 (by simp [hl])
        obtain ⟨h1, _⟩ := hlist code ⟨m, hm, hmc⟩
        rw [hl, Option.some.injEq] at h1
        have : m.countryCode ∈ mds.map (fun md => some md.countryCode) := by
          have e := congrArg (List.map fun p => p.2.1) hmap
          simp only [List.map_map] at e
          rw [show (mds.map fun md => some md.countryCode) = ms.map fun m => m.countryCode from e]
          exact List.mem_map_of_mem hm
        simp only [List.mem_map, hmc, Option.some.injEq] at this
        obtain ⟨md, hmd, hmdc⟩ := this
        have : md ∈ l := by
          rw [h1]
          simp only [Spec.listed, List.mem_append, List.mem_reverse, List.mem_filter, hmd, hmdc]
          cases md.mainCountryForCode <;> simp
        exact List.ne_nil_of_mem this
      have hi : ∀ m ∈ l, (Id.fromStr m.id).isSome := fun m hm =>
        hs code _ hr (by simpa using hlen) _ (List.mem_map_of_mem hm)
      have hb : ∀ m ∈ l, db.byId m.id = some m := by
        intro m hm
        refine listed_by_id hdb hid hl hm ?_
        obtain ⟨i, hi'⟩ := Option.isSome_iff_exists.1 (hi m hm)
        rw [← (C43_id_roundtrip _ _).1 hi']
        exact asRef_ne_world i
      obtain ⟨o, h1, h2⟩ := sourceLoop_chosen (ε := ε) (v := v) hb hi
      refine ⟨o, h1, ?_⟩
      rw [h2]
      cases hf : l.find? (regionHit · v) with
      | none =>
        rw [List.find?_eq_none] at hf
        refine .nobody hl ?_ fun m hm hsu => hf m hm ((regionHit_iff m v).2 hsu)
        match l, hne, hlen with
        | _ :: _ :: _, _, _ => simp
      | some md =>
        obtain ⟨hp, before, after, rfl, hbef⟩ := List.find?_eq_some_iff_append.1 hf
        refine .first hl ?_ ((regionHit_iff _ _).1 hp) fun m hm hsu => ?_
        · intro he
          apply hlen
          have := congrArg List.length he
          simp at this
          simp [this]
        · have := hbef m hm
          rw [(regionHit_iff m v).2 hsu] at this
          cases this
    match l, hl, loop with
    | [], _, loop => exact loop (by simp)
    | [m], hl, _ =>
      simp only [List.map_cons, List.map_nil]
      by_cases hw : m.id = worldId
      · rw [if_pos hw]
        refine ⟨_, rfl, ?_⟩
        simp only [Option.bind_some, sourceMeta, hl, List.head?_cons]
        exact .only hl (.inl hw)
      · rw [if_neg hw]
        refine ⟨_, rfl, ?_⟩
        cases hi : Id.fromStr m.id with
        | none =>
          refine .other hl hw fun i h => ?_
          rw [(C43_id_roundtrip _ i).2 h.symm] at hi
          cases hi
        | some i =>
          have := (C43_id_roundtrip _ _).1 hi
          simp only [Option.map_some, Option.bind_some, sourceMeta, this, listed_by_id hdb hid hl (by simp) hw]
          exact .only hl (.inr ⟨i, this.symm⟩)
    | _ :: _ :: _, _, loop => exact loop (by simp)

/-- At most one region is chosen. -/
theorem Spec.RegionOf.unique {db : Database} {code : Nat} {ds : Str} {o o' : Option Metadata} (h : Spec.RegionOf db code ds o)
    (h' : Spec.RegionOf db code ds o') : o = o' := by
  classical
  have key : ∀ o, Spec.RegionOf db code ds o →
      o = (db.byCode code).bind fun l => match l with
        | [md] => if md.id = (str% "001") ∨ ∃ i : Id, md.id = i.asRef then some md else none
        | l => l.find? (regionHit · ds) := by
    intro o h
    cases h with
    | unknown h => simp [h]
    | only h h1 => simp only [h, Option.bind_some, if_pos h1]
    | other h h1 h2 =>
      rw [h, Option.bind_some]
      simp only
      rw [if_neg]
      rintro (h3 | ⟨i, h3⟩)
      · exact h1 h3
      · exact h2 i h3
    | @first md before after h h1 h2 h3 =>
      have : (before ++ md :: after).find? (regionHit · ds) = some md := by
        rw [List.find?_eq_some_iff_append]
        refine ⟨(regionHit_iff _ _).2 h2, before, after, rfl, fun m hm => ?_⟩
        have : ¬ regionHit m ds = true := fun hh => h3 m hm ((regionHit_iff _ _).1 hh)
        simp [this]
      rw [h, Option.bind_some]
      match before, after with
      | [], [] => simp at h1
      | [], _ :: _ => exact this.symm
      | [_], _ => exact this.symm
      | _ :: _ :: _, _ => exact this.symm
    | @nobody l h h1 h2 =>
      have : l.find? (regionHit · ds) = none := by
        rw [List.find?_eq_none]
        exact fun m hm hh => h2 m hm ((regionHit_iff _ _).1 hh)
      rw [h, Option.bind_some]
      match l, h1 with
      | _ :: _ :: _, _ => exact this.symm
  rw [key o h, key o' h']

section
variable (ε : Type) (compile : Str → Option Regex) (ms : List Loader.Metadata) (db : Database)
  (hdb : Database.from compile ms = .ok db) (hid : ((ms.filterMap (·.id)).filter (· ≠ worldId)).Nodup)
  (hs : Spec.SharedAreCountries db)
include hdb hid hs

/-- C63: the metadata of a number is that of the region chosen for its digits without leading zeros: the only region of the calling
code, or the first of several that suits the digits. -/
theorem C63_metadata (n : PhoneNumber) (o : Option Metadata) :
    n.metadata (ε := ε) db = .ok o ↔ Spec.RegionOf db n.code.value (decStr n.national.value.toNat) o := by
  obtain ⟨src, h1, h2⟩ := sourceFor_chosen ε hdb hid hs n.code.value (decStr n.national.value.toNat)
  simp only [PhoneNumber.metadata, h1, Outcome.bind_ok, Outcome.pure_eq, Outcome.ok.injEq]
  exact ⟨fun h => h ▸ h2, fun h => h2.unique h⟩

/-- C63: a number is valid exactly if a region is chosen for its national digits, leading zeros included, and the descriptors of
that region give them a type. -/
theorem C63_valid (n : PhoneNumber) :
    isValidWith (ε := ε) db n = .ok true ↔
      ∃ md, Spec.RegionOf db n.code.value n.national.display (some md) ∧ Spec.Accepts md.descriptors.general n.national.display ∧
        ∃ o ∈ Spec.typed md.descriptors, Spec.AcceptsOpt o n.national.display := by
  obtain ⟨src, h1, h2⟩ := sourceFor_chosen ε hdb hid hs n.code.value n.national.display
  simp only [isValidWith, h1, Outcome.bind_ok, Outcome.pure_eq, Outcome.ok.injEq]
  constructor
  · intro h
    cases ho : src.bind (sourceMeta db) with
    | none => rw [ho] at h; simp at h
    | some md =>
      rw [ho] at h h2
      simp only [Option.map_some, Option.getD_some, bne_iff_ne] at h
      exact ⟨md, h2, (C23_known_iff _ _).1 h⟩
  · rintro ⟨md, h3, h4⟩
    rw [h2.unique h3]
    simpa using (C23_known_iff md _).2 h4

/-- C63: the type of a number is that of its digits without leading zeros in the region chosen for them; unknown if no region is. -/
theorem C63_number_type (n : PhoneNumber) (t : PType) :
    n.numberTypeWith (ε := ε) db = .ok t ↔
      (∃ md, Spec.RegionOf db n.code.value (decStr n.national.value.toNat) (some md) ∧
        t = numberType md (decStr n.national.value.toNat)) ∨
      (Spec.RegionOf db n.code.value (decStr n.national.value.toNat) none ∧ t = .unknown) := by
  have hm := C63_metadata ε compile ms db hdb hid hs n
  obtain ⟨src, h1, h2⟩ := sourceFor_chosen ε hdb hid hs n.code.value (decStr n.national.value.toNat)
  generalize ho : src.bind (sourceMeta db) = o at h2
  rw [PhoneNumber.numberTypeWith, (hm o).2 h2]
  simp only [Outcome.bind_ok, Outcome.pure_eq, Outcome.ok.injEq]
  cases o with
  | none =>
    constructor
    · rintro rfl; exact .inr ⟨h2, rfl⟩
    · rintro (⟨md, h3, _⟩ | ⟨_, rfl⟩)
      · cases h2.unique h3
      · rfl
  | some md =>
    constructor
    · rintro rfl; exact .inl ⟨md, h2, rfl⟩
    · rintro (⟨md', h3, rfl⟩ | ⟨h3, _⟩)
      · cases h2.unique h3; rfl
      · cases h2.unique h3

end

/-- Canada and the United States share a calling code: the digits decide. -/
example : ∃ us ca, Sample.db.byCode 1 = some [us, ca] ∧ us.id = (str% "US") ∧ ca.id = (str% "CA") ∧
    PhoneNumber.metadata (ε := ParseErr) ⟨⟨1, .plus⟩, ⟨2042345678⟩, none, none⟩ Sample.db = .ok (some ca) ∧
    PhoneNumber.metadata (ε := ParseErr) ⟨⟨1, .plus⟩, ⟨6502530000⟩, none, none⟩ Sample.db = .ok (some us) ∧
    PhoneNumber.metadata (ε := ParseErr) ⟨⟨1, .plus⟩, ⟨12⟩, none, none⟩ Sample.db = .ok none ∧
    Spec.SharedAreCountries Sample.db ∧ ((Sample.territories.filterMap (·.id)).filter (· ≠ worldId)).Nodup :=
  ⟨(Sample.db.byId (str% "US")).get (by kernel_rfl), (Sample.db.byId (str% "CA")).get (by kernel_rfl), by kernel_rfl, by kernel_rfl,
    by kernel_rfl, by kernel_rfl, by kernel_rfl, by kernel_rfl, Sample.db_shared, by decide⟩

end Phone
