import Verif.Spec.Database
import Verif.Spec.Sample
/-! # C27-C29: building the metadata database -/

namespace Phone
open Database

namespace Outcome
theorem isOk_iff {ε α : Type} {x : Outcome ε α} : x.IsOk ↔ ∃ a, x = ok a := by
  cases x <;> simp [IsOk]
theorem isOk_bind {ε α β : Type} {x : Outcome ε α} {f : α → Outcome ε β} :
    (x >>= f).IsOk ↔ ∃ a, x = ok a ∧ (f a).IsOk := by
  cases x <;> simp [IsOk]
@[simp] theorem isOk_ok {ε α : Type} (a : α) : (ok a : Outcome ε α).IsOk := trivial
theorem isOk_or {ε α : Type} (x : Outcome ε α) : x.IsOk ∨ (∃ e, x = err e) ∨ x.IsPanic := by
  cases x <;> simp [IsOk]
end Outcome

section
variable {compile : Str → Option Regex}

/-! ## Conversion of one territory -/

theorem regex_isOk {s : Str} : (∃ r, regex compile s = .ok r) ↔ (compile s).isSome := by
  simp only [regex, Outcome.okOr_eq_ok, Option.isSome_iff_exists]

theorem descriptor_isOk {d : Loader.Descriptor} :
    (∃ r, Database.descriptor compile d = .ok r) ↔ Spec.DescriptorComplete compile d := by
  rw [← Outcome.isOk_iff]
  simp only [Database.descriptor, Outcome.isOk_bind, Outcome.unwrap_eq_ok, Spec.DescriptorComplete, regex,
    Outcome.okOr_eq_ok, Option.isSome_iff_exists, Outcome.isOk_ok, and_true]

theorem transpose_isOk {α β : Type} {f : α → Outcome LoadErr β} {o : Option α} :
    (∃ r, transpose f o = .ok r) ↔ ∀ a, o = some a → ∃ r, f a = .ok r := by
  cases o with
  | none => simp [transpose]
  | some a =>
    simp only [transpose, Outcome.bind_eq_ok, Outcome.ok.injEq, Option.some.injEq, forall_eq']
    exact ⟨fun ⟨_, b, h, _⟩ => ⟨b, h⟩, fun ⟨b, h⟩ => ⟨_, b, h, rfl⟩⟩

theorem collect_isOk {α β : Type} {f : α → Outcome LoadErr β} {l : List α} :
    (∃ r, collect f l = .ok r) ↔ ∀ a ∈ l, ∃ r, f a = .ok r := by
  induction l with
  | nil => simp [collect]
  | cons a l ih =>
    simp only [collect, Outcome.bind_eq_ok, Outcome.ok.injEq, List.mem_cons, forall_eq_or_imp, ← ih]
    constructor
    · rintro ⟨_, b, hb, bs, hbs, rfl⟩; exact ⟨⟨b, hb⟩, bs, hbs⟩
    · rintro ⟨⟨b, hb⟩, bs, hbs⟩; exact ⟨_, b, hb, bs, hbs, rfl⟩

theorem format_isOk {f : Loader.Format} :
    (∃ r, Database.format compile f = .ok r) ↔ Spec.FormatComplete compile f := by
  rw [← Outcome.isOk_iff]
  simp only [Database.format, Outcome.isOk_bind, Outcome.okOr_eq_ok, Spec.FormatComplete, Outcome.isOk_ok, and_true,
    collect_isOk, regex_isOk]
  constructor
  · rintro ⟨p, hp, r, hr, q, hq, h⟩
    exact ⟨⟨p, hp, regex_isOk.1 ⟨r, hr⟩⟩, by simp [hq], h⟩
  · rintro ⟨⟨p, hp, hr⟩, hq, h⟩
    obtain ⟨r, hr⟩ := regex_isOk.2 hr
    obtain ⟨q, hq⟩ := Option.isSome_iff_exists.1 hq
    exact ⟨p, hp, r, hr, q, hq, h⟩

/-- A territory converts exactly if it is complete. -/
theorem metadata_isOk {m : Loader.Metadata} :
    (∃ md, Database.metadata compile m = .ok md) ↔ Spec.TerritoryComplete compile m := by
  rw [← Outcome.isOk_iff]
  simp only [Database.metadata, Outcome.isOk_bind, Outcome.okOr_eq_ok, Outcome.isOk_ok, and_true,
    exists_and_right, transpose_isOk, collect_isOk, descriptor_isOk, format_isOk, regex_isOk]
  constructor
  · rintro ⟨g, hg, hgen, h1, h2, h3, h4, h5, h6, h7, h8, h9, h10, h11, h12, h13, h14, h15, h16, h17, h18, h19, h20, h21, h22⟩
    refine ⟨?_, ?_, ?_, ?_, h18, h19, h22, h20, h21⟩
    · simpa [Option.isSome_iff_exists] using h16
    · simpa [Option.isSome_iff_exists] using h17
    · simp [hg]
    · intro d hd
      simp only [Loader.Metadata.descs, List.mem_filterMap, List.mem_cons, List.not_mem_nil, or_false] at hd
      obtain ⟨o, ho, hd⟩ := hd
      rcases ho with rfl|rfl|rfl|rfl|rfl|rfl|rfl|rfl|rfl|rfl|rfl|rfl|rfl|rfl|rfl|rfl
      · rw [hg] at hd; cases hd; exact hgen
      all_goals first
        | exact h1 d hd | exact h2 d hd | exact h3 d hd | exact h4 d hd | exact h5 d hd | exact h6 d hd | exact h7 d hd
        | exact h8 d hd | exact h9 d hd | exact h10 d hd | exact h11 d hd | exact h12 d hd | exact h13 d hd
        | exact h14 d hd | exact h15 d hd
  · rintro ⟨hid, hcode, hgen, hd, h18, h19, h22, h20, h21⟩
    obtain ⟨g, hg⟩ := Option.isSome_iff_exists.1 hgen
    have key : ∀ o : Option Loader.Descriptor, (∀ d, o = some d → d ∈ m.descs) →
        ∀ d, o = some d → Spec.DescriptorComplete compile d := fun o ho d h => hd d (ho d h)
    refine ⟨g, hg, hd g ?_, ?_, ?_, ?_, ?_, ?_, ?_, ?_, ?_, ?_, ?_, ?_, ?_, ?_, ?_, ?_,
      Option.isSome_iff_exists.1 hid, Option.isSome_iff_exists.1 hcode, h18, h19, h20, h21, h22⟩
    · simp [Loader.Metadata.descs, hg]
    all_goals
      refine key _ ?_
      intro d hd
      simp [Loader.Metadata.descs, hd]

/-- A territory all of whose descriptors have a pattern is converted without panic. -/
theorem metadata_no_panic {m : Loader.Metadata} (h : ∀ d ∈ m.descs, d.nationalNumber.isSome) :
    ¬ (Database.metadata compile m).IsPanic := by
  have hd : ∀ d, d.nationalNumber.isSome → ¬ (Database.descriptor compile d).IsPanic := by
    intro d hd
    obtain ⟨s, hs⟩ := Option.isSome_iff_exists.1 hd
    simp only [Database.descriptor, hs, Outcome.unwrap_some, Outcome.bind_ok, regex]
    cases compile s <;> simp
  have ht : ∀ o : Option Loader.Descriptor, (∀ d, o = some d → d ∈ m.descs) →
      ¬ (transpose (Database.descriptor compile) o).IsPanic := by
    intro o ho
    cases o with
    | none => simp [transpose]
    | some d =>
      simp only [transpose]
      exact Outcome.not_isPanic_bind (hd d (h d (ho d rfl))) (by simp)
  have hr : ∀ o : Option Str, ¬ (transpose (regex compile) o).IsPanic := by
    intro o; cases o with
    | none => simp [transpose]
    | some d => simp only [transpose, regex]; cases compile d <;> simp
  have hok : ∀ {α : Type} (e : LoadErr) (o : Option α), ¬ (Outcome.okOr e o).IsPanic := by
    intro α e o; cases o <;> simp
  have hcol : ∀ {α β : Type} (f : α → Outcome LoadErr β) (_ : ∀ a, ¬ (f a).IsPanic) (l : List α),
      ¬ (collect f l).IsPanic := by
    intro α β f hf l
    induction l with
    | nil => simp [collect]
    | cons a l ih =>
      simp only [collect]
      exact Outcome.not_isPanic_bind (hf a) fun _ _ => Outcome.not_isPanic_bind ih (by simp)
  have hreg : ∀ s, ¬ (regex compile s).IsPanic := fun s => hok _ _
  have hfmt : ∀ f, ¬ (Database.format compile f).IsPanic := by
    intro f
    unfold Database.format
    exact Outcome.not_isPanic_bind (hok _ _) fun _ _ => Outcome.not_isPanic_bind (hreg _) fun _ _ =>
      Outcome.not_isPanic_bind (hok _ _) fun _ _ => Outcome.not_isPanic_bind (hcol _ hreg _) (by simp)
  unfold Database.metadata
  refine Outcome.not_isPanic_bind (hok _ _) fun g hg => ?_
  refine Outcome.not_isPanic_bind (hd _ (h _ ?_)) fun _ _ => ?_
  · rw [Outcome.okOr_eq_ok] at hg; simp [Loader.Metadata.descs, hg]
  iterate 15
    refine Outcome.not_isPanic_bind (ht _ ?_) fun _ _ => ?_
    · intro d hd; simp [Loader.Metadata.descs, hd]
  refine Outcome.not_isPanic_bind (hok _ _) fun _ _ => ?_
  refine Outcome.not_isPanic_bind (hok _ _) fun _ _ => ?_
  refine Outcome.not_isPanic_bind (hr _) fun _ _ => ?_
  refine Outcome.not_isPanic_bind (hr _) fun _ _ => ?_
  refine Outcome.not_isPanic_bind (hcol _ hfmt _) fun _ _ => ?_
  refine Outcome.not_isPanic_bind (hcol _ hfmt _) fun _ _ => ?_
  refine Outcome.not_isPanic_bind (hr _) fun _ _ => ?_
  simp

/-- Fields of a converted territory that the parser and validator read. -/
theorem metadata_fields {m : Loader.Metadata} {md : Metadata} (h : Database.metadata compile m = .ok md) :
    m.id = some md.id ∧ m.countryCode = some md.countryCode ∧ md.mainCountryForCode = m.mainCountryForCode ∧
    md.nationalPrefix = m.nationalPrefix ∧ md.nationalPrefixTransformRule = m.nationalPrefixTransformRule ∧
    md.preferredExtensionPrefix = m.preferredExtensionPrefix ∧
    (md.nationalPrefixForParsing = m.nationalPrefixForParsing.bind compile) ∧
    (md.internationalPrefix = m.internationalPrefix.bind compile) ∧
    (md.leadingDigits = m.leadingDigits.bind compile) := by
  have tr : ∀ {o : Option Str} {r : Option Regex}, transpose (regex compile) o = .ok r → r = o.bind compile := by
    intro o r h
    cases o with
    | none => simp [transpose] at h; simp [← h]
    | some s =>
      simp only [transpose, regex, Outcome.bind_eq_ok, Outcome.okOr_eq_ok, Outcome.ok.injEq] at h
      obtain ⟨a, h1, rfl⟩ := h
      simp [h1]
  simp only [Database.metadata, Outcome.bind_eq_ok, Outcome.ok.injEq, Outcome.okOr_eq_ok] at h
  obtain ⟨_, _, _, _, _, _, _, _, _, _, _, _, _, _, _, _, _, _, _, _, _, _, _, _, _, _, _, _, _, _, _, _, _, _, h⟩ := h
  obtain ⟨id, hid, code, hcode, ip, hip, pf, hpf, fs, hfs, ifs, hifs, ld, hld, rfl⟩ := h
  exact ⟨hid, hcode, rfl, rfl, rfl, rfl, tr hpf, tr hip, tr hld⟩

/-! ## The maps -/

theorem lookup_insert {κ α : Type} [DecidableEq κ] (k k' : κ) (a : α) (l : List (κ × α)) :
    lookup k' (Database.insert k a l) = if k = k' then some a else lookup k' l := by
  induction l with
  | nil => simp [Database.insert, lookup]
  | cons p l ih =>
    obtain ⟨q, b⟩ := p
    simp only [Database.insert]
    by_cases hq : q = k
    · subst hq; simp [lookup]; split <;> simp_all
    · simp only [if_neg hq, lookup, ih]
      by_cases h1 : q = k'
      · subst h1; simp [Ne.symm hq]
      · simp [h1]

theorem lookup_upsert {κ α : Type} [DecidableEq κ] (k k' : κ) (f : List α → List α) (l : List (κ × List α)) :
    lookup k' (upsert k f l) = if k = k' then some (f ((lookup k l).getD [])) else lookup k' l := by
  induction l with
  | nil => simp [upsert, lookup]
  | cons p l ih =>
    obtain ⟨q, b⟩ := p
    simp only [upsert]
    by_cases hq : q = k
    · subst hq; simp [lookup]; split <;> simp_all
    · simp only [if_neg hq, lookup, ih]
      by_cases h1 : q = k'
      · subst h1; simp [Ne.symm hq]
      · simp [h1]

theorem keys_insert {κ α : Type} [DecidableEq κ] (k : κ) (a : α) (l : List (κ × α)) :
    (Database.insert k a l).map Prod.fst = if k ∈ l.map Prod.fst then l.map Prod.fst else l.map Prod.fst ++ [k] := by
  induction l with
  | nil => simp [Database.insert]
  | cons p l ih =>
    obtain ⟨q, b⟩ := p
    simp only [Database.insert]
    by_cases hq : q = k
    · subst hq; simp
    · simp only [if_neg hq, List.map_cons, ih, List.mem_cons, Ne.symm hq, false_or]
      split <;> simp

theorem lookup_eq_some_mem {κ α : Type} [DecidableEq κ] {k : κ} {a : α} {l : List (κ × α)} (h : lookup k l = some a) :
    (k, a) ∈ l := by
  induction l with
  | nil => simp [lookup] at h
  | cons p l ih =>
    obtain ⟨q, b⟩ := p
    simp only [lookup] at h
    split at h
    · rename_i hq; cases h; subst hq; simp
    · simp [ih h]

theorem lookup_of_mem {κ α : Type} [DecidableEq κ] {k : κ} {a : α} {l : List (κ × α)} (hn : (l.map Prod.fst).Nodup)
    (h : (k, a) ∈ l) : lookup k l = some a := by
  induction l with
  | nil => simp at h
  | cons p l ih =>
    obtain ⟨q, b⟩ := p
    simp only [List.map_cons, List.nodup_cons] at hn
    simp only [lookup]
    simp only [List.mem_cons, Prod.mk.injEq] at h
    rcases h with ⟨rfl, rfl⟩ | h
    · simp
    · have : q ≠ k := by
        rintro rfl
        exact hn.1 (List.mem_map.2 ⟨(q, a), h, rfl⟩)
      rw [if_neg this]
      exact ih hn.2 h

/-! ## The fold -/

theorem fromLoop_eq_ok {db db' : Database} {ms : List Loader.Metadata} :
    fromLoop compile db ms = .ok db' ↔ ∃ mds, collect (Database.metadata compile) ms = .ok mds ∧ db' = mds.foldl add db := by
  induction ms generalizing db with
  | nil => simp [fromLoop, collect, eq_comm]
  | cons m ms ih =>
    simp only [fromLoop, collect, Outcome.bind_eq_ok, ih, Outcome.ok.injEq]
    constructor
    · rintro ⟨md, h1, mds, h2, rfl⟩; exact ⟨_, ⟨md, h1, mds, h2, rfl⟩, rfl⟩
    · rintro ⟨_, ⟨md, h1, mds, h2, rfl⟩, rfl⟩; exact ⟨md, h1, mds, h2, rfl⟩

/-- `Database::from` converts each territory and adds them one after the other. -/
theorem from_eq_ok {db : Database} {ms : List Loader.Metadata} :
    Database.from compile ms = .ok db ↔
      ∃ mds, collect (Database.metadata compile) ms = .ok mds ∧ db = mds.foldl add empty := fromLoop_eq_ok

theorem foldl_byId (mds : List Metadata) (db : Database) (i : Str) :
    (mds.foldl add db).byId i = ((mds.filter (·.id == i)).getLast?).or (db.byId i) := by
  induction mds generalizing db with
  | nil => simp
  | cons md mds ih =>
    rw [List.foldl_cons, ih]
    simp only [byId, add, lookup_insert, List.filter_cons]
    by_cases h : md.id = i
    · simp only [h, if_true, beq_self_eq_true]
      cases hl : (mds.filter (·.id == i)) with
      | nil => simp
      | cons a l => simp [List.getLast?_eq_some_getLast]
    · simp [h]

theorem listed_snoc {α : Type} (main : α → Bool) (l : List α) (a : α) :
    Spec.listed main (l ++ [a]) = if main a then a :: Spec.listed main l else Spec.listed main l ++ [a] := by
  unfold Spec.listed
  cases h : main a <;> simp [h]

theorem foldl_byCode (mds : List Metadata) (c : Nat) :
    (mds.foldl add empty).byCode c =
      (if mds.filter (·.countryCode == c) = [] then none
       else some (Spec.listed (·.mainCountryForCode) (mds.filter (·.countryCode == c)))) ∧
    (mds.foldl add empty).region c =
      (if mds.filter (·.countryCode == c) = [] then none
       else some ((Spec.listed (·.mainCountryForCode) (mds.filter (·.countryCode == c))).map (·.id))) := by
  generalize hn : mds.length = n
  induction n generalizing mds with
  | zero =>
    have := List.eq_nil_of_length_eq_zero hn; subst this
    simp [empty, byCode, region, lookup]
  | succ n ih =>
    have hne : mds ≠ [] := by rintro rfl; simp at hn
    obtain ⟨init, md, rfl⟩ : ∃ init md, mds = init ++ [md] := ⟨_, _, (List.dropLast_concat_getLast hne).symm⟩
    have hlen : init.length = n := by simp at hn; exact hn
    obtain ⟨h1, h2⟩ := ih init hlen
    rw [List.foldl_append]
    simp only [List.foldl_cons, List.foldl_nil]
    simp only [byCode, region] at h1 h2 ⊢
    simp only [add, lookup_upsert]
    by_cases h : md.countryCode = c
    · subst h
      simp only [if_true, h1, h2, List.filter_append, List.filter_cons, beq_self_eq_true, List.filter_nil, listed_snoc,
        List.append_eq_nil_iff, List.cons_ne_nil, and_false, if_false, Option.some.injEq]
      by_cases hl : init.filter (·.countryCode == md.countryCode) = []
      · simp [hl, Spec.listed]
      · simp only [hl, if_false, Option.getD_some]
        cases md.mainCountryForCode <;> simp
    · have hf : (init ++ [md]).filter (·.countryCode == c) = init.filter (·.countryCode == c) := by
        simp [h]
      rw [hf, if_neg h, if_neg h, h1, h2]
      exact ⟨rfl, rfl⟩

theorem foldl_keys (mds : List Metadata) (db : Database) (hdb : (db.byIdMap.map Prod.fst).Nodup)
    (hid : ∀ p ∈ db.byIdMap, p.2.id = p.1) :
    ((mds.foldl add db).byIdMap.map Prod.fst).Nodup ∧ ∀ p ∈ (mds.foldl add db).byIdMap, p.2.id = p.1 := by
  induction mds generalizing db with
  | nil => exact ⟨hdb, hid⟩
  | cons md mds ih =>
    apply ih
    · simp only [add, keys_insert]
      split
      · exact hdb
      · rename_i hn
        rw [List.nodup_append]
        exact ⟨hdb, by simp, by rintro a ha b hb rfl; simp at hb; exact hn (hb ▸ ha)⟩
    · intro p hp
      have aux : ∀ (l : List (Str × Metadata)), (∀ p ∈ l, p.2.id = p.1) → ∀ p ∈ Database.insert md.id md l, p.2.id = p.1 := by
        intro l
        induction l with
        | nil => simp [Database.insert]
        | cons q l ih =>
          intro hl p hp
          simp only [Database.insert] at hp
          split at hp
          · rename_i hq
            simp only [List.mem_cons] at hp
            rcases hp with rfl | hp
            · exact hq.symm
            · exact hl p (by simp [hp])
          · simp only [List.mem_cons] at hp
            rcases hp with rfl | hp
            · exact hl _ (by simp)
            · exact ih (fun p hp => hl p (by simp [hp])) p hp
      exact aux _ hid p hp

/-! ## C27 -/

/-- C27: whatever list of territories `Database::from` accepts, with `mds` the converted territories in document order:
`by_id(i)` is the last territory with id `i`; `by_code(c)` is present exactly if some territory has code `c` and then lists
exactly those, main countries first; `region(c)` lists their ids in the same order. -/
theorem C27_indexes (ms : List Loader.Metadata) (db : Database) (h : Database.from compile ms = .ok db) :
    ∃ mds : List Metadata,
      mds.map (fun md => (some md.id, some md.countryCode, md.mainCountryForCode)) =
        ms.map (fun m => (m.id, m.countryCode, m.mainCountryForCode)) ∧
      (∀ i, db.byId i = (mds.filter (·.id == i)).getLast?) ∧
      (∀ c, (db.byCode c).isSome ↔ ∃ m ∈ ms, m.countryCode = some c) ∧
      (∀ c, (∃ m ∈ ms, m.countryCode = some c) →
        db.byCode c = some (Spec.listed (·.mainCountryForCode) (mds.filter (·.countryCode == c))) ∧
        db.region c = some ((Spec.listed (·.mainCountryForCode) (mds.filter (·.countryCode == c))).map (·.id))) ∧
      (∀ c, (db.region c).isSome ↔ (db.byCode c).isSome) := by
  obtain ⟨mds, hc, rfl⟩ := from_eq_ok.1 h
  have hmap : mds.map (fun md => (some md.id, some md.countryCode, md.mainCountryForCode)) =
      ms.map (fun m => (m.id, m.countryCode, m.mainCountryForCode)) := by
    clear h
    induction ms generalizing mds with
    | nil => simp [collect] at hc; subst hc; rfl
    | cons m ms ih =>
      simp only [collect, Outcome.bind_eq_ok, Outcome.ok.injEq] at hc
      obtain ⟨md, h1, mds', h2, rfl⟩ := hc
      have f := metadata_fields h1
      simp [ih _ h2, f.1, f.2.1, f.2.2.1]
  have hex : ∀ c, (∃ m ∈ ms, m.countryCode = some c) ↔ mds.filter (·.countryCode == c) ≠ [] := by
    intro c
    have : (∃ m ∈ ms, m.countryCode = some c) ↔ ∃ md ∈ mds, md.countryCode = c := by
      have e := congrArg (List.map fun p => p.2.1) hmap
      simp only [List.map_map] at e
      have e1 : (some c ∈ mds.map fun md => some md.countryCode) ↔ (some c ∈ ms.map fun m => m.countryCode) := by
        rw [show (mds.map fun md => some md.countryCode) = ms.map fun m => m.countryCode from e]
      simp only [List.mem_map, Option.some.injEq] at e1
      exact e1.symm
    rw [this, ← List.isEmpty_eq_false_iff, List.isEmpty_eq_false_iff_exists_mem]
    simp
  refine ⟨mds, hmap, ?_, ?_, ?_, ?_⟩
  · intro i; rw [foldl_byId]; simp [empty, byId, lookup]
  · intro c; rw [hex, (foldl_byCode mds c).1]; split <;> simp_all
  · intro c hm
    rw [(foldl_byCode mds c).1, (foldl_byCode mds c).2, if_neg ((hex c).1 hm), if_neg ((hex c).1 hm)]
    exact ⟨rfl, rfl⟩
  · intro c; rw [(foldl_byCode mds c).1, (foldl_byCode mds c).2]; split <;> simp

/-- C27: `iter()` yields exactly the entries `by_id` can find, one per distinct id. -/
theorem C27_iter (ms : List Loader.Metadata) (db : Database) (h : Database.from compile ms = .ok db) :
    (db.iter.map (·.id)).Nodup ∧ (∀ md, md ∈ db.iter ↔ db.byId md.id = some md) ∧
    (∀ i md, db.byId i = some md → md.id = i) := by
  obtain ⟨mds, hc, rfl⟩ := from_eq_ok.1 h
  obtain ⟨h1, h2⟩ := foldl_keys mds empty (by simp [empty]) (by simp [empty])
  have hk : (mds.foldl add empty).iter.map (·.id) = (mds.foldl add empty).byIdMap.map Prod.fst := by
    simp only [iter, List.map_map]
    exact List.map_congr_left fun p hp => h2 p hp
  refine ⟨hk ▸ h1, ?_, ?_⟩
  · intro md
    simp only [iter, List.mem_map]
    constructor
    · rintro ⟨⟨i, md'⟩, hp, rfl⟩
      have := h2 _ hp
      simp only at this
      rw [this]
      exact lookup_of_mem h1 hp
    · intro hb
      exact ⟨(md.id, md), lookup_eq_some_mem hb, rfl⟩
  · intro i md hb
    exact h2 _ (lookup_eq_some_mem hb)

/-- The hypothesis of C27 is met by the sample database; there +1 lists the United States before Canada although Canada comes
first in the document. -/
example : ∃ db, Database.from Sample.compile Sample.territories = .ok db ∧ db.region 1 = some [str% "US", str% "CA"] ∧
    db.region 800 = some [str% "001"] ∧ db.region 2 = none ∧ ((db.byId (str% "CA")).map (·.countryCode)) = some 1 :=
  ⟨Sample.db, Sample.from_territories, by kernel_rfl, by kernel_rfl, by kernel_rfl, by kernel_rfl⟩

/-! ## C28 -/

theorem from_isOk {ms : List Loader.Metadata} :
    (∃ db, Database.from compile ms = .ok db) ↔ ∀ m ∈ ms, Spec.TerritoryComplete compile m := by
  simp only [from_eq_ok]
  rw [show (∃ db : Database, ∃ mds, collect (Database.metadata compile) ms = .ok mds ∧ db = mds.foldl add empty) ↔
      ∃ mds, collect (Database.metadata compile) ms = .ok mds from
    ⟨fun ⟨_, mds, h, _⟩ => ⟨mds, h⟩, fun ⟨mds, h⟩ => ⟨_, mds, h, rfl⟩⟩]
  rw [collect_isOk]
  simp only [metadata_isOk]

/-- C28: as long as every descriptor has a pattern, `Database::from` never panics: it succeeds if every territory is
complete and returns an error otherwise. -/
theorem C28_from_total (ms : List Loader.Metadata) (h : ∀ m ∈ ms, ∀ d ∈ m.descs, d.nationalNumber.isSome) :
    ((∀ m ∈ ms, Spec.TerritoryComplete compile m) ∧ ∃ db, Database.from compile ms = .ok db) ∨
    ((¬ ∀ m ∈ ms, Spec.TerritoryComplete compile m) ∧ ∃ e, Database.from compile ms = .err e) := by
  by_cases hc : ∀ m ∈ ms, Spec.TerritoryComplete compile m
  · exact .inl ⟨hc, from_isOk.2 hc⟩
  · right
    refine ⟨hc, ?_⟩
    have hp : ∀ db, ¬ (fromLoop compile db ms).IsPanic := by
      clear hc
      induction ms with
      | nil => intro db; simp [fromLoop]
      | cons m ms ih =>
        intro db
        simp only [fromLoop]
        exact Outcome.not_isPanic_bind (metadata_no_panic (h m (by simp))) fun _ _ =>
          ih (fun m' hm' => h m' (by simp [hm'])) _
    rcases (Database.from compile ms).isOk_or with h1 | h1 | h1
    · exact absurd (from_isOk.1 (Outcome.isOk_iff.1 h1)) hc
    · exact h1
    · exact absurd h1 (hp _)

/-- C28: a general descriptor without `nationalNumberPattern` crashes `Database::from` instead of giving an error, whatever
comes before (if complete) and after. -/
theorem C28_missing_pattern_panics (pre post : List Loader.Metadata) (m : Loader.Metadata) (d : Loader.Descriptor)
    (hpre : ∀ m ∈ pre, Spec.TerritoryComplete compile m) (hg : m.general = some d) (hd : d.nationalNumber = none) :
    Database.from compile (pre ++ m :: post) = .panic .unwrap := by
  have : ∀ db, fromLoop compile db (pre ++ m :: post) = .panic .unwrap := by
    induction pre with
    | nil =>
      intro db
      simp [fromLoop, Database.metadata, hg, Database.descriptor, hd]
    | cons a pre ih =>
      intro db
      obtain ⟨md, hmd⟩ := metadata_isOk.2 (hpre a (by simp))
      simp only [List.cons_append, fromLoop, hmd, Outcome.bind_ok]
      exact ih (fun m hm => hpre m (by simp [hm])) _
  exact this _

/-- Both branches of C28 occur: the sample is accepted, and dropping the code of one territory or spoiling a pattern gives
an error. -/
example : (∀ m ∈ Sample.territories, ∀ d ∈ m.descs, d.nationalNumber.isSome) ∧
    (∃ db, Database.from Sample.compile Sample.territories = .ok db) ∧
    Database.from Sample.compile [Sample.ar, { Sample.ca with countryCode := none }] =
      .err (missing (str% "metadata") (str% "countryCode")) ∧
    Database.from Sample.compile [Sample.ar, { Sample.ca with leadingDigits := some (str% "(2") }] = .err .regex :=
  ⟨by decide, ⟨_, Sample.from_territories⟩, by kernel_rfl, by kernel_rfl⟩

/-- The crash of C28 on a concrete list. -/
example : Database.from Sample.compile [Sample.ar, { Sample.ca with general := some {} }] = .panic .unwrap := by kernel_rfl

end
end Phone
