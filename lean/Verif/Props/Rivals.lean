import Verif.Props.ValidBack
import Verif.Props.LazyBuiltin
import Verif.Props.LocalBuiltin
/-! # C101: which territories with the same calling code overlap in the shipped metadata -/

namespace Phone

/-- The territories that share a calling code and some national numbers. -/
def Spec.rivals : List (Str × Str) :=
  [(str% "US", str% "CA"), (str% "AU", str% "CC"), (str% "AU", str% "CX"), (str% "CC", str% "CX"), (str% "GP", str% "BL"), (str% "GP", str% "MF"),
   (str% "BL", str% "MF"), (str% "MA", str% "EH"), (str% "GB", str% "GG"), (str% "GB", str% "JE"), (str% "GG", str% "JE"), (str% "RE", str% "YT")]

namespace Builtin
variable [UnicodeTables]

/-- The ways in which digits may suit a territory: a list of lengths (any length if it is empty) and patterns they begin with matches of. -/
def waysOf (m : Loader.Metadata) : Option (List (List Nat × List Re)) :=
  match m.leadingDigits with
  | some p => (compile p).map fun r => [([], [r.re])]
  | none => (m.general.bind patternOf).bind fun g => (typedOf m).mapM fun d => (patternOf d).map fun r => (d.possibleLength, [g, r])

/-- The greatest length that both lists allow, if there is one. -/
def commonMax (a b : List Nat) : Option Nat :=
  match a, b with
  | [], [] => some 65535
  | [], n :: l => some (l.foldl Nat.max n)
  | n :: l, [] => some (l.foldl Nat.max n)
  | _, _ => match a.filter b.contains with
    | [] => none
    | n :: l => some (l.foldl Nat.max n)

def wayApart (a b : List Nat × List Re) : Bool :=
  match commonMax a.1 b.1 with
  | none => true
  | some n => !clash n ((a.2 ++ b.2).map fun r => some [r])

def rivalListed (a b : Option Str) : Bool := Spec.rivals.any fun x => a == some x.1 && b == some x.2

/-- Two territories have no number in common or are listed. -/
def noRivals (a b : Loader.Metadata) : Bool :=
  a.countryCode != b.countryCode || (rivalListed a.id b.id || rivalListed b.id a.id) ||
    match waysOf a, waysOf b with
    | some x, some y => x.all fun p => y.all fun q => wayApart p q
    | _, _ => false

def rivalCheck : List Loader.Metadata → Bool
  | [] => true
  | m :: l => l.all (noRivals m) && rivalCheck l

omit [UnicodeTables] in
theorem rival_check : rivalCheck Data.territories = true := by kernel_rfl

omit [UnicodeTables] in
theorem le_fold {n k : Nat} {l : List Nat} (h : n ∈ k :: l) : n ≤ l.foldl Nat.max k := by
  rcases List.mem_cons.1 h with h | h
  · exact le_foldl_max (.inr (Nat.le_of_eq h))
  · exact le_foldl_max (.inl h)

omit [UnicodeTables] in
theorem le_commonMax {a b : List Nat} {n : Nat} (ha : a = [] ∨ n ∈ a) (hb : b = [] ∨ n ∈ b) (hn : n < 65536) :
    ∃ k, commonMax a b = some k ∧ n ≤ k := by
  unfold commonMax
  split
  · exact ⟨_, rfl, by omega⟩
  · exact ⟨_, rfl, le_fold (hb.resolve_left (by simp))⟩
  · exact ⟨_, rfl, le_fold (ha.resolve_left (by simp))⟩
  · rename_i h1 h2 h3
    have hm : n ∈ a.filter b.contains := by
      refine List.mem_filter.2 ⟨ha.resolve_left ?_, List.contains_iff_mem.2 (hb.resolve_left ?_)⟩
      · rintro rfl
        cases b with
        | nil => exact h1 rfl rfl
        | cons => exact h2 _ _ rfl rfl
      · rintro rfl
        cases a with
        | nil => exact h1 rfl rfl
        | cons => exact h3 _ _ rfl rfl
    split
    · rename_i e
      rw [e] at hm
      cases hm
    · rename_i e
      rw [e] at hm
      exact ⟨_, rfl, le_fold hm⟩

/-- The digits suit in that way. -/
def FitsWay (v : Str) (x : List Nat × List Re) : Prop :=
  (x.1 = [] ∨ v.length ∈ x.1) ∧ ∀ r ∈ x.2, ∃ w q, v = w ++ q ∧ Lang r 0 w q

theorem wayApart_sound {a b : List Nat × List Re} (h : wayApart a b = true) {v : Str} (hd : Digits v) (hl : v.length < 65536)
    (ha : FitsWay v a) (hb : FitsWay v b) : False := by
  obtain ⟨k, hk, hn⟩ := le_commonMax ha.1 hb.1 hl
  rw [wayApart, hk] at h
  refine clash_false (rs := a.2 ++ b.2) hd hn (by simpa using h) fun r hr => ?_
  rcases List.mem_append.1 hr with hr | hr
  · exact ha.2 r hr
  · exact hb.2 r hr

omit [UnicodeTables] in
theorem mem_mapM {α β : Type} {f : α → Option β} {l : List α} {r : List β} (h : l.mapM f = some r) {a : α} (ha : a ∈ l) :
    ∃ b ∈ r, f a = some b := by
  induction l generalizing r with
  | nil => cases ha
  | cons x l ih =>
    simp only [List.mapM_cons, bind, Option.bind_eq_some_iff, pure, Option.some.injEq] at h
    obtain ⟨y, hy, r', hr', rfl⟩ := h
    rcases List.mem_cons.1 ha with rfl | ha
    · exact ⟨y, by simp, hy⟩
    · obtain ⟨b, hb, e⟩ := ih hr' ha
      exact ⟨b, by simp [hb], e⟩

theorem suits_way {m : Loader.Metadata} {md : Metadata} (he : Spec.EntryOf compile m md) {ws : List (List Nat × List Re)}
    (hw : waysOf m = some ws) {v : Str} (hd : Digits v) (hl : v.length < 65536) (hs : Spec.Suits md v) : ∃ x ∈ ws, FitsWay v x := by
  unfold waysOf at hw
  unfold Spec.Suits at hs
  have hr := he.leadingDigits
  cases hm : m.leadingDigits with
  | some p =>
    rw [hm] at hr hw
    generalize md.leadingDigits = o at *
    cases hr with
    | @some _ r hc =>
      simp only [show compile p = some r from hc, Option.map_some] at hw
      cases hw
      exact ⟨([], [r.re]), by simp, .inl rfl, by simpa using hs⟩
  | none =>
    rw [hm] at hr hw
    generalize md.leadingDigits = o at *
    cases hr
    simp only at hs hw
    obtain ⟨hg, o, ho, d, rfl, ha⟩ := hs
    obtain ⟨g, hg1, hg2⟩ := he.general
    obtain ⟨e, he1, he2⟩ := typed_of_entry he ho
    rw [hg1, Option.bind_some, patternOf_eq hg2, Option.bind_some] at hw
    obtain ⟨x, hx, e⟩ := mem_mapM hw he1
    rw [patternOf_eq he2] at e
    cases e
    refine ⟨_, hx, ?_, ?_⟩
    · have := ha.1
      rwa [hd.byteLen, Nat.mod_eq_of_lt hl, he2.possibleLength] at this
    · simp only [List.mem_cons, List.not_mem_nil, or_false]
      rintro r (rfl | rfl)
      · exact hg.2
      · exact ha.2

omit [UnicodeTables] in
theorem rivalCheck_sound {l : List Loader.Metadata} (h : rivalCheck l = true) : l.Pairwise fun a b => noRivals a b = true := by
  induction l with
  | nil => exact .nil
  | cons m l ih =>
    rw [rivalCheck, Bool.and_eq_true, List.all_eq_true] at h
    exact .cons h.1 (ih h.2)

omit [UnicodeTables] in
theorem rivalListed_iff {a b : Str} (h : rivalListed (some a) (some b) = true) : (a, b) ∈ Spec.rivals := by
  obtain ⟨x, hx, e⟩ := List.any_eq_true.1 h
  simp only [Bool.and_eq_true, beq_iff_eq, Option.some.injEq] at e
  obtain ⟨rfl, rfl⟩ := e
  exact hx

theorem noRivals_sound {m m' : Loader.Metadata} {md md' : Metadata} (h : noRivals m m' = true) (he : Spec.EntryOf compile m md)
    (he' : Spec.EntryOf compile m' md') (hc : md.countryCode = md'.countryCode) {v : Str} (hd : Digits v) (hl : v.length < 65536)
    (hs : Spec.Suits md v) (hs' : Spec.Suits md' v) : (md.id, md'.id) ∈ Spec.rivals ∨ (md'.id, md.id) ∈ Spec.rivals := by
  rw [noRivals, he.countryCode, he'.countryCode, hc, he.id, he'.id] at h
  simp only [bne_self_eq_false, Bool.false_or, Bool.or_eq_true] at h
  rcases h with (h | h) | h
  · exact .inl (rivalListed_iff h)
  · exact .inr (rivalListed_iff h)
  · split at h
    · rename_i x y hx hy
      obtain ⟨a, ha, hfa⟩ := suits_way he hx hd hl hs
      obtain ⟨b, hb, hfb⟩ := suits_way he' hy hd hl hs'
      exact (wayApart_sound (List.all_eq_true.1 (List.all_eq_true.1 h a ha) b hb) hd hl hfa hfb).elim
    · cases h

/-- C101: two territories of the shipped database with the same calling code that the same national digits suit are among the 12 pairs
listed. -/
theorem C101_apart (c : Nat) (l : List Metadata) (hl : db.byCode c = some l) (md md' : Metadata) (hm : md ∈ l) (hm' : md' ∈ l) (hne : md ≠ md')
    (v : Str) (hd : ∀ c ∈ v, isDigit c = true) (hv : v.length < 65536) (hs : Spec.Suits md v) (hs' : Spec.Suits md' v) :
    (md.id, md'.id) ∈ Spec.rivals ∨ (md'.id, md.id) ∈ Spec.rivals := by
  obtain ⟨m, h1, h2⟩ := entry_of_territory from_builtin (.inr ⟨c, l, hl, hm⟩)
  obtain ⟨m', h1', h2'⟩ := entry_of_territory from_builtin (.inr ⟨c, l, hl, hm'⟩)
  have hcode := ((from_consistent from_builtin).2.1 c l hl).2
  have hmm : m ≠ m' := by
    rintro rfl
    rw [h2] at h2'
    exact hne (by simpa using h2')
  have he := metadata_rel _ _ h2
  have he' := metadata_rel _ _ h2'
  have hcc : md.countryCode = md'.countryCode := (hcode md hm).trans (hcode md' hm').symm
  obtain ⟨b, a, e⟩ := List.append_of_mem h1
  have hp := rivalCheck_sound rival_check
  rw [e, List.pairwise_append, List.pairwise_cons] at hp
  rw [e] at h1'
  rcases List.mem_append.1 h1' with h | h
  · exact (noRivals_sound (hp.2.2 m' h m (by simp)) he' he hcc.symm hd hv hs' hs).symm
  · rcases List.mem_cons.1 h with h | h
    · exact absurd h.symm hmm
    · exact noRivals_sound (hp.2.1.1 m' h) he he' hcc hd hv hs hs'

/-- C101: so apart from these pairs the region chosen for a number does not depend on the order of the territories: it is the one that
the digits suit. -/
theorem C101_region (c : Nat) (l : List Metadata) (hl : db.byCode c = some l) (md : Metadata) (hm : md ∈ l)
    (v : Str) (hd : ∀ c ∈ v, isDigit c = true) (hv : v.length < 65536) (hs : Spec.Suits md v) :
    ∃ md', Spec.RegionOf db c v (some md') ∧ (md' = md ∨ (md'.id, md.id) ∈ Spec.rivals ∨ (md.id, md'.id) ∈ Spec.rivals) := by
  obtain ⟨o, _, h⟩ := sourceFor_chosen Unit from_builtin ids_nodup shared c v
  generalize o.bind (sourceMeta db) = r at h
  cases h with
  | unknown h => rw [hl] at h; cases h
  | only h hi =>
    rw [hl] at h
    cases h
    exact ⟨_, .only hl hi, .inl (List.mem_singleton.1 hm).symm⟩
  | @other x h hi hi' =>
    exfalso
    rcases (good_iff (md := x) (.inr ⟨c, _, h, by simp⟩)).2.1 with hg | hg
    · obtain ⟨i, hi2⟩ := Option.isSome_iff_exists.1 hg
      exact hi' i ((C43_id_roundtrip _ i).1 hi2).symm
    · exact hi hg
  | @first x b a h hne hsx hb =>
    refine ⟨x, .first h hne hsx hb, ?_⟩
    by_cases e : x = md
    · exact .inl e
    · exact .inr (C101_apart c l hl x md (by rw [hl] at h; cases h; simp) hm e v hd hv hsx hs)
  | nobody h h2 hno =>
    rw [hl] at h
    cases h
    exact absurd hs (hno md hm)

/-! The pairs do share numbers. -/

/-- A number that suits both territories. -/
def rivalOk (ms : List Loader.Metadata) (w : Id × Id × Nat × Str) : Bool :=
  ms.all fun m => (m.id != some w.1.asRef && m.id != some w.2.1.asRef) ||
    match Database.metadata compile m with
    | .ok md => Nat.beq md.countryCode w.2.2.1 && regionHit md w.2.2.2
    | _ => false

/-- The pairs, with their calling code and a number. -/
def rivalNumbers : List (Id × Id × Nat × Str) :=
  [(.US, .CA, 1, str% "8002000000"), (.AU, .CC, 61, str% "891010000"), (.AU, .CX, 61, str% "891006000"), (.CC, .CX, 61, str% "400000000"),
   (.GP, .BL, 590, str% "590280000"), (.GP, .MF, 590, str% "590330000"), (.BL, .MF, 590, str% "590270000"), (.MA, .EH, 212, str% "528800000"),
   (.GB, .GG, 44, str% "8001111"), (.GB, .JE, 44, str% "8007350000"), (.GG, .JE, 44, str% "8007350000"), (.RE, .YT, 262, str% "800000000")]

theorem rivals_check : rivalNumbers.all (rivalOk Data.territories) = true := by kernel_rfl

omit [UnicodeTables] in
theorem rivals_all : Spec.rivals = rivalNumbers.map fun w => (w.1.asRef, w.2.1.asRef) := by decide

/-- C101: the territories of each pair have the same calling code and some digits suit both. -/
theorem C101_rivals (i j : Str) (h : (i, j) ∈ Spec.rivals) :
    ∃ c l md md' v, db.byCode c = some l ∧ md ∈ l ∧ md' ∈ l ∧ md.id = i ∧ md'.id = j ∧ i ≠ j ∧ (∀ c ∈ v, isDigit c = true) ∧
      v.length < 65536 ∧ Spec.Suits md v ∧ Spec.Suits md' v := by
  rw [rivals_all, List.mem_map] at h
  obtain ⟨w, hw, e⟩ := h
  cases e
  have key : ∀ i : Id, i = w.1 ∨ i = w.2.1 → ∃ l md, db.byCode w.2.2.1 = some l ∧ md ∈ l ∧ md.id = i.asRef ∧ Spec.Suits md w.2.2.2 := by
    intro i hi
    obtain ⟨md, hmd⟩ := Option.isSome_iff_exists.1 (id_present i)
    obtain ⟨m, hm, hmm, hmi⟩ := entry_of_id hmd
    obtain ⟨code, l, hl, hml, hid⟩ := (byId_iff from_builtin ids_nodup (asRef_ne_world i)).1 hmd
    have hok := List.all_eq_true.1 (List.all_eq_true.1 rivals_check w hw) m hm
    have hsome : (m.id != some w.1.asRef && m.id != some w.2.1.asRef) = false := by
      rw [hmi]
      rcases hi with rfl | rfl <;> simp
    simp only [hsome, Bool.false_or, hmm, Bool.and_eq_true, regionHit_iff] at hok
    have hc := Nat.eq_of_beq_eq_true hok.1
    rw [((from_consistent from_builtin).2.1 code l hl).2 md hml] at hc
    subst hc
    exact ⟨l, md, hl, hml, hid, hok.2⟩
  obtain ⟨l, md, hl, hm, hid, hs⟩ := key w.1 (.inl rfl)
  obtain ⟨l', md', hl', hm', hid', hs'⟩ := key w.2.1 (.inr rfl)
  rw [hl] at hl'
  cases hl'
  have hdig := (by decide : ∀ w ∈ rivalNumbers, w.1.asRef ≠ w.2.1.asRef ∧ (∀ c ∈ w.2.2.2, isDigit c = true) ∧ w.2.2.2.length < 65536) w hw
  exact ⟨_, l, md, md', _, hl, hm, hm', hid, hid', hdig.1, hdig.2.1, hdig.2.2, hs, hs'⟩

end Builtin
end Phone
