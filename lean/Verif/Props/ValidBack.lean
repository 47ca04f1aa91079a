import Verif.Regex.Clash
import Verif.Regex.Captures
import Verif.Props.ReadBackBuiltin
import Verif.Props.Fields
/-! # C81: valid numbers are read back -/

namespace Phone
variable [UnicodeTables]

/-- Neither the national prefix nor the parsing pattern of the region fits at the start of the digits. -/
def Keeps (md : Metadata) (ds : Str) : Prop :=
  (∀ np, md.nationalPrefix = some np → ¬ np <+: ds) ∧
  ∀ re, md.nationalPrefixForParsing = some re → ∀ w q, ds = w ++ q → ¬ Lang re.re 0 w q

theorem nationalPart_keeps {md : Metadata} {ds : Str} (h : Keeps md ds) : Spec.NationalPart md ds ds none := by
  have hdrop : Spec.dropPrefix md ds = ds := by
    unfold Spec.dropPrefix
    cases hnp : md.nationalPrefix with
    | none => rfl
    | some np =>
      have := h.1 np hnp
      simp only [Spec.dropOnce]
      rw [if_neg (by simpa using this)]
  have ht : Spec.Trunk md ds ds none := by
    cases hp : md.nationalPrefixForParsing with
    | none => have := Spec.Trunk.plain (ds := ds) hp; rwa [hdrop] at this
    | some re =>
      refine .noMatch hp fun m hm hpre => ?_
      have f := find_eq_some hm
      have hl := f.lang
      have hs := f.split
      rw [hpre] at hl hs
      exact h.2 re hp m.text m.post hs hl
  by_cases htf : Spec.TooFew md.descriptors.general.possibleLength md.descriptors.general.possibleLocalLength (Spec.dropPrefix md ds)
  · exact .unused ht htf
  · have := Spec.NationalPart.used ht htf
    rwa [hdrop] at this

/-- A pattern `k?(?:(g)k₁k₂)?` with classes `k`, `k₁` and `k₂`: what it may begin with, and the group. -/
def optional : Re → Option (Cls × Re)
  | .cat (.alt (.cls k) .eps) (.alt (.cat (.grp 1 g) (.cat (.cls _) (.cls _))) .eps) => some (k, g)
  | _ => none

/-- A match of such a pattern is nothing or the optional character, or it captures all but at least two of its characters. -/
theorem optional_run {r : Re} {k : Cls} {g : Re} (hr : optional r = some (k, g)) (hg : g.noGroups = true) {s s' : St} (h : s' ∈ run r s) :
    (s'.caps = s.caps ∧ (s.rest = s'.rest ∨ ∃ c, k.mem c = true ∧ s.rest = c :: s'.rest)) ∨
    ∃ c, s'.caps = c :: s.caps ∧ c.idx = 1 ∧ c.text.length + s'.rest.length + 2 ≤ s.rest.length := by
  unfold optional at hr
  split at hr
  case h_2 => cases hr
  case h_1 k' g' k1 k2 =>
  simp only [Option.some.injEq, Prod.mk.injEq] at hr
  obtain ⟨rfl, rfl⟩ := hr
  have cls : ∀ {k : Cls} {s s' : St}, s' ∈ run (.cls k) s → s'.caps = s.caps ∧ ∃ c, k.mem c = true ∧ s.rest = c :: s'.rest := by
    intro k s s' h
    simp only [run] at h
    split at h
    · cases h
    · rename_i c cs hc
      split at h
      · rename_i hk
        rw [List.mem_singleton.1 h]
        exact ⟨rfl, c, hk, hc⟩
      · cases h
  rw [run, List.mem_flatMap] at h
  obtain ⟨t, ht, h⟩ := h
  have ht : t.caps = s.caps ∧ (s.rest = t.rest ∨ ∃ c, k'.mem c = true ∧ s.rest = c :: t.rest) := by
    rw [run, List.mem_append] at ht
    rcases ht with ht | ht
    · obtain ⟨h1, h2⟩ := cls ht; exact ⟨h1, .inr h2⟩
    · rw [run, List.mem_singleton] at ht; rw [ht]; exact ⟨rfl, .inl rfl⟩
  have hlen : t.rest.length ≤ s.rest.length := by
    rcases ht.2 with e | ⟨_, _, e⟩ <;> rw [e] <;> simp
  rw [run, List.mem_append] at h
  rcases h with h | h
  · rw [run, List.mem_flatMap] at h
    obtain ⟨u, hu, h⟩ := h
    rw [run, List.mem_map] at hu
    obtain ⟨v, hv, rfl⟩ := hu
    obtain ⟨nc, hnc, _, _, _, hno⟩ := run_caps 1 1 _ _ _ hv
    rw [hno hg, List.nil_append] at hnc
    rw [run, List.mem_flatMap] at h
    obtain ⟨x, hx, h⟩ := h
    obtain ⟨hx1, _, _, hx2⟩ := cls hx
    obtain ⟨h1, _, _, h2⟩ := cls h
    refine .inr ⟨⟨1, t.pos, t.consumed v⟩, by rw [h1, hx1, hnc, ht.1], rfl, ?_⟩
    simp only at hx2
    have e1 : v.rest.length = x.rest.length + 1 := by rw [hx2]; rfl
    have e2 : x.rest.length = s'.rest.length + 1 := by rw [h2]; rfl
    have hle : v.rest.length ≤ t.rest.length := by
      obtain ⟨w, hw, _⟩ := run_sound _ _ _ hv
      rw [hw.rest, List.length_append]; omega
    simp only [St.consumed, List.length_take]
    omega
  · rw [run, List.mem_singleton] at h
    subst h
    exact .inl ht

/-- Digits are kept by a region that rewrites them only where its general description does not accept the result. -/
theorem nationalPart_rewriting {md : Metadata} {ds np : Str} {re : Regex} {k : Cls} {g : Re} (hp : md.nationalPrefixForParsing = some re)
    (hr : optional re.re = some (k, g)) (hg : g.noGroups = true) (hn : re.ngroups = 1)
    (ht : md.nationalPrefixTransformRule = some (str% "9$1")) (hnp : md.nationalPrefix = some np) (hds : ¬ np <+: ds)
    (hk : ∀ c s, ds = c :: s → k.mem c = false) (ha : Spec.Accepts md.descriptors.general ds)
    (hrej : ∀ s : Str, s.length + 2 ≤ ds.length → s.Sublist ds → ¬ Spec.Accepts md.descriptors.general ('9' :: s)) :
    Spec.NationalPart md ds ds none := by
  have hdrop : Spec.dropPrefix md ds = ds := by
    simp only [Spec.dropPrefix, hnp, Spec.dropOnce]
    rw [if_neg (by simpa using hds)]
  have htr : Spec.Trunk md ds ds none := by
    by_cases hm : ∃ m, re.find ds = some m ∧ m.pre = []
    · obtain ⟨m, hm, hpre⟩ := hm
      have f := find_eq_some hm
      have hsplit := f.split
      have hb := f.best
      rw [hpre, List.nil_append] at hsplit
      rw [hpre, ← hsplit] at hb
      simp only [matchAt, Option.map_eq_some_iff] at hb
      obtain ⟨s', hs, e⟩ := hb
      have hpost : s'.rest = m.post := by rw [← e]
      have hcaps : s'.caps = m.caps := by rw [← e]
      rcases optional_run hr hg (List.mem_of_head? hs) with ⟨h1, h2⟩ | ⟨c, h1, h2, h3⟩
      · have hnone : m.get re.ngroups = none := by
          rw [hn, Match.get, if_neg (by decide), ← hcaps, h1]; rfl
        have hpds : m.post = ds := by
          rw [← hpost]
          rcases h2 with h2 | ⟨c, hc, h2⟩
          · exact h2.symm
          · rw [hk c _ h2] at hc; cases hc
        have := Spec.Trunk.removed (md := md) hp hm hpre (fun t h => by rw [Spec.Rewrites, hnone] at h; cases h.2)
        rwa [hpds, hnone] at this
      · have hget : m.get 1 = some c.text := by
          rw [Match.get, if_neg (by decide), ← hcaps, h1, List.find?_cons_of_pos (by simp [h2])]; rfl
        have hexp : expand m (str% "9$1") = '9' :: c.text := by
          have : capRef m ['1'] = c.text := by
            rw [capRef, if_pos (by decide), show decVal ['1'] = 1 from rfl, hget]; rfl
          rw [← this]; rfl
        refine .kept hp hm hpre ⟨ht, by rw [hn, hget]; rfl⟩ ha ?_
        rw [hexp, List.cons_append]
        refine hrej _ ?_ ?_
        · rw [List.length_append, ← hpost]; simp only at h3; omega
        · rw [hsplit]
          obtain ⟨x, y, hx, _⟩ := f.caps c (by rw [← hcaps, h1]; simp)
          rw [hx]
          exact List.Sublist.append ((List.sublist_append_right x c.text).trans (List.sublist_append_left _ y)) (List.Sublist.refl _)
    · exact .noMatch hp fun m h1 h2 => hm ⟨m, h1, h2⟩
  by_cases htf : Spec.TooFew md.descriptors.general.possibleLength md.descriptors.general.possibleLocalLength (Spec.dropPrefix md ds)
  · exact .unused htr htf
  · have := Spec.NationalPart.used htr htf
    rwa [hdrop] at this

omit [UnicodeTables] in
/-- How many regions of a calling code there are. -/
theorem byCode_length {compile : Str → Option Regex} {ms : List Loader.Metadata} {db : Database}
    (hdb : Database.from compile ms = .ok db) {c : Nat} {l : List Metadata} (hl : db.byCode c = some l) :
    l.length = (ms.filter (·.countryCode == some c)).length := by
  obtain ⟨mds, hmap, _, hc, hlst, _⟩ := C27_indexes _ _ hdb
  have hlen : (mds.filter (·.countryCode == c)).length = (ms.filter (·.countryCode == some c)).length := by
    have e := congrArg (fun l => (l.filter (fun p => p.2.1 == some c)).length) hmap
    simp only [List.filter_map, List.length_map] at e
    exact e
  have hex : ∃ m ∈ ms, m.countryCode = some c := (hc c).1 (by rw [hl]; rfl)
  have := (hlst c hex).1
  rw [hl, Option.some.injEq] at this
  rw [this, ← hlen]
  simp only [Spec.listed, List.length_append, List.length_reverse]
  rw [← List.length_append]
  exact (List.filter_append_perm _ _).length_eq

namespace Builtin

/-- What national prefix handling looks for at the start of a number. -/
def trunks (m : Loader.Metadata) : List Re :=
  (m.nationalPrefix.map Re.lit).toList ++ ((m.nationalPrefixForParsing.bind compile).map (·.re)).toList

/-- The descriptors that give a number a type. -/
def typedOf (m : Loader.Metadata) : List Loader.Descriptor :=
  [m.premiumRate, m.tollFree, m.sharedCost, m.voip, m.personalNumber, m.pager, m.uan, m.voicemail, m.fixedLine, m.mobile].filterMap id

/-- The pattern of a descriptor. -/
def patternOf (d : Loader.Descriptor) : Option Re := (d.nationalNumber.bind compile).map (·.re)

/-- No number that the descriptors accept begins with something national prefix handling looks for. -/
def keepsCheck (m : Loader.Metadata) : Bool :=
  match m.general.bind patternOf with
  | none => false
  | some g => (trunks m).all fun t => !clash 17 [some [g], some [t]] || (typedOf m).all fun d =>
      match patternOf d with
      | none => false
      | some r => !clash (d.possibleLength.foldl Nat.max 0) [some [g], some [r], some [t]]

/-- The territory rewrites numbers its general description accepts only into ones it does not accept, and these do not begin with its
national prefix. -/
def rewritesCheck (m : Loader.Metadata) : Bool :=
  match m.general.bind patternOf, m.nationalPrefix, m.nationalPrefixForParsing.bind compile, m.nationalPrefixTransformRule with
  | some r, some np, some re, some t =>
    match optional re.re with
    | some (k, g) => g.noGroups && Nat.beq re.ngroups 1 && decide (t = (str% "9$1")) && !clash 17 [some [r], some [Re.lit np]] &&
        !clash 17 [some [r], some [Re.cls k]] && !clash 10 [some [r], some [Re.chr '9']] &&
        (typedOf m).all fun d => d.possibleLength.all fun n => Nat.ble n 11
    | none => false
  | _, _, _, _ => false

/-- The general description accepts nothing that begins with zero. -/
def nonzeroCheck (m : Loader.Metadata) : Bool :=
  match m.general.bind patternOf with
  | none => false
  | some g => !clash 17 [some [g], some [Re.chr '0']]

/-- Every type lists lengths, all between 4 and 17. -/
def lengthsCheck (m : Loader.Metadata) : Bool :=
  (typedOf m).all fun d => !d.possibleLength.isEmpty && d.possibleLength.all fun n => Nat.ble 4 n && Nat.ble n 17

/-- The calling codes with valid numbers that are not read back. -/
def exceptions : List Nat := [7, 55, 62, 66, 81, 82, 91, 250, 359, 370, 375, 598]

def validCheckOn (ms part : List Loader.Metadata) : Bool :=
  part.all fun m => lengthsCheck m && (exceptions.any (fun c => m.countryCode == some c) ||
    let same := ms.filter (·.countryCode == m.countryCode)
    (same.all fun m' => m'.nationalPrefix.isNone && m'.nationalPrefixForParsing.isNone) ||
      ((keepsCheck m || rewritesCheck m) && (Nat.beq same.length 1 || nonzeroCheck m)))

def validCheck (ms : List Loader.Metadata) : Bool := validCheckOn ms ms

omit [UnicodeTables] in
/-- A check of all members can be done in parts (which keeps the memory needed by the kernel small). -/
theorem in_parts {α : Type} {p : α → Bool} {l : List α} (h1 : ((l.drop 0).take 50).all p = true) (h2 : ((l.drop 50).take 50).all p = true)
    (h3 : ((l.drop 100).take 50).all p = true) (h4 : ((l.drop 150).take 50).all p = true) (h5 : (l.drop 200).all p = true) :
    l.all p = true := by
  have e : ∀ (k : Nat) (l : List α), l.all p = ((l.take k).all p && (l.drop k).all p) := by
    intro k l
    rw [← List.all_append, List.take_append_drop]
  rw [e 50 l, Bool.and_eq_true]
  refine ⟨h1, ?_⟩
  rw [e 50 (l.drop 50), List.drop_drop, Bool.and_eq_true]
  refine ⟨h2, ?_⟩
  rw [e 50 (l.drop 100), List.drop_drop, Bool.and_eq_true]
  refine ⟨h3, ?_⟩
  rw [e 50 (l.drop 150), List.drop_drop, Bool.and_eq_true]
  exact ⟨h4, h5⟩

omit [UnicodeTables] in
theorem valid_check1 : validCheckOn Data.territories ((Data.territories.drop 0).take 50) = true := by kernel_rfl
omit [UnicodeTables] in
theorem valid_check2 : validCheckOn Data.territories ((Data.territories.drop 50).take 50) = true := by kernel_rfl
omit [UnicodeTables] in
theorem valid_check3 : validCheckOn Data.territories ((Data.territories.drop 100).take 50) = true := by kernel_rfl
omit [UnicodeTables] in
theorem valid_check4 : validCheckOn Data.territories ((Data.territories.drop 150).take 50) = true := by kernel_rfl
omit [UnicodeTables] in
theorem valid_check5 : validCheckOn Data.territories (Data.territories.drop 200) = true := by kernel_rfl

omit [UnicodeTables] in
theorem valid_check : validCheck Data.territories = true :=
  in_parts valid_check1 valid_check2 valid_check3 valid_check4 valid_check5

theorem lang_prefix {np ds : Str} (h : np <+: ds) : ∃ w q, ds = w ++ q ∧ Lang (Re.lit np) 0 w q := by
  obtain ⟨q, rfl⟩ := h
  exact ⟨np, q, rfl, lang_lit.2 rfl⟩

omit [UnicodeTables] in
theorem le_foldl_max {l : List Nat} {n a : Nat} (h : n ∈ l ∨ n ≤ a) : n ≤ l.foldl Nat.max a := by
  induction l generalizing a with
  | nil => rcases h with h | h; cases h; exact h
  | cons b l ih =>
    apply ih
    rcases h with h | h
    · rcases List.mem_cons.1 h with rfl | h
      · exact .inr (Nat.le_max_right _ _)
      · exact .inl h
    · exact .inr (Nat.le_trans h (Nat.le_max_left _ _))

omit [UnicodeTables] in
/-- A descriptor that gives numbers a type is one of the territory. -/
theorem typed_of_entry {m : Loader.Metadata} {md : Metadata} (h : Spec.EntryOf compile m md) {d : Descriptor}
    (hd : some d ∈ Spec.typed md.descriptors) : ∃ e ∈ typedOf m, Spec.DescriptorOf compile e d := by
  have key : ∀ {a : Option Loader.Descriptor} {b : Option Descriptor}, Spec.OptionRel (Spec.DescriptorOf compile) a b → some d = b →
      ∃ e, a = some e ∧ Spec.DescriptorOf compile e d := by
    intro a b hab e
    subst e
    cases hab with
    | some h => exact ⟨_, rfl, h⟩
  simp only [Spec.typed, Spec.categories, List.map_cons, List.map_nil, List.cons_append, List.nil_append, List.mem_cons,
    List.not_mem_nil, or_false] at hd
  have mem : ∀ {a : Option Loader.Descriptor}, a ∈ [m.premiumRate, m.tollFree, m.sharedCost, m.voip, m.personalNumber, m.pager, m.uan,
      m.voicemail, m.fixedLine, m.mobile] → ∀ {e}, a = some e → e ∈ typedOf m := by
    intro a ha e he
    exact List.mem_filterMap.2 ⟨a, ha, he⟩
  rcases hd with hd | hd | hd | hd | hd | hd | hd | hd | hd | hd
  · obtain ⟨e, he, hr⟩ := key h.premiumRate hd; exact ⟨e, mem (by simp) he, hr⟩
  · obtain ⟨e, he, hr⟩ := key h.tollFree hd; exact ⟨e, mem (by simp) he, hr⟩
  · obtain ⟨e, he, hr⟩ := key h.sharedCost hd; exact ⟨e, mem (by simp) he, hr⟩
  · obtain ⟨e, he, hr⟩ := key h.voip hd; exact ⟨e, mem (by simp) he, hr⟩
  · obtain ⟨e, he, hr⟩ := key h.personalNumber hd; exact ⟨e, mem (by simp) he, hr⟩
  · obtain ⟨e, he, hr⟩ := key h.pager hd; exact ⟨e, mem (by simp) he, hr⟩
  · obtain ⟨e, he, hr⟩ := key h.uan hd; exact ⟨e, mem (by simp) he, hr⟩
  · obtain ⟨e, he, hr⟩ := key h.voicemail hd; exact ⟨e, mem (by simp) he, hr⟩
  · obtain ⟨e, he, hr⟩ := key h.fixedLine hd; exact ⟨e, mem (by simp) he, hr⟩
  · obtain ⟨e, he, hr⟩ := key h.mobile hd; exact ⟨e, mem (by simp) he, hr⟩

omit [UnicodeTables] in
theorem patternOf_eq {d : Loader.Descriptor} {e : Descriptor} (h : Spec.DescriptorOf compile d e) :
    patternOf d = some e.nationalNumber.re := by
  obtain ⟨s, h1, h2⟩ := h.pattern
  simp [patternOf, h1, h2]

/-- Soundness of `keepsCheck`. -/
theorem keeps_of_check {m : Loader.Metadata} {md : Metadata} (h : Spec.EntryOf compile m md) (hc : keepsCheck m = true) {ds : Str}
    (hd : ∀ c ∈ ds, isDigit c = true) (hlen : ds.length ≤ 17) (hg : Spec.Accepts md.descriptors.general ds) {d : Descriptor}
    (ht : some d ∈ Spec.typed md.descriptors) (ha : Spec.Accepts d ds) (hne : d.possibleLength ≠ []) : Keeps md ds := by
  obtain ⟨g, hg1, hg2⟩ := h.general
  have key : ∀ t ∈ trunks m, ¬ ∃ w q, ds = w ++ q ∧ Lang t 0 w q := by
    intro t htr hl
    simp only [keepsCheck, hg1, Option.bind_some, patternOf_eq hg2, List.all_eq_true, Bool.or_eq_true, Bool.not_eq_true'] at hc
    rcases hc t htr with hc | hc
    · refine clash_false (rs := [_, _]) hd hlen hc ?_
      intro r hr
      rcases List.mem_cons.1 hr with rfl | hr
      · exact hg.2
      · rw [List.mem_singleton.1 hr]; exact hl
    · obtain ⟨e, he1, he2⟩ := typed_of_entry h ht
      have := hc e he1
      simp only [patternOf_eq he2] at this
      rw [Bool.not_eq_true'] at this
      refine clash_false (rs := [_, _, _]) hd ?_ this ?_
      · have hl := ha.1.resolve_left hne
        rw [Digits.byteLen hd] at hl
        rw [← he2.possibleLength]
        rw [Nat.mod_eq_of_lt (by omega)] at hl
        exact le_foldl_max (.inl hl)
      · intro r hr
        rcases List.mem_cons.1 hr with rfl | hr
        · exact hg.2
        · rcases List.mem_cons.1 hr with rfl | hr
          · exact ha.2
          · rw [List.mem_singleton.1 hr]; exact hl
  refine ⟨fun np hnp hp => ?_, fun re hre w q e hl => ?_⟩
  · rw [h.nationalPrefix] at hnp
    exact key (Re.lit np) (by simp [trunks, hnp]) (lang_prefix hp)
  · have := h.nationalPrefixForParsing
    rw [hre] at this
    generalize hp : m.nationalPrefixForParsing = o at this
    cases this with
    | some hcomp =>
      refine key re.re ?_ ⟨w, q, e, hl⟩
      have : compile _ = some re := hcomp
      simp [trunks, hp, this]

/-- Soundness of `rewritesCheck`. -/
theorem part_of_rewritesCheck {m : Loader.Metadata} {md : Metadata} (h : Spec.EntryOf compile m md) (hc : rewritesCheck m = true)
    {ds : Str} (hd : ∀ c ∈ ds, isDigit c = true) (hg : Spec.Accepts md.descriptors.general ds) {d : Descriptor}
    (ht : some d ∈ Spec.typed md.descriptors) (ha : Spec.Accepts d ds) (hne : d.possibleLength ≠ []) (hlen : ds.length ≤ 17) :
    Spec.NationalPart md ds ds none := by
  obtain ⟨g, hg1, hg2⟩ := h.general
  unfold rewritesCheck at hc
  rw [hg1, Option.bind_some, patternOf_eq hg2] at hc
  split at hc
  case h_2 => cases hc
  case h_1 r np re t e1 e2 e3 e4 =>
  rw [Option.some.injEq] at e1
  subst e1
  split at hc
  case h_2 => cases hc
  case h_1 k gr hopt =>
  simp only [Bool.and_eq_true, Bool.not_eq_true', decide_eq_true_eq] at hc
  obtain ⟨⟨⟨⟨⟨⟨c1, c2⟩, c3⟩, c4⟩, c5⟩, c6⟩, c7⟩ := hc
  subst c3
  have hp : md.nationalPrefixForParsing = some re := by
    have := h.nationalPrefixForParsing
    obtain ⟨p, hp1, hp2⟩ := Option.bind_eq_some_iff.1 e3
    rw [hp1] at this
    generalize md.nationalPrefixForParsing = o at this
    cases this with
    | some hcomp => rw [show compile p = some _ from hcomp] at hp2; exact hp2
  have h11 : ds.length ≤ 11 := by
    obtain ⟨e, he1, he2⟩ := typed_of_entry h ht
    have hm := ha.1.resolve_left hne
    rw [Digits.byteLen hd, Nat.mod_eq_of_lt (by omega), he2.possibleLength] at hm
    exact Nat.le_of_ble_eq_true (List.all_eq_true.1 (List.all_eq_true.1 c7 e he1) _ hm)
  refine nationalPart_rewriting hp hopt c1 (Nat.eq_of_beq_eq_true c2) (by rw [h.nationalPrefixTransformRule, e4])
    (by rw [h.nationalPrefix, e2]) (fun hpre => ?_) (fun c s e => ?_) hg (fun s hs hsub hacc => ?_)
  · refine clash_false (rs := [_, _]) hd hlen c4 ?_
    intro r hr
    rcases List.mem_cons.1 hr with rfl | hr
    · exact hg.2
    · rw [List.mem_singleton.1 hr]; exact lang_prefix hpre
  · cases hk : k.mem c with
    | false => rfl
    | true =>
      refine absurd ?_ (clash_false (rs := [_, _]) hd hlen c5)
      intro r hr
      rcases List.mem_cons.1 hr with rfl | hr
      · exact hg.2
      · rw [List.mem_singleton.1 hr]; exact ⟨[c], s, e, lang_cls.2 ⟨c, rfl, hk⟩⟩
  · refine clash_false (rs := [_, _]) (s := '9' :: s) ?_ (by simp only [List.length_cons]; omega) c6 ?_
    · intro c hc
      rcases List.mem_cons.1 hc with rfl | hc
      · decide
      · exact hd c (hsub.subset hc)
    · intro r hr
      rcases List.mem_cons.1 hr with rfl | hr
      · exact hacc.2
      · rw [List.mem_singleton.1 hr]; exact ⟨['9'], s, rfl, lang_chr.2 rfl⟩

omit [UnicodeTables] in
theorem display_length (n : NationalNumber) : n.display.length < 65536 := by
  have h1 : n.zeros.toNat < 256 := n.zeros.toNat_lt
  have h2 : (decStr n.value.toNat).length ≤ 20 := by
    have := n.value.toNat_lt
    exact length_decStr_lt (by omega) (by omega)
  simp only [NationalNumber.display, List.length_append, List.length_replicate]
  omega

/-- A region chosen is among those of the calling code. -/
theorem region_mem {db : Database} {c : Nat} {ds : Str} {md : Metadata} (h : Spec.RegionOf db c ds (some md)) :
    ∃ l, db.byCode c = some l ∧ md ∈ l := by
  cases h with
  | only hl _ => exact ⟨_, hl, by simp⟩
  | first hl _ _ _ => exact ⟨_, hl, by simp⟩

omit [UnicodeTables] in
theorem territory_of_region {c : Nat} {l : List Metadata} {md : Metadata} (hl : db.byCode c = some l) (hm : md ∈ l) :
    ∃ m ∈ Data.territories, Spec.EntryOf compile m md ∧ m.countryCode = some c := by
  obtain ⟨m, h1, h2⟩ := entry_of_territory from_builtin (.inr ⟨c, l, hl, hm⟩)
  have he := metadata_rel _ _ h2
  exact ⟨m, h1, he, by rw [he.countryCode, ((from_consistent from_builtin).2.1 c l hl).2 md hm]⟩

omit [UnicodeTables] in
theorem validCheck_mem {ms : List Loader.Metadata} (h : validCheck ms = true) {m : Loader.Metadata} (hm : m ∈ ms) {c : Nat}
    (hc : m.countryCode = some c) : lengthsCheck m = true ∧ (c ∉ exceptions →
      (∀ m' ∈ ms, m'.countryCode = some c → m'.nationalPrefix = none ∧ m'.nationalPrefixForParsing = none) ∨
      ((keepsCheck m = true ∨ rewritesCheck m = true) ∧ ((ms.filter (·.countryCode == some c)).length = 1 ∨ nonzeroCheck m = true))) := by
  have := List.all_eq_true.1 h m hm
  rw [Bool.and_eq_true] at this
  refine ⟨this.1, fun hx => ?_⟩
  have h2 := this.2
  rw [Bool.or_eq_true] at h2
  rcases h2 with h2 | h2
  · obtain ⟨k, hk, e⟩ := List.any_eq_true.1 h2
    rw [hc] at e
    have : c = k := by simpa using e
    exact absurd (this ▸ hk) hx
  · simp only [hc, Bool.or_eq_true, Bool.and_eq_true, List.all_eq_true, Option.isNone_iff_eq_none] at h2
    rcases h2 with h2 | ⟨h2, h3⟩
    · exact .inl fun m' hm' hc' => h2 m' (List.mem_filter.2 ⟨hm', by simp [hc']⟩)
    · exact .inr ⟨h2, h3.imp_left Nat.eq_of_beq_eq_true⟩

/-- What validity means for the length of a number and, outside the exceptions, for national prefix handling. -/
theorem valid_facts {ε : Type} (n : PhoneNumber) (hv : isValid (ε := ε) n = .ok true) :
    (4 ≤ n.national.display.length ∧ n.national.display.length ≤ 17) ∧ (db.byCode n.code.value).isSome ∧
    (n.code.value ∉ exceptions → Spec.InternationalPart db n.code.value n.national.display n.national.display none) := by
  obtain ⟨md, hr, hg, _, ho, d, rfl, ha⟩ := (C63_valid ε compile Data.territories db from_builtin ids_nodup shared n).1 hv
  have hd : Digits n.national.display := digits_display _
  obtain ⟨l, hl, hmd⟩ := region_mem hr
  obtain ⟨m, hm, he, hc⟩ := territory_of_region hl hmd
  obtain ⟨hlc, hrest⟩ := validCheck_mem valid_check hm hc
  obtain ⟨e, he1, he2⟩ := typed_of_entry he ho
  have hlen := List.all_eq_true.1 hlc e he1
  rw [Bool.and_eq_true, ← he2.possibleLength] at hlen
  have hne : d.possibleLength ≠ [] := by simpa using hlen.1
  have hmem := ha.1.resolve_left hne
  rw [hd.byteLen, Nat.mod_eq_of_lt (display_length _)] at hmem
  have hb := List.all_eq_true.1 hlen.2 _ hmem
  rw [Bool.and_eq_true] at hb
  have hb : 4 ≤ n.national.display.length ∧ n.national.display.length ≤ 17 := ⟨Nat.le_of_ble_eq_true hb.1, Nat.le_of_ble_eq_true hb.2⟩
  refine ⟨hb, by rw [hl]; rfl, fun hx => ?_⟩
  obtain ⟨src, _, htr⟩ := sourceFor_chosen ε from_builtin ids_nodup shared n.code.value (n.national.display.dropWhile (· == '0'))
  generalize src.bind (sourceMeta db) = o at htr
  cases o with
  | none => exact .inl ⟨htr, rfl, rfl⟩
  | some md' =>
    refine .inr ⟨md', htr, ?_⟩
    obtain ⟨l', hl', hmd'⟩ := region_mem htr
    rw [hl, Option.some.injEq] at hl'
    subst hl'
    rcases hrest hx with hnone | ⟨hk, hz⟩
    · obtain ⟨m', hm', he', hc'⟩ := territory_of_region hl hmd'
      obtain ⟨h1, h2⟩ := hnone m' hm' hc'
      refine nationalPart_keeps ⟨fun np h => (by rw [he'.nationalPrefix, h1] at h; cases h), fun re h => ?_⟩
      have := he'.nationalPrefixForParsing
      rw [h2, h] at this
      cases this
    · have hkeep : Spec.NationalPart md n.national.display n.national.display none := by
        rcases hk with hk | hk
        · exact nationalPart_keeps (keeps_of_check he hk hd hb.2 hg ho ha hne)
        · exact part_of_rewritesCheck he hk hd hg ho ha hne hb.2
      suffices md' = md by rw [this]; exact hkeep
      rcases hz with h1 | h1
      · rw [← byCode_length from_builtin hl] at h1
        obtain ⟨x, rfl⟩ := List.length_eq_one_iff.1 h1
        rw [List.mem_singleton.1 hmd, List.mem_singleton.1 hmd']
      · have hnz : n.national.display.dropWhile (· == '0') = n.national.display := by
          cases hs : n.national.display with
          | nil => rfl
          | cons c s =>
            rw [List.dropWhile_cons_of_neg]
            intro h0
            have h0 : c = '0' := by simpa using h0
            obtain ⟨g, hg1, hg2⟩ := he.general
            simp only [nonzeroCheck, hg1, Option.bind_some, patternOf_eq hg2, Bool.not_eq_true'] at h1
            refine clash_false (rs := [_, _]) hd hb.2 h1 ?_
            intro r hr
            rcases List.mem_cons.1 hr with rfl | hr
            · exact hg.2
            · rw [List.mem_singleton.1 hr, hs, h0]; exact ⟨['0'], s, rfl, lang_chr.2 rfl⟩
        rw [hnz] at htr
        exact Option.some.inj (htr.unique hr)

/-- C81: the national number of a valid number has four to seventeen digits. -/
theorem C81_length {ε : Type} (n : PhoneNumber) (hv : isValid (ε := ε) n = .ok true) :
    4 ≤ n.national.display.length ∧ n.national.display.length ≤ 17 := (valid_facts n hv).1

theorem valid_formats {ε : Type} {n : PhoneNumber} (hv : isValid (ε := ε) n = .ok true) (mode : Formatter.Mode) :
    ∃ s, format n mode = .ok s := by
  obtain ⟨_, hk, _⟩ := valid_facts n hv
  obtain ⟨l, hl⟩ := Option.isSome_iff_exists.1 hk
  obtain ⟨hne, _⟩ := (from_consistent from_builtin).2.1 _ l hl
  obtain ⟨md, hm⟩ := List.exists_mem_of_ne_nil l hne
  obtain ⟨m, h1, _, h3⟩ := territory_of_region hl hm
  obtain ⟨hp, he⟩ := C35_builtin n mode
  cases hf : format n mode with
  | ok s => exact ⟨s, rfl⟩
  | err e => exact absurd h3 (he.1 ⟨e, hf⟩ m h1)
  | panic q => rw [hf] at hp; exact absurd trivial hp

/-- C81: a valid number whose calling code is not one of the exceptions is read back from its E.164 form, unless it consists of zeros;
without reference country and with any whose dialling prefix the digits do not begin with. -/
theorem C81_e164 {ε : Type} (n : PhoneNumber) (hv : isValid (ε := ε) n = .ok true) (hz : n.national.value ≠ 0)
    (hc : n.code.value ∉ exceptions) (country : Option Id)
    (hidd : ∀ c, country = some c → ¬ Spec.BeginsWithIdd db country (decStr n.code.value ++ n.national.display)) :
    ∃ s, format n .e164 = .ok s ∧
      parse country s = .ok { n with code := ⟨n.code.value, .plus⟩, extension := none, carrier := none } := by
  obtain ⟨s, hs⟩ := valid_formats hv .e164
  obtain ⟨hl, _, h⟩ := valid_facts n hv
  exact ⟨s, hs, (C74_builtin n ⟨by omega, hl.2⟩ hz s hs country hidd).2 (h hc)⟩

/-- C81: so is its international form, with an extension of one to seven digits. -/
theorem C81_international {ε : Type} (n : PhoneNumber) (hv : isValid (ε := ε) n = .ok true) (hz : n.national.value ≠ 0)
    (hc : n.code.value ∉ exceptions) (hext : ∀ e, n.extension = some e → e ≠ [] ∧ e.length ≤ 7 ∧ ∀ c ∈ e, isDigit c = true)
    (country : Option Id)
    (hidd : ∀ c, country = some c → ¬ Spec.BeginsWithIdd db country (decStr n.code.value ++ n.national.display)) :
    ∃ s, format n .international = .ok s ∧ parse country s = .ok { n with code := ⟨n.code.value, .plus⟩, carrier := none } := by
  obtain ⟨s, hs⟩ := valid_formats hv .international
  obtain ⟨hl, _, _⟩ := valid_facts n hv
  obtain ⟨t, ht, e⟩ := C73_builtin_international n ⟨by omega, hl.2⟩ hz hext s hs country hidd
  obtain ⟨t', ht', e'⟩ := C81_e164 n hv hz hc none (fun _ h => by cases h)
  rw [ht, Outcome.ok.injEq] at ht'
  subst ht'
  exact ⟨s, hs, by rw [e, e']; rfl⟩

/-- C81: and its RFC 3966 form, with any extension that consists of digits and whatever the reference country. -/
theorem C81_rfc3966 {ε : Type} (n : PhoneNumber) (hv : isValid (ε := ε) n = .ok true) (hz : n.national.value ≠ 0)
    (hc : n.code.value ∉ exceptions) (hext : ∀ e, n.extension = some e → ∀ c ∈ e, isDigit c = true) (country : Option Id) :
    ∃ s, format n .rfc3966 = .ok s ∧ parse country s = .ok { n with code := ⟨n.code.value, .plus⟩, carrier := none } := by
  obtain ⟨s, hs⟩ := valid_formats hv .rfc3966
  obtain ⟨hl, _, _⟩ := valid_facts n hv
  obtain ⟨t, ht, e⟩ := C73_builtin_rfc3966 n ⟨by omega, hl.2⟩ hz hext s hs country
  obtain ⟨t', ht', e'⟩ := C81_e164 n hv hz hc none (fun _ h => by cases h)
  rw [ht, Outcome.ok.injEq] at ht'
  subst ht'
  exact ⟨s, hs, by rw [e, e']; rfl⟩

end Builtin
end Phone
