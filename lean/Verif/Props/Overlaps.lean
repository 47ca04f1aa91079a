import Verif.Props.ValidBack
import Verif.Props.Examples
import Verif.Props.LazyBuiltin
/-! # C100: which descriptions of types overlap in the shipped metadata -/

namespace Phone

/-- The types a number may be found to have, each with its description. -/
def Spec.types (d : Descriptors) : List (PType × Option Descriptor) := Spec.categories d ++ [(.fixedLine, d.fixedLine), (.mobile, d.mobile)]

/-- The types that overlap in the shipped metadata, by territory; the one that is tried first comes first. -/
def Spec.overlapping : List (Str × PType × PType) :=
  [(str% "BR", .sharedCost, .mobile), (str% "CN", .sharedCost, .fixedLine), (str% "IE", .tollFree, .fixedLine), (str% "IE", .premiumRate, .fixedLine),
   (str% "IE", .sharedCost, .fixedLine), (str% "LB", .premiumRate, .fixedLine), (str% "LB", .sharedCost, .fixedLine), (str% "MM", .voip, .fixedLine),
   (str% "MY", .premiumRate, .mobile), (str% "NZ", .premiumRate, .tollFree), (str% "PM", .tollFree, .fixedLine), (str% "PM", .premiumRate, .fixedLine),
   (str% "PM", .tollFree, .mobile), (str% "PM", .premiumRate, .mobile)]

namespace Builtin
variable [UnicodeTables]

def overlapListed (i : Option Str) (a b : PType) : Bool := Spec.overlapping.any fun x => i == some x.1 && (decide (a = x.2.1) && decide (b = x.2.2))

/-- No number has a length that both list and begins with matches of the general pattern and of both patterns. -/
def separate (g : Re) (a b : List Nat × Re) : Bool :=
  match (a.1.filter b.1.contains) with
  | [] => true
  | n :: l => !clash (l.foldl Nat.max n) [some [a.2], some [b.2]] || !clash (l.foldl Nat.max n) [some [g], some [a.2], some [b.2]]

/-- No two types of the first list, and no type of the first and one of the second list, cover a number both, except those listed. -/
def spread (i : Option Str) (g : Re) : List (PType × List Nat × Re) → List (PType × List Nat × Re) → Bool
  | [], _ => true
  | a :: l, r => ((l.all fun b => separate g a.2 b.2 || overlapListed i a.1 b.1) && (r.all fun b => separate g a.2 b.2 || overlapListed i a.1 b.1)) &&
      spread i g l r

/-- The lengths and the pattern of a type; `none` if the type lists no length. -/
def shapeOf (d : Loader.Descriptor) : Option (List Nat × Re) :=
  match d.possibleLength, patternOf d with
  | n :: l, some r => some (n :: l, r)
  | _, _ => none

/-- The shapes of the types that are present. -/
def shapesOf : List (PType × Option Loader.Descriptor) → Option (List (PType × List Nat × Re))
  | [] => some []
  | (_, none) :: l => shapesOf l
  | (t, some d) :: l => match shapeOf d, shapesOf l with
    | some s, some r => some ((t, s) :: r)
    | _, _ => none

def overlapCheck (m : Loader.Metadata) : Bool :=
  match m.general.bind patternOf, shapesOf [(.premiumRate, m.premiumRate), (.tollFree, m.tollFree), (.sharedCost, m.sharedCost), (.voip, m.voip),
      (.personalNumber, m.personalNumber), (.pager, m.pager), (.uan, m.uan), (.voicemail, m.voicemail)],
    shapesOf [(.fixedLine, m.fixedLine), (.mobile, m.mobile)] with
  | some g, some l, some r => spread m.id g l r
  | _, _, _ => false

omit [UnicodeTables] in
theorem overlap_check1 : ((Data.territories.drop 0).take 50).all overlapCheck = true := by kernel_rfl
omit [UnicodeTables] in
theorem overlap_check2 : ((Data.territories.drop 50).take 50).all overlapCheck = true := by kernel_rfl
omit [UnicodeTables] in
theorem overlap_check3 : ((Data.territories.drop 100).take 50).all overlapCheck = true := by kernel_rfl
omit [UnicodeTables] in
theorem overlap_check4 : ((Data.territories.drop 150).take 50).all overlapCheck = true := by kernel_rfl
omit [UnicodeTables] in
theorem overlap_check5 : (Data.territories.drop 200).all overlapCheck = true := by kernel_rfl

omit [UnicodeTables] in
theorem overlap_check : Data.territories.all overlapCheck = true :=
  in_parts overlap_check1 overlap_check2 overlap_check3 overlap_check4 overlap_check5

/-- The length is listed, and the digits begin with a match. -/
def Covers (v : Str) (s : List Nat × Re) : Prop := v.length ∈ s.1 ∧ ∃ w q, v = w ++ q ∧ Lang s.2 0 w q

theorem separate_sound {g : Re} {a b : List Nat × Re} (h : separate g a b = true) {v : Str} (hd : Digits v)
    (hg : ∃ w q, v = w ++ q ∧ Lang g 0 w q) (ha : Covers v a) (hb : Covers v b) : False := by
  have hm : v.length ∈ a.1.filter b.1.contains := List.mem_filter.2 ⟨ha.1, List.contains_iff_mem.2 hb.1⟩
  unfold separate at h
  split at h
  · rename_i e
    rw [e] at hm
    cases hm
  · rename_i n l e
    rw [e] at hm
    have hn : v.length ≤ l.foldl Nat.max n := by
      rcases List.mem_cons.1 hm with h | h
      · exact le_foldl_max (.inr (Nat.le_of_eq h))
      · exact le_foldl_max (.inl h)
    rw [Bool.or_eq_true, Bool.not_eq_true', Bool.not_eq_true'] at h
    rcases h with h | h
    · refine clash_false (rs := [a.2, b.2]) hd hn h ?_
      simp only [List.mem_cons, List.not_mem_nil, or_false]
      rintro r (rfl | rfl)
      · exact ha.2
      · exact hb.2
    · refine clash_false (rs := [g, a.2, b.2]) hd hn h ?_
      simp only [List.mem_cons, List.not_mem_nil, or_false]
      rintro r (rfl | rfl | rfl)
      · exact hg
      · exact ha.2
      · exact hb.2

omit [UnicodeTables] in
theorem overlapListed_iff {i : Str} {a b : PType} (h : overlapListed (some i) a b = true) : (i, a, b) ∈ Spec.overlapping := by
  obtain ⟨x, hx, e⟩ := List.any_eq_true.1 h
  simp only [Bool.and_eq_true, beq_iff_eq, Option.some.injEq, decide_eq_true_eq] at e
  obtain ⟨rfl, rfl, rfl⟩ := e
  exact hx

omit [UnicodeTables] in
theorem spread_sound {i : Option Str} {g : Re} {l r : List (PType × List Nat × Re)} (h : spread i g l r = true) :
    l.Pairwise (fun a b => separate g a.2 b.2 = true ∨ overlapListed i a.1 b.1 = true) ∧
    ∀ a ∈ l, ∀ b ∈ r, separate g a.2 b.2 = true ∨ overlapListed i a.1 b.1 = true := by
  induction l with
  | nil => exact ⟨.nil, by simp⟩
  | cons a l ih =>
    simp only [spread, Bool.and_eq_true, List.all_eq_true, Bool.or_eq_true] at h
    obtain ⟨⟨h1, h2⟩, h3⟩ := h
    obtain ⟨i1, i2⟩ := ih h3
    refine ⟨.cons h1 i1, ?_⟩
    intro x hx
    rcases List.mem_cons.1 hx with rfl | hx
    · exact h2
    · exact i2 x hx

theorem shapeOf_covers {d : Loader.Descriptor} {e : Descriptor} (h : Spec.DescriptorOf compile d e) {s : List Nat × Re}
    (hs : shapeOf d = some s) {v : Str} (hd : Digits v) (hl : v.length < 65536) (ha : Spec.Accepts e v) : Covers v s := by
  unfold shapeOf at hs
  split at hs
  · rename_i n l r h1 h2
    cases hs
    rw [patternOf_eq h, Option.some.injEq] at h2
    subst h2
    refine ⟨?_, ha.2⟩
    rw [← h1, ← h.possibleLength]
    have := ha.1.resolve_left (by rw [h.possibleLength, h1]; simp)
    rwa [hd.byteLen, Nat.mod_eq_of_lt hl] at this
  · cases hs

/-- The same type, with the description of the document and that of the database. -/
def SameType (a : PType × Option Loader.Descriptor) (b : PType × Option Descriptor) : Prop :=
  a.1 = b.1 ∧ Spec.OptionRel (Spec.DescriptorOf compile) a.2 b.2

theorem shapes_cover {L : List (PType × Option Loader.Descriptor)} {B : List (PType × Option Descriptor)}
    (h : Spec.ListRel SameType L B) {S : List (PType × List Nat × Re)} (hs : shapesOf L = some S) {v : Str}
    (hd : Digits v) (hl : v.length < 65536) (Q : PType → PType → Prop) :
    (∀ o ∈ B, Spec.AcceptsOpt o.2 v → ∃ s ∈ S, s.1 = o.1 ∧ Covers v s.2) ∧
    (S.Pairwise (fun a b => Covers v a.2 → Covers v b.2 → Q a.1 b.1) →
      B.Pairwise fun o o' => Spec.AcceptsOpt o.2 v → Spec.AcceptsOpt o'.2 v → Q o.1 o'.1) := by
  induction h generalizing S with
  | nil => exact ⟨by simp, fun _ => .nil⟩
  | @cons a b L B hab _ ih =>
    obtain ⟨t, a⟩ := a
    obtain ⟨t', b⟩ := b
    obtain ⟨e, hab⟩ := hab
    simp only at e hab
    subst e
    cases hab with
    | none =>
      obtain ⟨i1, i2⟩ := ih hs
      refine ⟨?_, fun hp => .cons ?_ (i2 hp)⟩
      · intro o ho
        rcases List.mem_cons.1 ho with rfl | ho
        · rintro ⟨_, h, _⟩; cases h
        · exact i1 o ho
      · rintro o _ ⟨_, h, _⟩; cases h
    | some hde =>
      rw [shapesOf] at hs
      split at hs
      · rename_i s r h1 h2
        cases hs
        obtain ⟨i1, i2⟩ := ih h2
        have key := fun {v} hd hl ha => shapeOf_covers hde h1 (v := v) hd hl ha
        refine ⟨?_, fun hp => ?_⟩
        · intro o ho
          rcases List.mem_cons.1 ho with rfl | ho
          · rintro ⟨_, h, ha⟩
            cases h
            exact ⟨(t, s), by simp, rfl, key hd hl ha⟩
          · intro ha
            obtain ⟨s', h', hc⟩ := i1 o ho ha
            exact ⟨s', by simp [h'], hc⟩
        · rw [List.pairwise_cons] at hp
          refine .cons ?_ (i2 hp.2)
          rintro o ho ⟨_, h, ha⟩ hb
          cases h
          obtain ⟨s', h', e, hc⟩ := i1 o ho hb
          rw [← e]
          exact hp.1 s' h' (key hd hl ha) hc
      · cases hs

/-- Which types of an entry overlap. -/
theorem overlap_facts {md : Metadata} (he : Spec.Entry db md) {v : Str} (hd : Digits v)
    (hl : v.length < 65536) (hg : Spec.Accepts md.descriptors.general v) :
    (Spec.categories md.descriptors).Pairwise
      (fun p q => Spec.AcceptsOpt p.2 v → Spec.AcceptsOpt q.2 v → (md.id, p.1, q.1) ∈ Spec.overlapping) ∧
    ∀ p ∈ Spec.categories md.descriptors, Spec.AcceptsOpt p.2 v →
      ∀ q ∈ [(PType.fixedLine, md.descriptors.fixedLine), (.mobile, md.descriptors.mobile)], Spec.AcceptsOpt q.2 v →
        (md.id, p.1, q.1) ∈ Spec.overlapping := by
  obtain ⟨m, hm, hmd⟩ := entry_of_territory from_builtin he
  have h := metadata_rel _ _ hmd
  have hck := List.all_eq_true.1 overlap_check m hm
  obtain ⟨g, hg1, hg2⟩ := h.general
  rw [overlapCheck, hg1, Option.bind_some, patternOf_eq hg2] at hck
  have r1 : Spec.ListRel SameType [(.premiumRate, m.premiumRate), (.tollFree, m.tollFree), (.sharedCost, m.sharedCost), (.voip, m.voip),
      (.personalNumber, m.personalNumber), (.pager, m.pager), (.uan, m.uan), (.voicemail, m.voicemail)] (Spec.categories md.descriptors) :=
    .cons ⟨rfl, h.premiumRate⟩ (.cons ⟨rfl, h.tollFree⟩ (.cons ⟨rfl, h.sharedCost⟩ (.cons ⟨rfl, h.voip⟩ (.cons ⟨rfl, h.personalNumber⟩
      (.cons ⟨rfl, h.pager⟩ (.cons ⟨rfl, h.uan⟩ (.cons ⟨rfl, h.voicemail⟩ .nil)))))))
  have r2 : Spec.ListRel SameType [(.fixedLine, m.fixedLine), (.mobile, m.mobile)]
      [(.fixedLine, md.descriptors.fixedLine), (.mobile, md.descriptors.mobile)] := .cons ⟨rfl, h.fixedLine⟩ (.cons ⟨rfl, h.mobile⟩ .nil)
  split at hck
  · rename_i g' l r e1 e2 e3
    cases e1
    rw [h.id] at hck
    obtain ⟨s1, s2⟩ := spread_sound hck
    have fin : ∀ {a b : PType × List Nat × Re}, separate md.descriptors.general.nationalNumber.re a.2 b.2 = true ∨
        overlapListed (some md.id) a.1 b.1 = true → Covers v a.2 → Covers v b.2 → (md.id, a.1, b.1) ∈ Spec.overlapping := by
      intro a b h ha hb
      rcases h with h | h
      · exact (separate_sound h hd hg.2 ha hb).elim
      · exact overlapListed_iff h
    obtain ⟨a1, a2⟩ := shapes_cover r1 e2 hd hl fun a b => (md.id, a, b) ∈ Spec.overlapping
    obtain ⟨b1, _⟩ := shapes_cover r2 e3 hd hl fun _ _ => True
    refine ⟨a2 (s1.imp fin), fun p hp ha q hq hb => ?_⟩
    obtain ⟨x, hx, ex, hcx⟩ := a1 p hp ha
    obtain ⟨y, hy, ey, hcy⟩ := b1 q hq hb
    rw [← ex, ← ey]
    exact fin (s2 x hx y hy) hcx hcy
  · cases hck

/-- C100: in the shipped database, two types whose descriptions both cover a number are the same, or are fixed line and mobile, or are
among the 14 pairs listed for eight territories. -/
theorem C100_apart (md : Metadata) (he : Spec.Entry db md) (v : Str)
    (hd : ∀ c ∈ v, isDigit c = true) (hl : v.length < 65536) (hg : Spec.Accepts md.descriptors.general v) (t t' : PType)
    (d d' : Option Descriptor) (ht : (t, d) ∈ Spec.types md.descriptors) (ht' : (t', d') ∈ Spec.types md.descriptors)
    (h : Spec.AcceptsOpt d v) (h' : Spec.AcceptsOpt d' v) :
    t = t' ∨ (t = .fixedLine ∧ t' = .mobile) ∨ (t = .mobile ∧ t' = .fixedLine) ∨
      (md.id, t, t') ∈ Spec.overlapping ∨ (md.id, t', t) ∈ Spec.overlapping := by
  obtain ⟨h1, h2⟩ := overlap_facts he hd hl hg
  rcases List.mem_append.1 ht with ht | ht <;> rcases List.mem_append.1 ht' with ht' | ht'
  · obtain ⟨b, a, e⟩ := List.append_of_mem ht
    rw [e] at ht' h1
    rw [List.pairwise_append, List.pairwise_cons] at h1
    rcases List.mem_append.1 ht' with hm | hm
    · exact .inr (.inr (.inr (.inr (h1.2.2 _ hm (t, d) (by simp) h' h))))
    · rcases List.mem_cons.1 hm with hm | hm
      · cases hm; exact .inl rfl
      · exact .inr (.inr (.inr (.inl (h1.2.1.1 _ hm h h'))))
  · exact .inr (.inr (.inr (.inl (h2 _ ht h _ ht' h'))))
  · exact .inr (.inr (.inr (.inr (h2 _ ht' h' _ ht h))))
  · simp only [List.mem_cons, Prod.mk.injEq, List.not_mem_nil, or_false] at ht ht'
    rcases ht with ⟨rfl, _⟩ | ⟨rfl, _⟩ <;> rcases ht' with ⟨rfl, _⟩ | ⟨rfl, _⟩ <;> simp

/-- C100: so the order in which the types are tried matters for these pairs only: a number gets the type of any description that covers it
(or the type for numbers that may be fixed lines or mobiles), or the first type of such a pair. -/
theorem C100_type (md : Metadata) (he : Spec.Entry db md) (v : Str)
    (hd : ∀ c ∈ v, isDigit c = true) (hl : v.length < 65536) (hg : Spec.Accepts md.descriptors.general v) (t : PType)
    (d : Option Descriptor) (ht : (t, d) ∈ Spec.types md.descriptors) (h : Spec.AcceptsOpt d v) :
    Spec.OfType t (Phone.numberType md v) ∨ (md.id, Phone.numberType md v, t) ∈ Spec.overlapping := by
  obtain ⟨h1, h2⟩ := overlap_facts he hd hl hg
  obtain ⟨c1, c2⟩ := (C23_first_category md v).2 hg
  by_cases hno : ∀ p ∈ Spec.categories md.descriptors, ¬ Spec.AcceptsOpt p.2 v
  · obtain ⟨k1, k2, k3, _⟩ := c2 hno
    rcases List.mem_append.1 ht with ht | ht
    · exact absurd h (hno _ ht)
    simp only [List.mem_cons, Prod.mk.injEq, List.not_mem_nil, or_false] at ht
    rcases ht with ⟨rfl, rfl⟩ | ⟨rfl, rfl⟩
    · by_cases hs : Spec.SamePattern md.descriptors
      · exact .inl (.inr ⟨k1 h (.inl hs), .inl rfl⟩)
      by_cases hm : Spec.AcceptsOpt md.descriptors.mobile v
      · exact .inl (.inr ⟨k1 h (.inr hm), .inl rfl⟩)
      · exact .inl (.inl (k2 h hs hm))
    · by_cases hf : Spec.AcceptsOpt md.descriptors.fixedLine v
      · exact .inl (.inr ⟨k1 hf (.inr h), .inr rfl⟩)
      · exact .inl (.inl (k3 hf h))
  · obtain ⟨b, x, a, e, hx, hb⟩ : ∃ b x a, Spec.categories md.descriptors = b ++ x :: a ∧ Spec.AcceptsOpt x.2 v ∧
        ∀ p ∈ b, ¬ Spec.AcceptsOpt p.2 v := by
      generalize Spec.categories md.descriptors = l at hno
      clear c1 h1 h2 ht
      induction l with
      | nil => exact absurd (by simp) hno
      | cons y l ih =>
        by_cases hy : Spec.AcceptsOpt y.2 v
        · exact ⟨[], y, l, rfl, hy, by simp⟩
        · obtain ⟨b, x, a, e, hx, hb⟩ := ih fun hn => hno fun p hp => by
            rcases List.mem_cons.1 hp with rfl | hp
            · exact hy
            · exact hn p hp
          refine ⟨y :: b, x, a, by rw [e]; rfl, hx, fun p hp => ?_⟩
          rcases List.mem_cons.1 hp with rfl | hp
          · exact hy
          · exact hb p hp
    rw [c1 b x.1 x.2 a e hx hb]
    have hxm : x ∈ Spec.categories md.descriptors := by rw [e]; simp
    rcases List.mem_append.1 ht with ht | ht
    · rw [e] at ht h1
      rw [List.pairwise_append, List.pairwise_cons] at h1
      rcases List.mem_append.1 ht with hm | hm
      · exact absurd h (hb _ hm)
      · rcases List.mem_cons.1 hm with hm | hm
        · subst hm; exact .inl (.inl rfl)
        · exact .inr (h1.2.1.1 _ hm hx h)
    · exact .inr (h2 _ hxm hx _ ht h)

/-! The exceptions. -/

/-- A number that two types cover: the territory, the type found, the other type and the number. -/
def overlapOk (ms : List Loader.Metadata) (w : Id × PType × PType × Str) : Bool :=
  ms.all fun m => m.id != some w.1.asRef ||
    match Database.metadata compile m with
    | .ok md => md.descriptors.general.isMatch w.2.2.2 && descMatch (md.descriptors.get w.2.1) w.2.2.2 &&
        descMatch (md.descriptors.get w.2.2.1) w.2.2.2 && decide (Phone.numberType md w.2.2.2 = w.2.1)
    | _ => false

/-- For each pair of types that overlap in some territory a number. -/
def overlaps : List (Id × PType × PType × Str) :=
  [(.BR, .sharedCost, .mobile, str% "4370000000"), (.CN, .sharedCost, .fixedLine, str% "10100000"),
   (.IE, .tollFree, .fixedLine, str% "1800000000"), (.IE, .premiumRate, .fixedLine, str% "1512000000"),
   (.IE, .sharedCost, .fixedLine, str% "1850000000"), (.LB, .premiumRate, .fixedLine, str% "90000000"),
   (.LB, .sharedCost, .fixedLine, str% "80000000"), (.MM, .voip, .fixedLine, str% "13330000"),
   (.MY, .premiumRate, .mobile, str% "1600000000"), (.NZ, .premiumRate, .tollFree, str% "508800000"),
   (.PM, .tollFree, .fixedLine, str% "800000000"), (.PM, .premiumRate, .fixedLine, str% "810000000"),
   (.PM, .tollFree, .mobile, str% "800000000"), (.PM, .premiumRate, .mobile, str% "810000000")]

theorem overlaps_check : overlaps.all (overlapOk Data.territories) = true := by kernel_rfl

omit [UnicodeTables] in
theorem overlaps_all : Spec.overlapping = overlaps.map fun w => (w.1.asRef, w.2.1, w.2.2.1) := by decide

omit [UnicodeTables] in
theorem mem_types {d : Descriptors} {t : PType} (h : ∃ w ∈ overlaps, t = w.2.1 ∨ t = w.2.2.1) : (t, d.get t) ∈ Spec.types d := by
  have : t ∈ [PType.premiumRate, .tollFree, .sharedCost, .voip, .fixedLine, .mobile] := by
    obtain ⟨w, hw, rfl | rfl⟩ := h
    · exact (by decide : ∀ w ∈ overlaps, w.2.1 ∈ [PType.premiumRate, .tollFree, .sharedCost, .voip, .fixedLine, .mobile]) w hw
    · exact (by decide : ∀ w ∈ overlaps, w.2.2.1 ∈ [PType.premiumRate, .tollFree, .sharedCost, .voip, .fixedLine, .mobile]) w hw
  simp only [List.mem_cons, List.not_mem_nil, or_false] at this
  rcases this with rfl | rfl | rfl | rfl | rfl | rfl <;> simp [Spec.types, Spec.categories, Descriptors.get]

/-- C100: each of the 14 pairs overlaps in its territory: some number is covered by the descriptions of both types, and is found to have the
first one. -/
theorem C100_overlaps (i : Str) (t t' : PType) (h : (i, t, t') ∈ Spec.overlapping) :
    ∃ md v d d', db.byId i = some md ∧ (∀ c ∈ v, isDigit c = true) ∧ v.length < 65536 ∧ Spec.Accepts md.descriptors.general v ∧
      (t, some d) ∈ Spec.types md.descriptors ∧ (t', some d') ∈ Spec.types md.descriptors ∧ Spec.Accepts d v ∧ Spec.Accepts d' v ∧
      Phone.numberType md v = t := by
  rw [overlaps_all, List.mem_map] at h
  obtain ⟨w, hw, e⟩ := h
  cases e
  obtain ⟨md, hmd⟩ := Option.isSome_iff_exists.1 (id_present w.1)
  obtain ⟨m, hm, hmm, hi⟩ := entry_of_id hmd
  have hok := List.all_eq_true.1 (List.all_eq_true.1 overlaps_check w hw) m hm
  simp only [hi, bne_self_eq_false, Bool.false_or, hmm, Bool.and_eq_true, decide_eq_true_eq, descMatch_iff, C26_isMatch_iff] at hok
  obtain ⟨⟨⟨h1, d, e1, h2⟩, d', e2, h3⟩, h4⟩ := hok
  have hdig := (by decide : ∀ w ∈ overlaps, (∀ c ∈ w.2.2.2, isDigit c = true) ∧ w.2.2.2.length < 65536) w hw
  refine ⟨md, w.2.2.2, d, d', hmd, hdig.1, hdig.2, h1, ?_, ?_, h2, h3, h4⟩
  · rw [← e1]; exact mem_types ⟨w, hw, .inl rfl⟩
  · rw [← e2]; exact mem_types ⟨w, hw, .inr rfl⟩

/-! A number of New Zealand is covered by the descriptions of two types. -/

example : ∃ md v d d', db.byId (str% "NZ") = some md ∧ (∀ c ∈ v, isDigit c = true) ∧ v.length < 65536 ∧ Spec.Accepts md.descriptors.general v ∧
    (.premiumRate, some d) ∈ Spec.types md.descriptors ∧ (.tollFree, some d') ∈ Spec.types md.descriptors ∧ Spec.Accepts d v ∧
    Spec.Accepts d' v ∧ Phone.numberType md v = .premiumRate := C100_overlaps _ _ _ (by decide)

end Builtin
end Phone
