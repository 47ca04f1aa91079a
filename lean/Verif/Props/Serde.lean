import Verif.Spec.Serde
import Verif.Props.Postcard
import Verif.Props.Format
/-! # C78: numbers survive serialisation, and nothing is checked on the way back -/

namespace Phone
namespace Serde
open Spec

/-- What is read for a field from the values given for it, after `old`. -/
def FieldRead {α : Type} (f : Doc → Outcome DocErr α) (old : Option α) (vs : List Doc) (new : Option α) : Prop :=
  (vs = [] ∧ new = old) ∨ (old = none ∧ ∃ d a, vs = [d] ∧ f d = .ok a ∧ new = some a)

theorem fieldRead_nil {α : Type} {f : Doc → Outcome DocErr α} {old new : Option α} : FieldRead f old [] new ↔ new = old := by
  simp [FieldRead]

theorem fieldRead_cons {α : Type} {f : Doc → Outcome DocErr α} {old new : Option α} {k : Str} {d : Doc} {vs : List Doc} :
    FieldRead f old (d :: vs) new ↔ ∃ mid, once k old (f d) = .ok mid ∧ FieldRead f mid vs new := by
  unfold FieldRead once
  cases old with
  | some x => simp
  | none =>
    simp only [Option.isSome_none, Bool.false_eq_true, if_false, Outcome.bind_eq_ok, Outcome.ok.injEq]
    constructor
    · rintro (⟨h, _⟩ | ⟨_, d', a, h1, h2, h3⟩)
      · cases h
      · cases h1
        exact ⟨some a, ⟨a, h2, rfl⟩, .inl ⟨rfl, h3⟩⟩
    · rintro ⟨mid, ⟨a, h1, rfl⟩, h | h⟩
      · exact .inr ⟨trivial, d, a, by rw [h.1], h1, h.2⟩
      · cases h.1

theorem valuesOf_cons (name k : Str) (d : Doc) (l : List (Str × Doc)) :
    valuesOf name ((k, d) :: l) = if k = name then d :: valuesOf name l else valuesOf name l := by
  unfold valuesOf
  by_cases h : k = name <;> simp [h]

theorem readFields_code (l : List (Str × Doc)) (s t : Option Nat × Option Source) :
    readFields codeField s l = .ok t ↔
      FieldRead (readNum 65536) s.1 (valuesOf (str% "value") l) t.1 ∧
      FieldRead (readVariant sourceNames) s.2 (valuesOf (str% "source") l) t.2 := by
  induction l generalizing s with
  | nil =>
    simp only [readFields, valuesOf, List.filter_nil, List.map_nil, fieldRead_nil, Outcome.ok.injEq]
    exact ⟨fun h => by rw [h]; exact ⟨rfl, rfl⟩, fun h => Prod.ext h.1.symm h.2.symm⟩
  | cons x l ih =>
    obtain ⟨k, d⟩ := x
    simp only [readFields, Outcome.bind_eq_ok, valuesOf_cons, ih]
    unfold codeField
    by_cases h1 : k = (str% "value")
    · subst h1
      simp only [if_true, Outcome.bind_eq_ok, Outcome.ok.injEq]
      rw [if_neg (by decide), fieldRead_cons (k := str% "value")]
      constructor
      · rintro ⟨_, ⟨v, hv, rfl⟩, h2, h3⟩
        exact ⟨⟨v, hv, h2⟩, h3⟩
      · rintro ⟨⟨v, hv, h2⟩, h3⟩
        exact ⟨_, ⟨v, hv, rfl⟩, h2, h3⟩
    · by_cases h2 : k = (str% "source")
      · subst h2
        simp only [if_neg h1, if_true, Outcome.bind_eq_ok, Outcome.ok.injEq]
        rw [fieldRead_cons (k := str% "source")]
        constructor
        · rintro ⟨_, ⟨v, hv, rfl⟩, h2, h3⟩
          exact ⟨h2, v, hv, h3⟩
        · rintro ⟨h2, v, hv, h3⟩
          exact ⟨_, ⟨v, hv, rfl⟩, h2, h3⟩
      · simp only [if_neg h1, if_neg h2, Outcome.ok.injEq, exists_eq_left']

theorem readFields_national (l : List (Str × Doc)) (s t : Option Nat) :
    readFields nationalField s l = .ok t ↔ FieldRead (readNum (2 ^ 64)) s (valuesOf (str% "value") l) t := by
  induction l generalizing s with
  | nil =>
    simp only [readFields, valuesOf, List.filter_nil, List.map_nil, fieldRead_nil, Outcome.ok.injEq]
    exact eq_comm
  | cons x l ih =>
    obtain ⟨k, d⟩ := x
    simp only [readFields, Outcome.bind_eq_ok, valuesOf_cons, ih]
    unfold nationalField
    by_cases h1 : k = (str% "value")
    · subst h1
      simp only [if_true]
      rw [fieldRead_cons (k := str% "value")]
    · simp only [if_neg h1, Outcome.ok.injEq, exists_eq_left']

theorem readFields_number (l : List (Str × Doc)) (s t : Fields) :
    readFields numberField s l = .ok t ↔
      FieldRead readCode s.code (valuesOf (str% "code") l) t.code ∧
      FieldRead readNational s.national (valuesOf (str% "national") l) t.national ∧
      FieldRead (readOption readText) s.extension (valuesOf (str% "extension") l) t.extension ∧
      FieldRead (readOption readText) s.carrier (valuesOf (str% "carrier") l) t.carrier := by
  induction l generalizing s with
  | nil =>
    simp only [readFields, valuesOf, List.filter_nil, List.map_nil, fieldRead_nil, Outcome.ok.injEq]
    constructor
    · rintro rfl; exact ⟨rfl, rfl, rfl, rfl⟩
    · rintro ⟨h1, h2, h3, h4⟩
      cases s; cases t
      simp only at h1 h2 h3 h4
      rw [h1, h2, h3, h4]
  | cons x l ih =>
    obtain ⟨k, d⟩ := x
    simp only [readFields, Outcome.bind_eq_ok, valuesOf_cons, ih]
    unfold numberField
    by_cases h1 : k = (str% "code")
    · subst h1
      simp only [if_true, Outcome.bind_eq_ok, Outcome.ok.injEq]
      rw [if_neg (by decide), if_neg (by decide), if_neg (by decide), fieldRead_cons (k := str% "code")]
      constructor
      · rintro ⟨_, ⟨v, hv, rfl⟩, a, b⟩
        exact ⟨⟨v, hv, a⟩, b⟩
      · rintro ⟨⟨v, hv, a⟩, b⟩
        exact ⟨_, ⟨v, hv, rfl⟩, a, b⟩
    · by_cases h2 : k = (str% "national")
      · subst h2
        simp only [if_neg h1, if_true, Outcome.bind_eq_ok, Outcome.ok.injEq]
        rw [if_neg (by decide), if_neg (by decide), fieldRead_cons (k := str% "national")]
        constructor
        · rintro ⟨_, ⟨v, hv, rfl⟩, a, b, c⟩
          exact ⟨a, ⟨v, hv, b⟩, c⟩
        · rintro ⟨a, ⟨v, hv, b⟩, c⟩
          exact ⟨_, ⟨v, hv, rfl⟩, a, b, c⟩
      · by_cases h3 : k = (str% "extension")
        · subst h3
          simp only [if_neg h1, if_neg h2, if_true, Outcome.bind_eq_ok, Outcome.ok.injEq]
          rw [if_neg (by decide), fieldRead_cons (k := str% "extension")]
          constructor
          · rintro ⟨_, ⟨v, hv, rfl⟩, a, b, c, e⟩
            exact ⟨a, b, ⟨v, hv, c⟩, e⟩
          · rintro ⟨a, b, ⟨v, hv, c⟩, e⟩
            exact ⟨_, ⟨v, hv, rfl⟩, a, b, c, e⟩
        · by_cases h4 : k = (str% "carrier")
          · subst h4
            simp only [if_neg h1, if_neg h2, if_neg h3, if_true, Outcome.bind_eq_ok, Outcome.ok.injEq]
            rw [fieldRead_cons (k := str% "carrier")]
            constructor
            · rintro ⟨_, ⟨v, hv, rfl⟩, a, b, c, e⟩
              exact ⟨a, b, c, v, hv, e⟩
            · rintro ⟨a, b, c, v, hv, e⟩
              exact ⟨_, ⟨v, hv, rfl⟩, a, b, c, e⟩
          · simp only [if_neg h1, if_neg h2, if_neg h3, if_neg h4, Outcome.ok.injEq, exists_eq_left']

/-! ## Parts -/

theorem readNum_iff {bound : Nat} {d : Doc} {n : Nat} : readNum bound d = .ok n ↔ d = .num n ∧ n < bound := by
  unfold readNum
  split
  · rename_i m
    split
    · simp only [Outcome.ok.injEq, Doc.num.injEq]
      exact ⟨by rintro rfl; exact ⟨rfl, by assumption⟩, fun h => h.1⟩
    · simp only [reduceCtorEq, Doc.num.injEq, false_iff]
      rintro ⟨rfl, h⟩; contradiction
  · rename_i h
    simp only [reduceCtorEq, false_iff]
    rintro ⟨rfl, _⟩
    exact h n rfl

theorem readText_iff {d : Doc} {s : Str} : readText d = .ok s ↔ d = .text s := by
  unfold readText
  split
  · simp
  · rename_i h
    simp only [reduceCtorEq, false_iff]
    rintro rfl
    exact h s rfl

theorem readOption_iff {d : Doc} {o : Option Str} : readOption readText d = .ok o ↔ TextDoc d o := by
  unfold readOption
  split
  · simp only [Outcome.ok.injEq]
    exact ⟨by rintro rfl; exact .none, by rintro ⟨⟩; rfl⟩
  · rename_i h
    simp only [Outcome.bind_eq_ok, readText_iff, Outcome.ok.injEq]
    constructor
    · rintro ⟨a, rfl, rfl⟩; exact .some
    · intro h'
      cases h' with
      | none => exact absurd rfl h
      | some => exact ⟨_, rfl, rfl⟩

theorem sourceNames_eq : sourceNames = [Source.plus, .idd, .number, .default].map fun s => (sourceName s, s) := by decide

theorem variant_source {s : Str} {x : Source} : variant sourceNames s = .ok x ↔ s = sourceName x := by
  unfold variant
  rw [sourceNames_eq]
  constructor
  · intro h
    split at h
    · rename_i y hy
      cases h
      obtain ⟨z, _, rfl⟩ := List.mem_map.1 (List.mem_of_find?_eq_some hy)
      have := List.find?_some hy
      simpa using (beq_iff_eq.1 this).symm
    · cases h
  · rintro rfl
    cases x <;> rfl

theorem readVariant_iff {α : Type} {names : List (Str × α)} {d : Doc} {x : α} {name : Str}
    (h : ∀ s, variant names s = .ok x ↔ s = name) : readVariant names d = .ok x ↔ NameDoc d name := by
  unfold readVariant NameDoc
  split
  · simp [h]
  · simp [h]
  · rename_i h1 h2
    simp only [reduceCtorEq, false_iff]
    rintro (rfl | rfl)
    · exact h1 _ rfl
    · exact h2 _ rfl

theorem needed_iff {α : Type} {name : Str} {o : Option α} {a : α} : needed name o = .ok a ↔ o = some a := by
  cases o <;> simp [needed]

/-- A required field that was not read before. -/
theorem fieldRead_some {α : Type} {f : Doc → Outcome DocErr α} {vs : List Doc} {a : α} :
    FieldRead f none vs (some a) ↔ ∃ d, vs = [d] ∧ f d = .ok a := by
  unfold FieldRead
  simp

theorem fieldRead_option {vs : List Doc} {o : Option Str} :
    (∃ x, FieldRead (readOption readText) none vs x ∧ x.getD none = o) ↔ FieldDoc vs o := by
  constructor
  · rintro ⟨x, h | ⟨_, d, a, rfl, h1, rfl⟩, rfl⟩
    · rw [h.1, h.2]; exact .missing
    · exact .given (readOption_iff.1 h1)
  · intro h
    cases h with
    | missing => exact ⟨none, .inl ⟨rfl, rfl⟩, rfl⟩
    | given h => exact ⟨_, .inr ⟨rfl, _, _, rfl, readOption_iff.2 h, rfl⟩, rfl⟩

theorem readCode_iff {d : Doc} {c : Code} : readCode d = .ok c ↔ CodeDoc d c := by
  unfold readCode
  split
  · rename_i l
    simp only [Outcome.bind_eq_ok, readFields_code, needed_iff, Outcome.ok.injEq]
    constructor
    · rintro ⟨s, ⟨h1, h2⟩, v, hv, x, hx, rfl⟩
      rw [hv, fieldRead_some] at h1
      rw [hx, fieldRead_some] at h2
      obtain ⟨d1, e1, f1⟩ := h1
      obtain ⟨d2, e2, f2⟩ := h2
      obtain ⟨rfl, hlt⟩ := readNum_iff.1 f1
      exact .fields hlt e1 e2 ((readVariant_iff fun _ => variant_source).1 f2)
    · intro h
      cases h with
      | fields h1 h2 h3 h4 =>
        exact ⟨(some c.value, some c.source), ⟨fieldRead_some.2 ⟨_, h2, readNum_iff.2 ⟨rfl, h1⟩⟩,
          fieldRead_some.2 ⟨_, h3, (readVariant_iff fun _ => variant_source).2 h4⟩⟩, _, rfl, _, rfl, rfl⟩
  · rename_i a b
    simp only [Outcome.bind_eq_ok, readNum_iff, readVariant_iff (fun _ => variant_source), Outcome.ok.injEq]
    constructor
    · rintro ⟨v, ⟨rfl, h1⟩, x, h2, rfl⟩
      exact .list (c := ⟨v, x⟩) h1 h2
    · intro h
      cases h with
      | list h1 h2 => exact ⟨_, ⟨rfl, h1⟩, _, h2, rfl⟩
  · rename_i h1 h2
    simp only [reduceCtorEq, false_iff]
    intro h
    cases h with
    | fields => exact h1 _ rfl
    | list => exact h2 _ _ rfl

theorem readNational_iff {d : Doc} {n : NationalNumber} : readNational d = .ok n ↔ NationalDoc d n := by
  have key : ∀ v, v < 2 ^ 64 → ((⟨UInt64.ofNat v⟩ : NationalNumber) = n ↔ v = n.raw.toNat) := by
    intro v hv
    constructor
    · rintro rfl
      simp only [UInt64.toNat_ofNat']
      omega
    · rintro rfl
      simp
  unfold readNational
  split
  · rename_i l
    simp only [Outcome.bind_eq_ok, readFields_national, needed_iff, Outcome.ok.injEq]
    constructor
    · rintro ⟨s, h1, v, rfl, h2⟩
      obtain ⟨d1, e1, f1⟩ := fieldRead_some.1 h1
      obtain ⟨rfl, hlt⟩ := readNum_iff.1 f1
      rw [key v hlt] at h2
      subst h2
      exact .fields e1
    · intro h
      cases h with
      | fields h =>
        refine ⟨some n.raw.toNat, fieldRead_some.2 ⟨_, h, readNum_iff.2 ⟨rfl, n.raw.toNat_lt⟩⟩, _, rfl, ?_⟩
        rw [key _ n.raw.toNat_lt]
  · simp only [Outcome.bind_eq_ok, readNum_iff, Outcome.ok.injEq]
    constructor
    · rintro ⟨v, ⟨rfl, hlt⟩, h2⟩
      rw [key v hlt] at h2
      subst h2
      exact .list
    · intro h
      cases h with
      | list => exact ⟨_, ⟨rfl, n.raw.toNat_lt⟩, (key _ n.raw.toNat_lt).2 rfl⟩
  · rename_i h1 h2
    simp only [reduceCtorEq, false_iff]
    intro h
    cases h with
    | fields => exact h1 _ rfl
    | list => exact h2 _ rfl

/-! ## The claims -/

/-- C78: exactly which documents are read as a number. -/
theorem C78_read (d : Doc) (p : PhoneNumber) : read d = .ok p ↔ NumberDoc d p := by
  unfold read
  split
  · rename_i l
    simp only [Outcome.bind_eq_ok, readFields_number, needed_iff, Outcome.ok.injEq]
    constructor
    · rintro ⟨s, ⟨h1, h2, h3, h4⟩, c, hc, n, hn, rfl⟩
      rw [hc, fieldRead_some] at h1
      rw [hn, fieldRead_some] at h2
      obtain ⟨d1, e1, f1⟩ := h1
      obtain ⟨d2, e2, f2⟩ := h2
      exact .fields e1 (readCode_iff.1 f1) e2 (readNational_iff.1 f2) (fieldRead_option.1 ⟨_, h3, rfl⟩) (fieldRead_option.1 ⟨_, h4, rfl⟩)
    · intro h
      cases h with
      | fields h1 h2 h3 h4 h5 h6 =>
        obtain ⟨x, hx, ex⟩ := fieldRead_option.2 h5
        obtain ⟨y, hy, ey⟩ := fieldRead_option.2 h6
        refine ⟨⟨some p.code, some p.national, x, y⟩, ⟨fieldRead_some.2 ⟨_, h1, readCode_iff.2 h2⟩,
          fieldRead_some.2 ⟨_, h3, readNational_iff.2 h4⟩, hx, hy⟩, _, rfl, _, rfl, ?_⟩
        simp only [ex, ey]
  · simp only [Outcome.bind_eq_ok, readCode_iff, readNational_iff, readOption_iff, Outcome.ok.injEq]
    constructor
    · rintro ⟨c, h1, n, h2, e, h3, x, h4, rfl⟩
      exact .list h1 h2 h3 h4
    · intro h
      cases h with
      | list h1 h2 h3 h4 => exact ⟨_, h1, _, h2, _, h3, _, h4, rfl⟩
  · rename_i h1 h2
    simp only [reduceCtorEq, false_iff]
    intro h
    cases h with
    | fields => exact h1 _ rfl
    | list => exact h2 _ _ _ _ rfl

theorem nameIn_source (x : Source) : nameIn sourceNames x = sourceName x := by cases x <;> rfl

/-- C78: a number that is written and read again is the same, source of the calling code included. -/
theorem C78_round_trip (p : PhoneNumber) (h : p.code.value < 65536) : read (write p) = .ok p := by
  rw [C78_read]
  have ht : ∀ o : Option Str, TextDoc (writeOption .text o) o := by rintro (_ | _) <;> constructor
  refine .fields (a := writeCode p.code) (b := writeNational p.national) rfl ?_ rfl ?_ (.given (d := writeOption .text p.extension) (ht _))
    (.given (d := writeOption .text p.carrier) (ht _))
  · exact .fields h rfl (d := writeVariant sourceNames p.code.source) rfl (.inl (by rw [writeVariant, nameIn_source]))
  · exact .fields rfl

theorem valuesOf_perm {name : Str} {l l' : List (Str × Doc)} (h : l.Perm l') : (valuesOf name l).Perm (valuesOf name l') :=
  (h.filter _).map _

/-- C78: the order of the fields does not matter to whether a document is a number and which. -/
theorem C78_order (l l' : List (Str × Doc)) (hp : l.Perm l') (p : PhoneNumber) :
    read (.map l) = .ok p ↔ read (.map l') = .ok p := by
  have one : ∀ {name : Str} {l l' : List (Str × Doc)} {d : Doc}, l.Perm l' → valuesOf name l = [d] → valuesOf name l' = [d] := by
    intro name l l' d hp h
    have := valuesOf_perm (name := name) hp
    rw [h] at this
    exact List.singleton_perm.1 this |>.symm
  have opt : ∀ {name : Str} {l l' : List (Str × Doc)} {o : Option Str}, l.Perm l' → FieldDoc (valuesOf name l) o →
      FieldDoc (valuesOf name l') o := by
    intro name l l' o hp h
    generalize hv : valuesOf name l = vs at h
    cases h with
    | missing =>
      have := valuesOf_perm (name := name) hp
      rw [hv] at this
      rw [List.nil_perm.1 this]; exact .missing
    | given h => rw [one hp hv]; exact .given h
  have key : ∀ {l l' : List (Str × Doc)}, l.Perm l' → NumberDoc (.map l) p → NumberDoc (.map l') p := by
    intro l l' hp h
    cases h with
    | fields h1 h2 h3 h4 h5 h6 => exact .fields (one hp h1) h2 (one hp h3) h4 (opt hp h5) (opt hp h6)
  rw [C78_read, C78_read]
  exact ⟨key hp, key hp.symm⟩

/-- C78: fields that a number does not have are skipped. -/
theorem C78_unknown_fields (k : Str) (d : Doc) (l l' : List (Str × Doc))
    (hk : k ∉ [str% "code", str% "national", str% "extension", str% "carrier"]) :
    read (.map (l ++ (k, d) :: l')) = read (.map (l ++ l')) := by
  have : ∀ s, readFields numberField s (l ++ (k, d) :: l') = readFields numberField s (l ++ l') := by
    intro s
    induction l generalizing s with
    | nil =>
      simp only [List.mem_cons, List.not_mem_nil, or_false, not_or] at hk
      simp [readFields, numberField, hk]
    | cons x l ih =>
      simp only [List.cons_append, readFields]
      congr 1
      funext t
      exact ih t
  simp only [read, this]

/-- C78: names of types. -/
theorem C78_types (t : PType) : writeVariant typeNames t = .text (typeName t) ∧
    ∀ d, readVariant typeNames d = .ok t ↔ NameDoc d (typeName t) := by
  have hn : typeNames = ([.fixedLine, .mobile, .fixedLineOrMobile, .tollFree, .premiumRate, .sharedCost, .personalNumber, .voip, .pager,
      .uan, .emergency, .voicemail, .shortCode, .standardRate, .carrier, .noInternational, .unknown] : List PType).map
      fun s => (typeName s, s) := by decide
  refine ⟨by cases t <;> rfl, fun d => readVariant_iff fun s => ?_⟩
  unfold variant
  constructor
  · intro h
    split at h
    · rename_i y hy
      cases h
      rw [hn] at hy
      obtain ⟨z, _, rfl⟩ := List.mem_map.1 (List.mem_of_find?_eq_some hy)
      have := List.find?_some hy
      simpa using (beq_iff_eq.1 this).symm
    · cases h
  · rintro rfl
    cases t <;> rfl

theorem nameIn_map {α : Type} [DecidableEq α] (f : α → Str) {l : List α} {a : α} (h : a ∈ l) :
    nameIn (l.map fun x => (f x, x)) a = f a := by
  unfold nameIn
  cases hf : (l.map fun x => (f x, x)).find? fun x => x.2 == a with
  | none =>
    have := List.find?_eq_none.1 hf (f a, a) (List.mem_map.2 ⟨a, h, rfl⟩)
    simp at this
  | some y =>
    obtain ⟨z, _, rfl⟩ := List.mem_map.1 (List.mem_of_find?_eq_some hf)
    have := List.find?_some hf
    simp only [beq_iff_eq] at this
    subst this
    rfl

theorem variant_id {s : Str} {i : Id} : variant idNames s = .ok i ↔ s = i.asRef := by
  unfold variant idNames
  constructor
  · intro h
    split at h
    · rename_i y hy
      cases h
      obtain ⟨z, _, rfl⟩ := List.mem_map.1 (List.mem_of_find?_eq_some hy)
      have := List.find?_some hy
      simpa using (beq_iff_eq.1 this).symm
    · cases h
  · rintro rfl
    cases i <;> decide

/-- C78: names of countries. -/
theorem C78_countries (i : Id) : writeVariant idNames i = .text i.asRef ∧ ∀ d, readVariant idNames d = .ok i ↔ NameDoc d i.asRef := by
  refine ⟨?_, fun d => readVariant_iff fun s => variant_id⟩
  rw [writeVariant, idNames, nameIn_map _ (show i ∈ Id.all by cases i <;> decide)]

theorem prefixCode_lt {n : Number} {v : Nat} (h : prefixCode n = .ok v) : v < 65536 := by
  unfold prefixCode at h
  split at h
  · cases h; decide
  · rename_i p _
    cases hu : parseUInt u16Bound p with
    | none => rw [hu] at h; cases h
    | some w =>
      rw [hu] at h
      cases h
      obtain ⟨h, _⟩ := parseUInt_eq_some hu
      exact h

/-- C78: nothing is checked when a number is read: whatever the 16-bit code, the 64-bit national number and the texts, there is a document
of that number, and if the database does not have the code, every way of writing the number that was read fails, so that `to_string`
panics. -/
theorem C78_unchecked [UnicodeTables] (compile : Str → Option Regex) (ms : List Loader.Metadata) (db : Database)
    (hdb : Database.from compile ms = .ok db) (v : Nat) (hv : v < 65536) (src : Source) (raw : UInt64) (e c : Option Str) :
    ∃ d p, read d = .ok p ∧ p = ⟨⟨v, src⟩, ⟨raw⟩, e, c⟩ ∧
      ((∀ m ∈ ms, m.countryCode ≠ some v) → ∀ mode custom, ∃ err, Formatter.fmt db p mode custom = .err err) :=
  ⟨_, _, C78_round_trip ⟨⟨v, src⟩, ⟨raw⟩, e, c⟩ hv, rfl, fun hn mode custom => (C35_error_iff compile ms db hdb _ mode custom).2 hn⟩

end Serde

namespace Postcard
open Wire Lawful

theorem takeSource_put (s : Source) (r : List Nat) : takeSource (putSource s ++ r) = some (s, r) := by
  have h : (Serde.sourceNames.map Prod.snd) = [Source.plus, .idd, .number, .default] := by decide
  unfold takeSource putSource
  rw [takeVarint_varint 15 (by decide) 4 _ _ (by rw [h]; cases s <;> decide), h]
  cases s <;> rfl

/-- C78: the same with the bytes of `postcard`, which may be followed by others. -/
theorem C78_postcard (p : PhoneNumber) (h : p.code.value < 65536) (hl : (putNumber p).length < 2 ^ 64) (r : List Nat) :
    takeNumber (putNumber p ++ r) = some (p, r) := by
  have e1 := takeVarint_varint 3 (by decide) 2 p.code.value
  have e2 := takeVarint_varint 1 (by decide) 9 p.national.raw.toNat
  have hraw := p.national.raw.toNat_lt
  have h9 : (1 + 1) * 128 ^ 9 = 2 ^ 64 := by decide
  have hopt : ∀ (o : Option Str) (r : List Nat), (put o).length < 2 ^ 64 → take (put o ++ r) = some (o, r) :=
    fun o r hx => law o (fun _ _ => trivial) hx r
  simp only [putNumber, List.flatten_cons, List.flatten_nil, List.length_append, List.append_nil] at hl
  simp only [putNumber, takeNumber, takeU64, List.flatten_cons, List.flatten_nil, List.append_assoc, List.append_nil]
  rw [e1 _ (by omega)]
  simp only [Option.bind_eq_bind, Option.bind_some]
  rw [takeSource_put]
  simp only [Option.bind_some]
  rw [e2 _ (by omega)]
  simp only [Option.bind_some]
  rw [hopt _ _ (by omega)]
  simp only [Option.bind_some]
  rw [hopt _ _ (by omega)]
  simp

/-- C78: a number made by the parser survives both formats. -/
theorem C78_parsed [UnicodeTables] (db : Database) (country : Option Id) (s : Str) (p : PhoneNumber) (h : parseWith db country s = .ok p) :
    Serde.read (Serde.write p) = .ok p ∧ ((putNumber p).length < 2 ^ 64 → takeNumber (putNumber p) = some (p, [])) := by
  obtain ⟨n0, n1, md, n2, h0, hv, h1, post, h2, h3, h4⟩ := parseWith_stages h
  have hc := Serde.prefixCode_lt (finishParse_ok h4).2.2.1
  refine ⟨Serde.C78_round_trip p hc, fun hl => ?_⟩
  have := C78_postcard p hc hl []
  rwa [List.append_nil] at this

/-- A parsed number, its document and its bytes. -/
example [UnicodeTables] : let p : PhoneNumber := ⟨⟨7, .idd⟩, ⟨9123456789⟩, some (str% "5"), none⟩
    parseWith Sample.db (some .US) (str% "011 7 912 345-67-89 ext. 5") = .ok p ∧
    Serde.write p = .map [(str% "code", .map [(str% "value", .num 7), (str% "source", .text (str% "idd"))]),
      (str% "national", .map [(str% "value", .num 9123456789)]), (str% "extension", .text (str% "5")), (str% "carrier", .null)] ∧
    putNumber p = [7, 1, 149, 206, 179, 254, 33, 1, 1, 53, 0] := ⟨by kernel_rfl, by kernel_rfl, by kernel_rfl⟩

/-- Fields in another order, an unknown one, a missing carrier and the parts as lists. -/
example : Serde.read (.map [(str% "national", .list [.num 9123456789]), (str% "note", .other), (str% "extension", .text (str% "5")),
      (str% "code", .list [.num 7, .map [(str% "idd", .null)]])]) = .ok ⟨⟨7, .idd⟩, ⟨9123456789⟩, some (str% "5"), none⟩ := by kernel_rfl

/-- Repeated and missing fields, and values out of range. -/
example : Serde.read (.map [(str% "carrier", .null), (str% "carrier", .null)]) = .err (.duplicateField (str% "carrier")) ∧
    Serde.read (.map [(str% "national", .list [.num 5])]) = .err (.missingField (str% "code")) ∧
    Serde.read (.map [(str% "code", .list [.num 65536, .text (str% "plus")])]) = .err .invalidValue ∧
    Serde.read (.map [(str% "code", .list [.num 1, .text (str% "Plus")])]) = .err (.unknownVariant (str% "Plus")) :=
  ⟨by kernel_rfl, by kernel_rfl, by kernel_rfl, by kernel_rfl⟩

/-- A calling code that the database does not have. -/
example : ∀ m ∈ Sample.territories, m.countryCode ≠ some 999 := by decide

end Postcard
end Phone
