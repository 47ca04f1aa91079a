import Verif.Props.Countries
import Verif.Props.BareBack
/-! # C89: leading zeros and the type of valid numbers -/

namespace Phone
namespace Builtin
variable [UnicodeTables]

/-- The calling codes with valid numbers of unknown type. -/
def untypedCodes : List Nat :=
  [39, 47, 62, 66, 81, 82, 225, 226, 227, 229, 241, 242, 247, 250, 267, 268, 359, 378, 501, 507, 598, 676, 679, 687, 800, 853, 881,
    888, 974, 992]

/-- No number that the descriptors of a territory accept begins with zero. -/
def noZeroCheck (m : Loader.Metadata) : Bool :=
  match m.general.bind patternOf with
  | none => false
  | some g => !clash 17 [some [g], some [Re.lit ['0']]] || (typedOf m).all fun d => match patternOf d with
    | none => false
    | some r => !clash (d.possibleLength.foldl Nat.max 0) [some [g], some [r], some [Re.lit ['0']]]

def noZeroOn (ms : List Loader.Metadata) : Bool :=
  ms.all fun m => m.countryCode == some 91 || untypedCodes.any (fun c => m.countryCode == some c) || noZeroCheck m

omit [UnicodeTables] in
theorem noZero_check1 : noZeroOn ((Data.territories.drop 0).take 50) = true := by kernel_rfl
omit [UnicodeTables] in
theorem noZero_check2 : noZeroOn ((Data.territories.drop 50).take 50) = true := by kernel_rfl
omit [UnicodeTables] in
theorem noZero_check3 : noZeroOn ((Data.territories.drop 100).take 50) = true := by kernel_rfl
omit [UnicodeTables] in
theorem noZero_check4 : noZeroOn ((Data.territories.drop 150).take 50) = true := by kernel_rfl
omit [UnicodeTables] in
theorem noZero_check5 : noZeroOn (Data.territories.drop 200) = true := by kernel_rfl

omit [UnicodeTables] in
theorem noZero_check : noZeroOn Data.territories = true :=
  in_parts noZero_check1 noZero_check2 noZero_check3 noZero_check4 noZero_check5

omit [UnicodeTables] in
theorem noZero_mem {ms : List Loader.Metadata} (h : noZeroOn ms = true) {m : Loader.Metadata} (hm : m ∈ ms) {c : Nat}
    (hc : m.countryCode = some c) (hx : c ≠ 91 ∧ c ∉ untypedCodes) : noZeroCheck m = true := by
  have := List.all_eq_true.1 h m hm
  rw [Bool.or_eq_true, Bool.or_eq_true] at this
  rcases this with (h2 | h2) | h2
  · rw [hc] at h2
    exact absurd (by simpa using h2) hx.1
  · obtain ⟨k, hk, e⟩ := List.any_eq_true.1 h2
    rw [hc] at e
    have : c = k := by simpa using e
    exact absurd (this ▸ hk) hx.2
  · exact h2

/-- What validity means for the territory of a number. -/
theorem valid_entry {ε : Type} {n : PhoneNumber} (hv : isValid (ε := ε) n = .ok true) : ∃ (l : List Metadata) (md : Metadata)
    (m : Loader.Metadata) (d : Descriptor), db.byCode n.code.value = some l ∧ md ∈ l ∧ m ∈ Data.territories ∧ m.countryCode = some n.code.value ∧
      Spec.EntryOf compile m md ∧ Spec.Accepts md.descriptors.general n.national.display ∧ some d ∈ Spec.typed md.descriptors ∧
      Spec.Accepts d n.national.display ∧ n.national.display.length ∈ d.possibleLength := by
  obtain ⟨md, hr, hg, _, ho, d, rfl, ha⟩ := (C63_valid ε compile Data.territories db from_builtin ids_nodup shared n).1 hv
  have hd : Digits n.national.display := digits_display _
  obtain ⟨l, hl, hmd⟩ := region_mem hr
  obtain ⟨m, hm, he, hc⟩ := territory_of_region hl hmd
  obtain ⟨e, he1, he2⟩ := typed_of_entry he ho
  have hlen := List.all_eq_true.1 (validCheck_mem valid_check hm hc).1 e he1
  rw [Bool.and_eq_true, ← he2.possibleLength] at hlen
  have hmem := ha.1.resolve_left (by simpa using hlen.1)
  rw [hd.byteLen, Nat.mod_eq_of_lt (display_length _)] at hmem
  exact ⟨l, md, m, d, hl, hmd, hm, hc, he, hg, ho, ha, hmem⟩

/-- C89: outside the listed calling codes no valid number has leading zeros. -/
theorem C89_zeros {ε : Type} (n : PhoneNumber) (hv : isValid (ε := ε) n = .ok true)
    (hc : n.code.value ∉ [39, 47, 62, 66, 81, 82, 91, 225, 226, 227, 229, 241, 242, 247, 250, 267, 268, 359, 378, 501, 507, 598, 676, 679,
      687, 800, 853, 881, 888, 974, 992]) : n.national.zeros = 0 := by
  obtain ⟨l, md, m, d, hl, hmd, hm, hmc, he, hg, ho, ha, hlen⟩ := valid_entry hv
  have hd : Digits n.national.display := digits_display _
  have hok := noZero_mem noZero_check hm hmc ⟨fun h => by rw [h] at hc; exact hc (by decide), fun h => hc (by
    simp only [untypedCodes, List.mem_cons, List.not_mem_nil, or_false] at h ⊢
    omega)⟩
  obtain ⟨g, hg1, hg2⟩ := he.general
  obtain ⟨e, he1, he2⟩ := typed_of_entry he ho
  simp only [noZeroCheck, hg1, Option.bind_some, patternOf_eq hg2] at hok
  rw [Bool.or_eq_true, Bool.not_eq_true'] at hok
  refine Classical.byContradiction fun hz => ?_
  have hzero : ∃ w q, n.national.display = w ++ q ∧ Lang (Re.lit ['0']) 0 w q := by
    refine lang_prefix ?_
    have : n.national.zeros.toNat ≠ 0 := fun h => hz (UInt8.toNat_inj.1 h)
    obtain ⟨k, hk⟩ := Nat.exists_eq_succ_of_ne_zero this
    exact ⟨List.replicate k '0' ++ decStr n.national.value.toNat, by rw [NationalNumber.display, hk]; rfl⟩
  rcases hok with hok | hok
  · refine clash_false (rs := [md.descriptors.general.nationalNumber.re, Re.lit ['0']]) hd (valid_facts n hv).1.2 hok ?_
    intro r hr
    simp only [List.mem_cons, List.not_mem_nil, or_false] at hr
    rcases hr with rfl | rfl
    · exact hg.2
    · exact hzero
  have hok := List.all_eq_true.1 hok e he1
  rw [patternOf_eq he2] at hok
  simp only [Bool.not_eq_true'] at hok
  rw [he2.possibleLength] at hlen
  refine clash_false (rs := [md.descriptors.general.nationalNumber.re, d.nationalNumber.re, Re.lit ['0']]) hd
    (le_foldl_max (a := 0) (.inl hlen)) hok ?_
  intro r hr
  simp only [List.mem_cons, List.not_mem_nil, or_false] at hr
  rcases hr with rfl | rfl | rfl
  · exact hg.2
  · exact ha.2
  · exact hzero

/-- The check of one number: it is valid, its value is not zero and its type is unknown. -/
def untypedOk (ms : List Loader.Metadata) (w : Nat × Str) : Bool :=
  match Database.from compile (ms.filter (·.countryCode == some w.1)) with
  | .ok d => d.sharedCheck && (match NationalNumber.fromStr w.2 with
    | .ok n => !Nat.beq n.value.toNat 0 && ((match isValidWith (ε := Unit) d ⟨⟨w.1, .plus⟩, n, none, none⟩ with
      | .ok b => b
      | _ => false) && (match PhoneNumber.numberTypeWith (ε := Unit) ⟨⟨w.1, .plus⟩, n, none, none⟩ d with
      | .ok t => decide (t = .unknown)
      | _ => false))
    | _ => false)
  | _ => false

/-- For every such calling code the national digits of a number. -/
def untyped : List (Nat × Str) :=
  [(39, str% "010000"), (47, str% "02000"), (62, str% "00180300000"), (66, str% "0018000000000"), (81, str% "00777000"),
    (82, str% "003080000000"), (225, str% "0100000000"), (226, str% "01000000"), (227, str% "08000000"), (229, str% "0120000000"),
    (241, str% "01000000"), (242, str% "010000000"), (247, str% "010000"), (250, str% "06000000"), (267, str% "0800000000"),
    (268, str% "08000000"), (359, str% "008000000000"), (378, str% "0549800000"), (501, str% "08000000000"),
    (507, str% "00800000000"), (598, str% "000400"), (676, str% "0800000"), (679, str% "08000000000"), (687, str% "050000"),
    (800, str% "00100000"), (853, str% "0800000"), (881, str% "010000000"), (888, str% "01000000000"), (974, str% "00801000000"),
    (992, str% "010000000")]

theorem untyped_check : untyped.all (untypedOk Data.territories) = true := by kernel_rfl

theorem untypedOk_sound {w : Nat × Str} (hok : untypedOk Data.territories w = true) : ∃ n : PhoneNumber, n.code.value = w.1 ∧
    n.national.value ≠ 0 ∧ (∀ ε : Type, isValid (ε := ε) n = .ok true) ∧ ∀ ε : Type, numberType (ε := ε) n = .ok .unknown := by
  have hnd := ids_nodup
  have hfrom := from_builtin
  generalize Data.territories = ms at *
  obtain ⟨f1, f2⟩ := filtered ms hnd w.1
  unfold untypedOk at hok
  generalize hms : ms.filter (·.countryCode == some w.1) = ms' at *
  split at hok
  · rename_i d hd
    rw [Bool.and_eq_true] at hok
    obtain ⟨h1, h2⟩ := hok
    split at h2
    · rename_i n hn
      rw [Bool.and_eq_true, Bool.and_eq_true, Bool.not_eq_true'] at h2
      obtain ⟨h0, h2, h3⟩ := h2
      obtain ⟨_, g1, g2, _⟩ := C76_number compile ms ms' db d hfrom hd hnd f2 shared (shared_of_check h1)
        ⟨⟨w.1, .plus⟩, n, none, none⟩ (by rw [hms]; exact f1)
      refine ⟨⟨⟨w.1, .plus⟩, n, none, none⟩, rfl, ?_, ?_, ?_⟩
      · intro h
        simp only at h
        rw [h] at h0
        cases h0
      · intro ε
        rw [← g1 Unit] at h2
        rw [isValid, C63_valid ε compile ms db hfrom hnd shared, ← C63_valid Unit compile ms db hfrom hnd shared]
        split at h2
        · rename_i b hb
          rw [hb, h2]
        · cases h2
      · intro ε
        rw [← g2 Unit] at h3
        rw [numberType, C63_number_type ε compile ms db hfrom hnd shared, ← C63_number_type Unit compile ms db hfrom hnd shared]
        split at h3
        · rename_i t ht
          rw [ht, of_decide_eq_true h3]
        · cases h3
    · cases h2
  · cases hok

/-- C89: in each of these calling codes some valid number has unknown type; it has leading zeros. -/
theorem C89_unknown (c : Nat) (hc : c ∈ [39, 47, 62, 66, 81, 82, 225, 226, 227, 229, 241, 242, 247, 250, 267, 268, 359, 378, 501, 507, 598,
    676, 679, 687, 800, 853, 881, 888, 974, 992]) : ∃ n : PhoneNumber, n.code.value = c ∧ n.national.value ≠ 0 ∧ n.national.zeros ≠ 0 ∧
      (∀ ε : Type, isValid (ε := ε) n = .ok true) ∧ ∀ ε : Type, numberType (ε := ε) n = .ok .unknown := by
  have e : [39, 47, 62, 66, 81, 82, 225, 226, 227, 229, 241, 242, 247, 250, 267, 268, 359, 378, 501, 507, 598,
    676, 679, 687, 800, 853, 881, 888, 974, 992] = untyped.map (·.1) := by decide
  rw [e] at hc
  obtain ⟨w, hw, rfl⟩ := List.mem_map.1 hc
  obtain ⟨n, h1, h2, h3, h4⟩ := untypedOk_sound (List.all_eq_true.1 untyped_check w hw)
  refine ⟨n, h1, h2, ?_, h3, h4⟩
  intro hz
  have := C22_valid_iff_typed Unit db n hz
  have h3 := h3 Unit
  have h4 := h4 Unit
  rw [isValid] at h3
  rw [numberType] at h4
  rw [h3, h4] at this
  simp at this

/-! Indian numbers with leading zeros are those of a freephone service; without the zeros they have the form of others. -/

/-- `800` and seven digits. -/
def freephoneIndia : Re := .cat (Re.lit ['8', '0', '0']) ((List.replicate 7 (Re.cls ⟨false, [.range '0' '9']⟩)).foldr .cat .eps)

def indiaCheck (ms : List Loader.Metadata) : Bool :=
  match Database.from compile (ms.filter (·.countryCode == some 91)) with
  | .ok d => (match d.byCode 91 with
    | some [md] => decide (md.id = Id.asRef .IN) && (((Spec.typed md.descriptors).all fun o => match o with
        | some e => e.possibleLength.all fun n =>
            covered n ([some [md.descriptors.general.nationalNumber.re], some [e.nationalNumber.re], some [Re.lit ['0']]],
              [.cat (Re.lit ['0', '0', '0']) freephoneIndia])
        | none => true) &&
      (md.descriptors.general.possibleLength.isEmpty && (covered 10 ([some [freephoneIndia]], [md.descriptors.general.nationalNumber.re]) &&
        (match md.descriptors.mobile with
          | some e => e.possibleLength.any (Nat.beq 10) && covered 10 ([some [freephoneIndia]], [e.nationalNumber.re])
          | none => false))))
    | _ => false)
  | _ => false

omit [UnicodeTables] in
theorem india_check : indiaCheck Data.territories = true := by kernel_rfl

omit [UnicodeTables] in
theorem dropZeros (k : Nat) {s : Str} (h : s.head? ≠ some '0') : (List.replicate k '0' ++ s).dropWhile (· == '0') = s := by
  induction k with
  | zero =>
    cases s with
    | nil => rfl
    | cons x s =>
      have : (x == '0') = false := by simpa using h
      simp [this]
  | succ k ih => simpa [List.replicate_succ, List.dropWhile] using ih

theorem india_typed {n : PhoneNumber} (hc : n.code.value = 91) (hv : isValid (ε := Unit) n = .ok true) (hz : n.national.zeros ≠ 0) :
    ∃ md, Spec.RegionOf db 91 (decStr n.national.value.toNat) (some md) ∧ Phone.numberType md (decStr n.national.value.toNat) ≠ .unknown := by
  obtain ⟨l, md, m, d, hl, hmd, hm, hmc, he, hg, ho, ha, hlen⟩ := valid_entry hv
  have hd : Digits n.national.display := digits_display _
  have hok := india_check
  have hnd := ids_nodup
  have hfrom := from_builtin
  rw [hc] at hl
  clear hm hmc he
  generalize Data.territories = ms at *
  obtain ⟨f1, f2⟩ := filtered ms hnd 91
  unfold indiaCheck at hok
  generalize hms : ms.filter (·.countryCode == some 91) = ms' at *
  split at hok
  · rename_i db' hdd
    rw [← byCode_local hfrom hdd (c := 91) (by rw [hms]; exact f1), hl] at hok
    split at hok
    · rename_i x hx
      rw [Option.some.injEq] at hx
      subst hx
      obtain rfl := List.mem_singleton.1 hmd
      simp only [Bool.and_eq_true, decide_eq_true_eq] at hok
      obtain ⟨hid, h1, h2, h3, h4⟩ := hok
      have hcov := List.all_eq_true.1 (List.all_eq_true.1 h1 _ ho) _ hlen
      have hpre : ['0'] <+: n.national.display := by
        have : n.national.zeros.toNat ≠ 0 := fun h => hz (UInt8.toNat_inj.1 h)
        obtain ⟨k, hk⟩ := Nat.exists_eq_succ_of_ne_zero this
        exact ⟨List.replicate k '0' ++ decStr n.national.value.toNat, by rw [NationalNumber.display, hk]; rfl⟩
      obtain ⟨r, hr', hlang⟩ := covered_sound hd hcov (by
        intro r hr
        simp only [List.mem_cons, List.not_mem_nil, or_false] at hr
        rcases hr with rfl | rfl | rfl
        · exact ⟨0, _, List.mem_singleton.2 rfl, hg.2⟩
        · exact ⟨0, _, List.mem_singleton.2 rfl, ha.2⟩
        · exact ⟨0, _, List.mem_singleton.2 rfl, lang_prefix hpre⟩) 0
      rw [List.mem_singleton.1 hr'] at hlang
      obtain ⟨u, v, huv, hu, hlv⟩ := lang_cat.1 hlang
      obtain rfl := lang_lit.1 hu
      obtain ⟨a, b, rfl, ha', hb'⟩ := lang_cat.1 hlv
      obtain rfl := lang_lit.1 ha'
      have hdb : ∀ (k : Nat) (p : Nat) (b : Str), Lang ((List.replicate k (Re.cls ⟨false, [.range '0' '9']⟩)).foldr .cat .eps) p b [] → b.length = k := by
        intro k
        induction k with
        | zero => intro p b h; rw [List.replicate_zero, List.foldr_nil, lang_eps] at h; rw [h]; rfl
        | succ k ih =>
          intro p b h
          rw [List.replicate_succ, List.foldr_cons] at h
          obtain ⟨x, y, rfl, h1, h2⟩ := lang_cat.1 h
          obtain ⟨c, rfl, _⟩ := lang_cls.1 h1
          simp [ih _ _ h2]
      have hlb := hdb 7 _ _ hb'
      have hs : decStr n.national.value.toNat = ['8', '0', '0'] ++ b := by
        have e1 := dropZeros 3 (s := ['8', '0', '0'] ++ b) (by simp)
        rw [show List.replicate 3 '0' = ['0', '0', '0'] from rfl, ← huv, NationalNumber.display] at e1
        by_cases h0 : n.national.value.toNat = 0
        · rw [h0] at e1
          have e2 := dropZeros (n.national.zeros.toNat + 1) (s := []) (by simp)
          rw [List.append_nil, List.replicate_succ'] at e2
          rw [show decStr 0 = ['0'] by rw [decStr_small (by decide)]; rfl, e2] at e1
          cases e1
        · rw [dropZeros _ (decStr_head_ne_zero h0)] at e1
          exact e1
      have hds : Digits (decStr n.national.value.toNat) := digits_decStr _
      have hlen10 : (decStr n.national.value.toNat).length = 10 := by rw [hs]; simp [hlb]
      have hfit : ∀ r ∈ [some [freephoneIndia]], ∃ p, Run.Fits p (decStr n.national.value.toNat) r := by
        intro r hr
        rw [List.mem_singleton.1 hr]
        refine ⟨_, _, List.mem_singleton.2 rfl, ['8', '0', '0'] ++ b, [], by rw [hs]; simp, hlv⟩
      refine ⟨md, .only hl (.inr ⟨.IN, hid⟩), (C23_known_iff md _).2 ⟨⟨?_, ?_⟩, ?_⟩⟩
      · exact .inl (by simpa using h2)
      · obtain ⟨r, hr, hl⟩ := covered_sound hds (by rw [hlen10]; exact h3) hfit 0
        rw [List.mem_singleton.1 hr] at hl
        exact ⟨_, [], by simp, hl⟩
      · split at h4
        · rename_i e hmob
          rw [Bool.and_eq_true] at h4
          obtain ⟨r, hr, hl⟩ := covered_sound hds (by rw [hlen10]; exact h4.2) hfit 0
          rw [List.mem_singleton.1 hr] at hl
          obtain ⟨k, hk, hk2⟩ := List.any_eq_true.1 h4.1
          rw [← Nat.eq_of_beq_eq_true hk2] at hk
          refine ⟨some e, by simp [Spec.typed, Spec.categories, hmob], e, rfl, .inr ?_, _, [], by simp, hl⟩
          rw [hds.byteLen, hlen10]
          exact hk
        · cases h4
    · cases hok
  · cases hok

/-- C89: outside the listed calling codes every valid number has a type. -/
theorem C89_typed {ε : Type} (n : PhoneNumber) (hv : isValid (ε := ε) n = .ok true)
    (hc : n.code.value ∉ [39, 47, 62, 66, 81, 82, 225, 226, 227, 229, 241, 242, 247, 250, 267, 268, 359, 378, 501, 507, 598,
    676, 679, 687, 800, 853, 881, 888, 974, 992]) : ∃ t, numberType (ε := ε) n = .ok t ∧ t ≠ .unknown := by
  obtain ⟨t, ht⟩ := (C54_queries_no_panic ε compile _ db from_builtin shared n).2.1
  refine ⟨t, ht, ?_⟩
  by_cases hz : n.national.zeros = 0
  · have := C22_valid_iff_typed ε db n hz
    rw [isValid] at hv
    rw [hv, ht] at this
    simpa using this
  · by_cases h91 : n.code.value = 91
    · obtain ⟨md, h1, h2⟩ := india_typed h91 (by
        rw [isValid, C63_valid Unit compile _ db from_builtin ids_nodup shared, ← C63_valid ε compile _ db from_builtin ids_nodup shared]
        exact hv) hz
      rw [← h91] at h1
      rcases (C63_number_type ε compile _ db from_builtin ids_nodup shared n t).1 ht with ⟨md', h3, h4⟩ | ⟨h3, _⟩
      · rw [Option.some.inj (h3.unique h1)] at h4
        exact h4 ▸ h2
      · cases h3.unique h1
    · refine absurd (C89_zeros n hv fun h => ?_) hz
      simp only [List.mem_cons, List.not_mem_nil, or_false] at h hc
      omega

def indiaEval (ms : List Loader.Metadata) (n : PhoneNumber) : Bool × Nat × Outcome Unit Bool × Outcome Unit PType × Option PType :=
  match Database.from compile (ms.filter (·.countryCode == some 91)) with
  | .ok d => (d.sharedCheck, n.national.zeros.toNat, isValidWith d n, n.numberTypeWith d,
      (d.byCode 91).bind fun l => l.head?.map fun md => Phone.numberType md n.national.display)
  | _ => (false, 0, .ok false, .ok .unknown, none)

theorem india_eval : indiaEval Data.territories ⟨⟨91, .plus⟩, ⟨216172790113783808⟩, none, none⟩ =
    (true, 3, .ok true, .ok .mobile, some .tollFree) := by kernel_rfl

/-- C89: the Indian freephone number +91 0008000000000 is valid; without its leading zeros it has the form of a mobile number, and that
is the type reported. -/
theorem C89_india : ∃ (n : PhoneNumber) (md : Metadata), n.code.value = 91 ∧ n.national.zeros = 3 ∧ n.national.value = 8000000000 ∧
    db.byId (str% "IN") = some md ∧ Phone.numberType md n.national.display = .tollFree ∧ isValid (ε := Unit) n = .ok true ∧
    numberType (ε := Unit) n = .ok .mobile := by
  have h := india_eval
  have hi := india_check
  have hnd := ids_nodup
  have hfrom := from_builtin
  generalize Data.territories = ms at *
  obtain ⟨f1, f2⟩ := filtered ms hnd 91
  unfold indiaEval at h
  unfold indiaCheck at hi
  generalize hms : ms.filter (·.countryCode == some 91) = ms' at *
  split at h
  · rename_i d hd
    rw [hd] at hi
    simp only [Prod.mk.injEq] at h
    obtain ⟨h1, h2, h3, h4, h5⟩ := h
    have hb := byCode_local hfrom hd (c := 91) (by rw [hms]; exact f1)
    obtain ⟨_, g1, g2, _⟩ := C76_number compile ms ms' db d hfrom hd hnd f2 shared (shared_of_check h1)
      ⟨⟨91, .plus⟩, ⟨216172790113783808⟩, none, none⟩ (by rw [hms]; exact f1)
    simp only at hi
    rw [← hb] at h5 hi
    split at hi
    · rename_i md hl
      rw [Bool.and_eq_true, decide_eq_true_eq] at hi
      rw [hl] at h5
      refine ⟨⟨⟨91, .plus⟩, ⟨216172790113783808⟩, none, none⟩, md, rfl, by decide, by decide, ?_, ?_, ?_, ?_⟩
      · rw [show (str% "IN") = md.id from hi.1.symm]
        exact listed_by_id hfrom hnd hl (by simp) (by rw [hi.1]; exact asRef_ne_world _)
      · simpa using h5
      · rw [isValid, g1]
        exact h3
      · rw [numberType, g2]
        exact h4
    · cases hi
  · simp at h

/-! For which valid numbers the reference country of C82 and C84 accepts the digits. -/

omit [UnicodeTables] in
theorem sole_codes : [62, 66, 81, 82, 91, 225, 226, 227, 229, 241, 242, 247, 250, 267, 268, 359, 378, 501, 507, 598, 676, 679, 687, 800, 853,
    881, 888, 974, 992].all (fun c => match Data.territories.filter (·.countryCode == some c) with
      | [_] => true
      | _ => false) = true := by kernel_rfl

theorem zeros_or_sole {ε : Type} {n : PhoneNumber} (hv : isValid (ε := ε) n = .ok true)
    (h0 : n.code.value = 39 ∨ n.code.value = 47 → n.national.zeros = 0) :
    n.national.zeros = 0 ∨ ∀ l, db.byCode n.code.value = some l → l.length = 1 := by
  by_cases h39 : n.code.value = 39 ∨ n.code.value = 47
  · exact .inl (h0 h39)
  by_cases hc : n.code.value ∈ [62, 66, 81, 82, 91, 225, 226, 227, 229, 241, 242, 247, 250, 267, 268, 359, 378, 501, 507, 598, 676, 679, 687, 800, 853,
    881, 888, 974, 992]
  · right
    intro l hl
    obtain ⟨_, _, m, _, _, _, hm, hmc, _⟩ := valid_entry hv
    exact (byCode_length from_builtin ⟨m, hm, hmc⟩ hl).trans (length_one (List.all_eq_true.1 sole_codes _ hc))
  · left
    refine C89_zeros n hv fun h => hc ?_
    simp only [List.mem_cons, List.not_mem_nil, or_false] at h ⊢
    omega

/-- C82: the national form of a valid number is read back with its country as reference country. In Italy and Norway it must not have
leading zeros, in other calling codes it may. -/
theorem C82_own_country {ε : Type} (n : PhoneNumber) (hv : isValid (ε := ε) n = .ok true) (c : Id) (hc : countryId n = .ok (some c))
    (h0 : n.code.value = 39 ∨ n.code.value = 47 → n.national.zeros = 0) (hz : n.national.value ≠ 0) (hcar : n.carrier = none)
    (hx : n.code.value ∉ [7, 54, 62, 66, 81, 82, 91, 241, 250, 359, 375, 507, 598, 974])
    (hext : ∀ e, n.extension = some e → (e ≠ [] ∧ e.length ≤ 7 ∧ ∀ c ∈ e, isDigit c = true) ∧ n.code.value ≠ 886) :
    ∃ s, format n .national = .ok s ∧ (¬ decStr n.code.value <+: s.filter isDigit →
      ∃ car, parse (some c) s = .ok ⟨⟨n.code.value, .default⟩, n.national, n.extension, car⟩) :=
  C82_valid n hv c hc (zeros_or_sole hv h0) hz hcar hx hext

/-- C84: the digits of a valid number are read as the number in its country if and only if they do not begin with the calling code. In
Italy and Norway it must not have leading zeros, in other calling codes it may. -/
theorem C84_own_country {ε : Type} (n : PhoneNumber) (hv : isValid (ε := ε) n = .ok true) (c : Id) (hc : countryId n = .ok (some c))
    (h0 : n.code.value = 39 ∨ n.code.value = 47 → n.national.zeros = 0) (hz : n.national.value ≠ 0)
    (hx : n.code.value ∉ [7, 55, 62, 66, 81, 82, 91, 250, 359, 370, 375, 507, 598, 974]) (b : Str) (hb : Spec.Plain b)
    (hbd : b.filter isDigit = n.national.display) :
    (∃ q, parse (some c) b = .ok q ∧ q.code.value = n.code.value ∧ q.national = n.national) ↔
      ¬ decStr n.code.value <+: n.national.display :=
  C84_valid n hv c hc (zeros_or_sole hv h0) hz hx b hb hbd

end Builtin
end Phone
