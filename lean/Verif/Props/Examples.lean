import Verif.Props.ValidBack
import Verif.Props.DashesBuiltin
/-! # C83: the example numbers of the shipped metadata -/

namespace Phone

/-- A number described by the description for the type `t` has been given the type `r`: the same, or one that does not tell fixed lines
and mobiles apart. -/
def Spec.OfType (t r : PType) : Prop := r = t ∨ r = .fixedLineOrMobile ∧ (t = .fixedLine ∨ t = .mobile)

namespace Builtin
variable [UnicodeTables]

def ofType (t r : PType) : Bool := decide (r = t) || decide (r = .fixedLineOrMobile) && (decide (t = .fixedLine) || decide (t = .mobile))

omit [UnicodeTables] in
theorem ofType_iff {t r : PType} : ofType t r = true ↔ Spec.OfType t r := by
  simp [ofType, Spec.OfType]

/-- The types for which there are descriptions. -/
def describedTypes : List PType := [.fixedLine, .mobile, .tollFree, .premiumRate, .sharedCost, .personalNumber, .voip, .pager, .uan, .emergency,
  .voicemail, .shortCode, .standardRate, .carrier, .noInternational]

def isSole (l : List Metadata) : Bool :=
  match l with
  | [_] => true
  | _ => false

/-- The check of one example; `sole` says that the territory has its calling code alone. -/
def exampleOk (sole : Bool) (d : Database) (c : Nat) (md : Metadata) (t : PType) (desc : Descriptor) (e : Str) : Bool :=
  (match NationalNumber.fromStr e with
    | .ok n => decide (n.display = e) && !Nat.beq n.value.toNat 0
    | _ => false) &&
  (desc.isMatch e && (ofType t (Phone.numberType md e) && (sole ||
    match sourceFor (ε := Unit) d c e with
    | .ok src => (match src.bind (sourceMeta d) with
      | some md' => ofType t (Phone.numberType md' e)
      | none => false)
    | _ => false)))

/-- The check of the examples of a calling code. -/
def examplesOk (ms : List Loader.Metadata) (c : Nat) : Bool :=
  match Database.from compile (ms.filter (·.countryCode == some c)) with
  | .ok d => d.sharedCheck && (match d.byCode c with
    | some l => l.all fun md => describedTypes.all fun t => match md.descriptors.get t with
      | some desc => match desc.example? with
        | some e => exampleOk (isSole l) d c md t desc e
        | none => true
      | none => true
    | none => true)
  | _ => false

/-- The calling codes. -/
def callingCodes (ms : List Loader.Metadata) : List Nat := distinct Nat.beq (ms.filterMap (·.countryCode))

def codes1 : List Nat :=
  [247, 376, 971, 93, 355, 374, 244, 54, 43, 297, 994, 387, 880, 32, 226, 359, 973, 257, 229, 673, 591, 55, 975, 267, 375, 501,
    243, 236, 242, 41, 225, 682, 56, 237, 86, 57, 506, 53, 238, 599]
def codes2 : List Nat :=
  [61, 357, 420, 49, 253, 45, 213, 593, 372, 20, 291, 34, 251, 358, 679, 500, 691, 298, 33, 241, 995, 594, 233, 350, 299, 220,
    224, 240, 30, 502, 245, 592, 852, 504, 385, 509, 36, 62, 353, 972]
def codes3 : List Nat :=
  [91, 246, 964, 98, 354, 44, 962, 81, 254, 996, 855, 686, 269, 850, 82, 965, 856, 961, 423, 94, 231, 266, 370, 352, 371, 218,
    212, 377, 373, 382, 590, 261, 692, 389, 223, 95, 976, 853, 596, 222]
def codes4 : List Nat :=
  [356, 230, 960, 265, 52, 60, 258, 264, 687, 227, 672, 234, 505, 31, 977, 674, 683, 64, 968, 507, 51, 689, 675, 63, 92, 48, 508,
    970, 351, 680, 595, 974, 40, 381, 7, 250, 966, 677, 248, 249]
def codes5 : List Nat :=
  [46, 65, 386, 47, 421, 232, 378, 221, 252, 597, 211, 239, 503, 963, 268, 290, 235, 228, 66, 992, 690, 670, 993, 216, 676, 90,
    688, 886, 255, 380, 256, 598, 998, 39, 58]
def codes6 : List Nat :=
  [1]
def codes7 : List Nat :=
  [84, 678, 681, 685, 383, 967, 262, 27, 260, 263, 800, 808, 870, 878, 881, 882, 883, 888, 979]

omit [UnicodeTables] in
theorem calling_codes : callingCodes Data.territories = codes1 ++ (codes2 ++ (codes3 ++ (codes4 ++ (codes5 ++ (codes6 ++ codes7))))) := by
  kernel_rfl

theorem examples1 : codes1.all (examplesOk Data.territories) = true := by kernel_rfl
theorem examples2 : codes2.all (examplesOk Data.territories) = true := by kernel_rfl
theorem examples3 : codes3.all (examplesOk Data.territories) = true := by kernel_rfl
theorem examples4 : codes4.all (examplesOk Data.territories) = true := by kernel_rfl
theorem examples5 : codes5.all (examplesOk Data.territories) = true := by kernel_rfl
theorem examples6 : codes6.all (examplesOk Data.territories) = true := by kernel_rfl
theorem examples7 : codes7.all (examplesOk Data.territories) = true := by kernel_rfl

theorem examples_ok : (callingCodes Data.territories).all (examplesOk Data.territories) = true := by
  rw [calling_codes]
  simp only [List.all_append, examples1, examples2, examples3, examples4, examples5, examples6, examples7, Bool.and_self]

omit [UnicodeTables] in
theorem mem_callingCodes {ms : List Loader.Metadata} {m : Loader.Metadata} (hm : m ∈ ms) {c : Nat} (hc : m.countryCode = some c) :
    c ∈ callingCodes ms :=
  mem_distinct (fun _ _ h => Nat.eq_of_beq_eq_true h) (List.mem_filterMap.2 ⟨m, hm, hc⟩)

omit [UnicodeTables] in
theorem mem_describedTypes {t : PType} (h : t ≠ .unknown) (h2 : t ≠ .fixedLineOrMobile) : t ∈ describedTypes := by
  cases t <;> first | exact absurd rfl h | exact absurd rfl h2 | decide

/-- What the check of an example means. -/
theorem example_facts (c : Nat) (l : List Metadata) (hl : db.byCode c = some l) (md : Metadata) (hm : md ∈ l) (t : PType)
    (ht : t ≠ .unknown ∧ t ≠ .fixedLineOrMobile) (desc : Descriptor) (hd : md.descriptors.get t = some desc) (e : Str)
    (he : desc.example? = some e) :
    (∃ n, NationalNumber.fromStr e = .ok n ∧ n.display = e ∧ n.value ≠ 0) ∧ md.descriptors.general.isMatch e = true ∧ desc.isMatch e = true ∧
    Spec.OfType t (Phone.numberType md e) ∧ ∃ md', Spec.RegionOf db c e (some md') ∧ Spec.OfType t (Phone.numberType md' e) := by
  obtain ⟨m, hmm, _, hmc⟩ := territory_of_region hl hm
  have hok := List.all_eq_true.1 examples_ok c (mem_callingCodes hmm hmc)
  have hnd := ids_nodup
  have hfrom := from_builtin
  clear hmm
  generalize Data.territories = ms at *
  obtain ⟨f1, f2⟩ := filtered ms hnd c
  unfold examplesOk at hok
  generalize hms : ms.filter (·.countryCode == some c) = ms' at *
  split at hok
  · rename_i d hd'
    rw [Bool.and_eq_true] at hok
    obtain ⟨h1, h2⟩ := hok
    have hs := shared_of_check h1
    have hb := byCode_local hfrom hd' (c := c) (by rw [hms]; exact f1)
    rw [← hb, hl] at h2
    have h3 := List.all_eq_true.1 (List.all_eq_true.1 h2 md hm) t (mem_describedTypes ht.1 ht.2)
    simp only [hd, he] at h3
    unfold exampleOk at h3
    simp only [Bool.and_eq_true] at h3
    obtain ⟨k1, k3, k4, k5⟩ := h3
    have k4 := ofType_iff.1 k4
    refine ⟨?_, (C26_isMatch_iff _ _).2 ((C23_known_iff md e).1 ?_).1, k3, k4, ?_⟩
    · split at k1
      · rename_i n hn
        rw [Bool.and_eq_true, decide_eq_true_eq, Bool.not_eq_true'] at k1
        refine ⟨n, hn, k1.1, fun h0 => ?_⟩
        rw [h0] at k1
        cases k1.2
      · cases k1
    · rintro h0
      rw [h0] at k4
      rcases k4 with k4 | k4
      · exact ht.1 k4.symm
      · cases k4.1
    · rw [Bool.or_eq_true] at k5
      rcases k5 with k5 | k5
      · have : l = [md] := by
          unfold isSole at k5
          split at k5
          · rw [List.mem_singleton.1 hm]
          · cases k5
        subst this
        refine ⟨md, .only hl ?_, k4⟩
        rcases (good_iff (.inr ⟨c, _, hl, hm⟩)).2.1 with h | h
        · obtain ⟨i, hi⟩ := Option.isSome_iff_exists.1 h
          exact .inr ⟨i, ((C43_id_roundtrip _ i).1 hi).symm⟩
        · exact .inl h
      obtain ⟨src, src', e1, e2, e3⟩ := source_local compile ms ms' db d hfrom hd' hnd f2 shared hs Unit hb e
      obtain ⟨o, g1, g2⟩ := sourceFor_chosen Unit hfrom hnd shared c e
      rw [e1, Outcome.ok.injEq] at g1
      subst g1
      rw [e2] at k5
      simp only at k5
      split at k5
      · rename_i md' hmd'
        rw [e3, hmd'] at g2
        exact ⟨md', g2, ofType_iff.1 k5⟩
      · cases k5
  · cases hok

/-- C83: the example a description of the shipped database gives is a number: national digits that the general description and the
description itself accept, and to which the country gives the type described. -/
theorem C83_accepted (c : Nat) (l : List Metadata) (hl : db.byCode c = some l) (md : Metadata) (hm : md ∈ l) (t : PType)
    (ht : t ≠ .unknown ∧ t ≠ .fixedLineOrMobile) (desc : Descriptor) (hd : md.descriptors.get t = some desc) (e : Str)
    (he : desc.example? = some e) :
    (∃ n : NationalNumber, n.value ≠ 0 ∧ n.display = e) ∧ Spec.Accepts md.descriptors.general e ∧ Spec.Accepts desc e ∧
    Spec.OfType t (Phone.numberType md e) := by
  obtain ⟨⟨n, _, h1, h2⟩, h3, h4, h5, _⟩ := example_facts c l hl md hm t ht desc hd e he
  exact ⟨⟨n, h2, h1⟩, (C26_isMatch_iff _ _).1 h3, (C26_isMatch_iff _ _).1 h4, h5⟩

/-- C83: with the calling code it is a valid number, and if it has no leading zeros the number has the type described. -/
theorem C83_valid {ε : Type} (c : Nat) (l : List Metadata) (hl : db.byCode c = some l) (md : Metadata) (hm : md ∈ l) (t : PType)
    (ht : t ≠ .unknown ∧ t ≠ .fixedLineOrMobile) (desc : Descriptor) (hd : md.descriptors.get t = some desc) (e : Str)
    (he : desc.example? = some e) (n : PhoneNumber) (hc : n.code.value = c) (hn : n.national.display = e) :
    isValid (ε := ε) n = .ok true ∧ (n.national.zeros = 0 → ∃ r, numberType (ε := ε) n = .ok r ∧ Spec.OfType t r) := by
  obtain ⟨_, _, _, _, md', h1, h2⟩ := example_facts c l hl md hm t ht desc hd e he
  have hsrc := fun ε => sourceFor_chosen ε from_builtin ids_nodup shared c e
  constructor
  · obtain ⟨o, g1, g2⟩ := hsrc ε
    rw [isValid, isValidWith, hc, hn, g1, Outcome.bind_ok, g2.unique h1]
    have : Phone.numberType md' e ≠ .unknown := by
      intro h0
      rw [h0] at h2
      rcases h2 with h2 | ⟨h2, _⟩
      · exact ht.1 h2.symm
      · cases h2
    simp [this]
  · intro h0
    have hdisp : decStr n.national.value.toNat = e := by rw [← hn, NationalNumber.display, h0]; rfl
    obtain ⟨o, g1, g2⟩ := hsrc ε
    refine ⟨_, ?_, h2⟩
    rw [numberType, PhoneNumber.numberTypeWith, PhoneNumber.metadata, hc, hdisp, g1]
    simp only [Outcome.bind_ok, Outcome.pure_eq]
    rw [g2.unique h1]

/-- C83: and it is read from its E.164 form, for the calling codes for which all valid numbers are. -/
theorem C83_e164 (c : Nat) (l : List Metadata) (hl : db.byCode c = some l) (md : Metadata) (hm : md ∈ l) (t : PType)
    (ht : t ≠ .unknown ∧ t ≠ .fixedLineOrMobile) (desc : Descriptor) (hd : md.descriptors.get t = some desc) (e : Str)
    (he : desc.example? = some e) (hx : c ∉ [7, 55, 62, 66, 81, 82, 91, 250, 359, 370, 375, 598]) :
    ∃ n : NationalNumber, n.display = e ∧ parse none ('+' :: (decStr c ++ e)) = .ok ⟨⟨c, .plus⟩, n, none, none⟩ := by
  obtain ⟨⟨n, h1, h2⟩, _⟩ := C83_accepted c l hl md hm t ht desc hd e he
  obtain ⟨hv, _⟩ := C83_valid (ε := ParseErr) c l hl md hm t ht desc hd e he ⟨⟨c, .plus⟩, n, none, none⟩ rfl h2
  obtain ⟨s, hs, hp⟩ := C81_e164 ⟨⟨c, .plus⟩, n, none, none⟩ hv h1 hx none (fun _ h => by cases h)
  have := Outcome.ok.inj (hs.symm.trans (e164_text hs))
  subst this
  exact ⟨n, h2, by rw [← h2]; exact hp⟩

/-- The example of an Italian fixed line, and what the territories of its calling code say about it. -/
def italian (ms : List Loader.Metadata) (p : PhoneNumber) : Bool × Option Str × Outcome Unit Bool × Outcome Unit PType :=
  match Database.from compile ms with
  | .ok d => (d.sharedCheck, (d.byCode p.code.value).bind fun l => l.head?.bind fun md => (md.descriptors.get .fixedLine).bind (·.example?),
      isValidWith d p, p.numberTypeWith d)
  | _ => (false, none, .ok false, .ok .mobile)

theorem italian_eval : italian (Data.territories.filter (·.countryCode == some 39)) ⟨⟨39, .plus⟩, ⟨72057594250273614⟩, none, none⟩ =
    (true, some (str% "0212345678"), .ok true, .ok .unknown) := by kernel_rfl

/-- C83: with leading zeros the type is not always that described: the number of the Italian fixed line given as example is valid, but
its type is unknown. -/
theorem C83_zeros : ∃ (l : List Metadata) (md : Metadata) (desc : Descriptor) (n : PhoneNumber), db.byCode 39 = some l ∧ md ∈ l ∧
    md.descriptors.get .fixedLine = some desc ∧ desc.example? = some (str% "0212345678") ∧ n.code.value = 39 ∧
    n.national.display = (str% "0212345678") ∧ isValid (ε := Unit) n = .ok true ∧ numberType (ε := Unit) n = .ok .unknown := by
  have h := italian_eval
  have hnd := ids_nodup
  have hfrom := from_builtin
  generalize Data.territories = ms at *
  obtain ⟨f1, f2⟩ := filtered ms hnd 39
  generalize hms : ms.filter (·.countryCode == some 39) = ms' at *
  unfold italian at h
  split at h
  · rename_i d hd
    simp only [Prod.mk.injEq] at h
    obtain ⟨h1, h2, h3, h4⟩ := h
    obtain ⟨_, n2, n3, _⟩ := C76_number compile ms ms' db d hfrom hd hnd f2 shared (shared_of_check h1)
      ⟨⟨39, .plus⟩, ⟨72057594250273614⟩, none, none⟩ (by rw [hms]; exact f1)
    rw [← byCode_local hfrom hd (c := 39) (by rw [hms]; exact f1)] at h2
    simp only [Option.bind_eq_some_iff] at h2
    obtain ⟨l, hl, md, hmd, desc, hdesc, he⟩ := h2
    exact ⟨l, md, desc, _, hl, List.mem_of_mem_head? hmd, hdesc, he, rfl, by kernel_rfl, (n2 _).trans h3, (n3 _).trans h4⟩
  · cases h

/-- The example of an Italian fixed line meets the hypotheses of the theorems above. -/
example : ∃ n : NationalNumber, n.display = (str% "0212345678") ∧
    parse none ('+' :: (decStr 39 ++ (str% "0212345678"))) = .ok ⟨⟨39, .plus⟩, n, none, none⟩ := by
  obtain ⟨l, md, desc, _, h1, h2, h3, h4, _⟩ := C83_zeros
  exact C83_e164 39 l h1 md h2 .fixedLine (by decide) desc h3 _ h4 (by decide)

end Builtin
end Phone
