import Verif.Regex.Cover
import Verif.Props.ValidBackExceptions
import Verif.Props.Examples
/-! # C87: validity and patterns that match a number only in part -/

namespace Phone

/-- A description that gives numbers a type lists the number of digits, and its pattern matches all the digits. -/
def Spec.Described [UnicodeTables] (md : Metadata) (ds : Str) : Prop :=
  ∃ d, some d ∈ Spec.typed md.descriptors ∧ byteLen ds ∈ d.possibleLength ∧ Lang d.nationalNumber.re 0 ds []

namespace Builtin
variable [UnicodeTables]

/-- The calling codes with valid numbers that no description matches in full. -/
def looseCodes : List Nat :=
  [7, 20, 31, 36, 39, 43, 46, 47, 48, 49, 53, 54, 55, 56, 57, 60, 61, 62, 63, 64, 65, 66, 81, 82, 84, 86, 90, 92, 95, 98, 213,
    230, 231, 241, 243, 250, 252, 263, 264, 352, 353, 354, 358, 359, 372, 375, 376, 377, 381, 382, 383, 385, 387, 420, 421, 423,
    503, 507, 508, 593, 597, 598, 677, 678, 683, 685, 686, 688, 850, 852, 855, 856, 870, 880, 881, 882, 883, 886, 961, 963, 964,
    967, 968, 971, 972, 974, 976]

/-- The lengths as marks. -/
def marks (ls : List Nat) : List Bool := (List.range (ls.foldl Nat.max 0 + 1)).map fun n => ls.any (Nat.beq n)

/-- Every number of listed length that the beginnings of the general pattern and of a type match is matched in full by a type that lists
its length. -/
def fullCheck (m : Loader.Metadata) : Bool :=
  match m.general.bind patternOf with
  | none => false
  | some g =>
    let ps := (typedOf m).filterMap fun d => (patternOf d).map fun r => (d.possibleLength, r)
    ps.all fun d => (d.1.all fun n => Nat.ble n d.2.minLen) || (d.2.plain && tight (marks d.1) false [d.2] || d.1.all fun n =>
      covered n ([some [g], some [d.2]], (ps.filter fun e => e.1.any (Nat.beq n)).map (·.2)))

def fullCheckOn (part : List Loader.Metadata) : Bool :=
  part.all fun m => looseCodes.any (fun c => m.countryCode == some c) || fullCheck m

omit [UnicodeTables] in
theorem full_check1 : fullCheckOn ((Data.territories.drop 0).take 50) = true := by kernel_rfl
omit [UnicodeTables] in
theorem full_check2 : fullCheckOn ((Data.territories.drop 50).take 50) = true := by kernel_rfl
omit [UnicodeTables] in
theorem full_check3 : fullCheckOn ((Data.territories.drop 100).take 50) = true := by kernel_rfl
omit [UnicodeTables] in
theorem full_check4 : fullCheckOn ((Data.territories.drop 150).take 50) = true := by kernel_rfl
omit [UnicodeTables] in
theorem full_check5 : fullCheckOn (Data.territories.drop 200) = true := by kernel_rfl

omit [UnicodeTables] in
theorem full_check : fullCheckOn Data.territories = true :=
  in_parts full_check1 full_check2 full_check3 full_check4 full_check5

omit [UnicodeTables] in
theorem fullCheck_mem {ms : List Loader.Metadata} (h : fullCheckOn ms = true) {m : Loader.Metadata} (hm : m ∈ ms) {c : Nat}
    (hc : m.countryCode = some c) (hx : c ∉ looseCodes) : fullCheck m = true := by
  have := List.all_eq_true.1 h m hm
  rw [Bool.or_eq_true] at this
  rcases this with h2 | h2
  · obtain ⟨k, hk, e⟩ := List.any_eq_true.1 h2
    rw [hc] at e
    have : c = k := by simpa using e
    exact absurd (this ▸ hk) hx
  · exact h2

omit [UnicodeTables] in
/-- The descriptors of a territory that give numbers a type are those loaded for it. -/
theorem entry_of_typed {m : Loader.Metadata} {md : Metadata} (h : Spec.EntryOf compile m md) {e : Loader.Descriptor}
    (he : e ∈ typedOf m) : ∃ d, some d ∈ Spec.typed md.descriptors ∧ Spec.DescriptorOf compile e d := by
  have key : ∀ {a : Option Loader.Descriptor} {b : Option Descriptor}, Spec.OptionRel (Spec.DescriptorOf compile) a b → a = some e →
      ∃ d, some d = b ∧ Spec.DescriptorOf compile e d := by
    intro a b hab ea
    subst ea
    cases hab with
    | some h => exact ⟨_, rfl, h⟩
  simp only [typedOf, List.mem_filterMap, id_eq, exists_eq_right, List.mem_cons, List.not_mem_nil, or_false] at he
  have mem : ∀ {b : Option Descriptor}, b ∈ Spec.typed md.descriptors → ∀ {d}, some d = b → some d ∈ Spec.typed md.descriptors :=
    fun hb _ e => e ▸ hb
  rcases he with he | he | he | he | he | he | he | he | he | he
  · obtain ⟨d, hd, hr⟩ := key h.premiumRate he.symm; exact ⟨d, mem (by simp [Spec.typed, Spec.categories]) hd, hr⟩
  · obtain ⟨d, hd, hr⟩ := key h.tollFree he.symm; exact ⟨d, mem (by simp [Spec.typed, Spec.categories]) hd, hr⟩
  · obtain ⟨d, hd, hr⟩ := key h.sharedCost he.symm; exact ⟨d, mem (by simp [Spec.typed, Spec.categories]) hd, hr⟩
  · obtain ⟨d, hd, hr⟩ := key h.voip he.symm; exact ⟨d, mem (by simp [Spec.typed, Spec.categories]) hd, hr⟩
  · obtain ⟨d, hd, hr⟩ := key h.personalNumber he.symm; exact ⟨d, mem (by simp [Spec.typed, Spec.categories]) hd, hr⟩
  · obtain ⟨d, hd, hr⟩ := key h.pager he.symm; exact ⟨d, mem (by simp [Spec.typed, Spec.categories]) hd, hr⟩
  · obtain ⟨d, hd, hr⟩ := key h.uan he.symm; exact ⟨d, mem (by simp [Spec.typed, Spec.categories]) hd, hr⟩
  · obtain ⟨d, hd, hr⟩ := key h.voicemail he.symm; exact ⟨d, mem (by simp [Spec.typed, Spec.categories]) hd, hr⟩
  · obtain ⟨d, hd, hr⟩ := key h.fixedLine he.symm; exact ⟨d, mem (by simp [Spec.typed, Spec.categories]) hd, hr⟩
  · obtain ⟨d, hd, hr⟩ := key h.mobile he.symm; exact ⟨d, mem (by simp [Spec.typed, Spec.categories]) hd, hr⟩

omit [UnicodeTables] in
theorem marks_get {ls : List Nat} {n : Nat} (h : n ∈ ls) : (marks ls)[n]? = some true := by
  have := le_foldl_max (a := 0) (.inl h)
  rw [marks, List.getElem?_map, List.getElem?_range (by omega), Option.map_some]
  exact congrArg some (List.any_eq_true.2 ⟨n, h, by simp⟩)

/-- Soundness of `fullCheck`. -/
theorem described_of_check {m : Loader.Metadata} {md : Metadata} (h : Spec.EntryOf compile m md) (hc : fullCheck m = true) {ds : Str}
    (hd : ∀ c ∈ ds, isDigit c = true) (hlen : ds.length < 65536) (hg : Spec.Accepts md.descriptors.general ds) {d : Descriptor}
    (ht : some d ∈ Spec.typed md.descriptors) (ha : Spec.Accepts d ds) (hne : d.possibleLength ≠ []) :
    Spec.Described md ds := by
  obtain ⟨g, hg1, hg2⟩ := h.general
  obtain ⟨e, he1, he2⟩ := typed_of_entry h ht
  simp only [fullCheck, hg1, Option.bind_some, patternOf_eq hg2] at hc
  have hl := ha.1.resolve_left hne
  rw [Digits.byteLen hd, Nat.mod_eq_of_lt hlen, he2.possibleLength] at hl
  have := List.all_eq_true.1 hc (e.possibleLength, d.nationalNumber.re)
    (List.mem_filterMap.2 ⟨e, he1, by rw [patternOf_eq he2]; rfl⟩)
  rw [Bool.or_eq_true, Bool.or_eq_true, Bool.and_eq_true] at this
  rcases this with this | ⟨h1, h2⟩ | this
  · obtain ⟨w, q, e, hw⟩ := ha.2
    exact ⟨d, ht, by rw [Digits.byteLen hd, he2.possibleLength]; exact hl,
      lang_short e hw (Nat.le_of_ble_eq_true (List.all_eq_true.1 this _ hl))⟩
  · obtain ⟨r, hr, hlang⟩ := tight_sound hd (marks_get hl) (by simpa using h1) h2 0 (.inr ⟨_, List.mem_singleton.2 rfl, ha.2⟩)
    rw [List.mem_singleton.1 hr] at hlang
    exact ⟨d, ht, by rw [Digits.byteLen hd, he2.possibleLength]; exact hl, hlang⟩
  have := List.all_eq_true.1 this _ hl
  have hfit : ∀ r ∈ [some [md.descriptors.general.nationalNumber.re], some [d.nationalNumber.re]], ∃ p, Run.Fits p ds r := by
    intro r hr
    rcases List.mem_cons.1 hr with rfl | hr
    · exact ⟨0, _, List.mem_singleton.2 rfl, hg.2⟩
    · rw [List.mem_singleton.1 hr]; exact ⟨0, _, List.mem_singleton.2 rfl, ha.2⟩
  obtain ⟨r, hr, hlang⟩ := covered_sound hd this hfit 0
  obtain ⟨x, hx, rfl⟩ := List.mem_map.1 hr
  obtain ⟨hx, hxl⟩ := List.mem_filter.1 hx
  obtain ⟨e', he', hx⟩ := List.mem_filterMap.1 hx
  obtain ⟨d', hd', hr'⟩ := entry_of_typed h he'
  rw [patternOf_eq hr', Option.map_some, Option.some.injEq] at hx
  subst hx
  obtain ⟨k, hk, hkn⟩ := List.any_eq_true.1 hxl
  refine ⟨d', hd', ?_, hlang⟩
  rw [Digits.byteLen hd, hr'.possibleLength, Nat.eq_of_beq_eq_true hkn]
  exact hk

/-- The check of one number: it is valid, but no description of the territories of its calling code matches it in full. -/
def looseOk (ms : List Loader.Metadata) (w : Nat × Str) : Bool :=
  match Database.from compile (ms.filter (·.countryCode == some w.1)) with
  | .ok d => d.sharedCheck && ((match NationalNumber.fromStr w.2 with
      | .ok n => decide (n.display = w.2)
      | _ => false) && ((w.2.all isDigit) &&
    ((match sourceFor (ε := Unit) d w.1 w.2 with
      | .ok src => (match src.bind (sourceMeta d) with
        | some md => Phone.numberType md w.2 != .unknown
        | none => false)
      | _ => false) && (match d.byCode w.1 with
        | some l => l.all fun md => (Spec.typed md.descriptors).all fun o => match o with
          | some e => !e.possibleLength.any (Nat.beq w.2.length) || !whole [e.nationalNumber.re] w.2
          | none => true
        | none => true))))
  | _ => false

/-! For every such calling code a number. -/

def loose1 : List (Nat × Str) :=
  [(7, str% "80000000000000"), (20, str% "300000000"), (31, str% "140100"), (36, str% "400000000"), (39, str% "89200000"),
    (43, str% "11100"), (46, str% "99100000"), (47, str% "02000000"), (48, str% "300000000"), (49, str% "13800000"),
    (53, str% "2100000000"), (54, str% "67500000000"), (55, str% "4000000000"), (56, str% "80000000000"),
    (57, str% "4600000000"), (60, str% "420000000"), (61, str% "13000000"), (62, str% "21140000"), (63, str% "20000000"),
    (64, str% "50000000"), (65, str% "80000000000"), (66, str% "1800000000000")]
def loose2 : List (Nat × Str) :=
  [(81, str% "007770000"), (82, str% "31100000"), (84, str% "19900000"), (86, str% "10123000"), (90, str% "811000000000"),
    (92, str% "211110000000"), (95, str% "2200000"), (98, str% "96010"), (213, str% "100000000"), (230, str% "20000000"),
    (231, str% "460000000"), (241, str% "20000000"), (243, str% "10000000"), (250, str% "060000000"), (252, str% "3500000"),
    (263, str% "140000"), (264, str% "611700000"), (352, str% "201000000"), (353, str% "22000000"), (354, str% "611000000"),
    (358, str% "6010000000"), (359, str% "430000000")]
def loose3 : List (Nat × Str) :=
  [(372, str% "80020000"), (375, str% "80000000000"), (376, str% "300000000"), (377, str% "300000000"),
    (381, str% "6000000000"), (382, str% "800000000"), (383, str% "281000000"), (385, str% "100000000"),
    (387, str% "610000000"), (420, str% "930000000000"), (421, str% "2170000"), (423, str% "730000000"),
    (503, str% "80100000000"), (507, str% "11100000"), (508, str% "200000000"), (593, str% "17000000000"),
    (597, str% "5600000"), (598, str% "40500000"), (677, str% "4800000"), (678, str% "3000000"), (683, str% "5000000"),
    (685, str% "200000")]
def loose4 : List (Nat × Str) :=
  [(686, str% "20000000"), (688, str% "9000000"), (850, str% "2000000000"), (852, str% "90030000000"), (855, str% "100000000"),
    (856, str% "3000000000"), (870, str% "300000000000"), (880, str% "5620000"), (881, str% "0000000001"),
    (882, str% "34200000"), (883, str% "5100000000"), (886, str% "202000000"), (961, str% "10000000"), (963, str% "120000000"),
    (964, str% "100000000"), (967, str% "12000000"), (968, str% "50000000"), (971, str% "4000000000"), (972, str% "1212000000"),
    (974, str% "80000000000"), (976, str% "110000000")]

theorem loose_check1 : loose1.all (looseOk Data.territories) = true := by kernel_rfl
theorem loose_check2 : loose2.all (looseOk Data.territories) = true := by kernel_rfl
theorem loose_check3 : loose3.all (looseOk Data.territories) = true := by kernel_rfl
theorem loose_check4 : loose4.all (looseOk Data.territories) = true := by kernel_rfl

omit [UnicodeTables] in
theorem loose_codes : looseCodes = (loose1 ++ (loose2 ++ (loose3 ++ loose4))).map (·.1) := by decide

theorem looseOk_sound {w : Nat × Str} (hok : looseOk Data.territories w = true) : ∃ n : PhoneNumber, n.code.value = w.1 ∧
    n.national.display = w.2 ∧ (∀ ε : Type, isValid (ε := ε) n = .ok true) ∧
    ∀ l, db.byCode w.1 = some l → ∀ md ∈ l, ¬ Spec.Described md n.national.display := by
  have hnd := ids_nodup
  have hfrom := from_builtin
  generalize Data.territories = ms at *
  obtain ⟨f1, f2⟩ := filtered ms hnd w.1
  unfold looseOk at hok
  generalize hms : ms.filter (·.countryCode == some w.1) = ms' at *
  split at hok
  · rename_i d hd
    simp only [Bool.and_eq_true] at hok
    obtain ⟨h1, h2, h3, h4, h5⟩ := hok
    have hdig : ∀ c ∈ w.2, isDigit c = true := List.all_eq_true.1 h3
    have hb := byCode_local hfrom hd (c := w.1) (by rw [hms]; exact f1)
    split at h2
    · rename_i n hn
      rw [decide_eq_true_eq] at h2
      refine ⟨⟨⟨w.1, .plus⟩, n, none, none⟩, rfl, h2, ?_, ?_⟩
      · intro ε
        obtain ⟨src, src', e1, e2, e3⟩ := source_local compile ms ms' db d hfrom hd hnd f2 shared (shared_of_check h1) ε hb w.2
        obtain ⟨src2, src2', e1', e2', e3'⟩ := source_local compile ms ms' db d hfrom hd hnd f2 shared (shared_of_check h1) Unit hb w.2
        rw [e2'] at h4
        simp only at h4
        split at h4
        · rename_i md hmd
          obtain ⟨o, g1, g2⟩ := sourceFor_chosen ε hfrom hnd shared w.1 w.2
          obtain ⟨o', g1', g2'⟩ := sourceFor_chosen Unit hfrom hnd shared w.1 w.2
          rw [e1', Outcome.ok.injEq] at g1'
          subst g1'
          rw [isValid, isValidWith]
          simp only [h2]
          rw [g1, Outcome.bind_ok, g2.unique g2', e3', hmd]
          simpa using h4
        · cases h4
      · intro l hl md hmd ⟨x, hx, hlen, hlang⟩
        simp only [h2] at hlen hlang
        rw [← hb, hl] at h5
        have := List.all_eq_true.1 (List.all_eq_true.1 h5 md hmd) _ hx
        simp only [Bool.or_eq_true, Bool.not_eq_true'] at this
        rcases this with h6 | h6
        · rw [Digits.byteLen hdig] at hlen
          rw [List.any_eq_false] at h6
          exact h6 _ hlen (by simp)
        · rw [whole_of_lang hdig (List.mem_singleton.2 rfl) hlang] at h6
          cases h6
    · cases h2
  · cases hok

/-- C87: outside the listed calling codes a number is valid just if the general description of its territory accepts it and some type
lists its length and matches all its digits. -/
theorem C87_full {ε : Type} (n : PhoneNumber)
    (hc : n.code.value ∉ [7, 20, 31, 36, 39, 43, 46, 47, 48, 49, 53, 54, 55, 56, 57, 60, 61, 62, 63, 64, 65, 66, 81, 82, 84, 86, 90, 92, 95, 98, 213,
    230, 231, 241, 243, 250, 252, 263, 264, 352, 353, 354, 358, 359, 372, 375, 376, 377, 381, 382, 383, 385, 387, 420, 421, 423,
    503, 507, 508, 593, 597, 598, 677, 678, 683, 685, 686, 688, 850, 852, 855, 856, 870, 880, 881, 882, 883, 886, 961, 963, 964,
    967, 968, 971, 972, 974, 976]) :
    (isValid (ε := ε) n = .ok true ↔ ∃ md, Spec.RegionOf db n.code.value n.national.display (some md) ∧
      Spec.Accepts md.descriptors.general n.national.display ∧ Spec.Described md n.national.display) := by
  have hd : Digits n.national.display := digits_display _
  rw [isValid, C63_valid ε compile Data.territories db from_builtin ids_nodup shared n]
  constructor
  · rintro ⟨md, hr, hg, _, ho, d, rfl, ha⟩
    obtain ⟨l, hl, hmd⟩ := region_mem hr
    obtain ⟨m, hm, he, hmc⟩ := territory_of_region hl hmd
    obtain ⟨e, he1, he2⟩ := typed_of_entry he ho
    have hlen := List.all_eq_true.1 (validCheck_mem valid_check hm hmc).1 e he1
    rw [Bool.and_eq_true, ← he2.possibleLength] at hlen
    exact ⟨md, hr, hg, described_of_check he (fullCheck_mem full_check hm hmc hc) hd (display_length _) hg ho ha (by simpa using hlen.1)⟩
  · rintro ⟨md, hr, hg, d, ho, hlen, hlang⟩
    refine ⟨md, hr, hg, _, ho, d, rfl, .inr ?_, _, [], by simp, hlang⟩
    rw [hd.byteLen] at hlen ⊢
    rw [Nat.mod_eq_of_lt (display_length _)]
    exact hlen

/-- C87: for each of the listed calling codes some number is valid although no type of any territory of the code matches all its digits. -/
theorem C87_loose {c : Nat} (hc : c ∈ [7, 20, 31, 36, 39, 43, 46, 47, 48, 49, 53, 54, 55, 56, 57, 60, 61, 62, 63, 64, 65, 66, 81, 82, 84, 86, 90, 92, 95, 98, 213,
    230, 231, 241, 243, 250, 252, 263, 264, 352, 353, 354, 358, 359, 372, 375, 376, 377, 381, 382, 383, 385, 387, 420, 421, 423,
    503, 507, 508, 593, 597, 598, 677, 678, 683, 685, 686, 688, 850, 852, 855, 856, 870, 880, 881, 882, 883, 886, 961, 963, 964,
    967, 968, 971, 972, 974, 976]) :
    ∃ n : PhoneNumber, n.code.value = c ∧ (∀ ε : Type, isValid (ε := ε) n = .ok true) ∧
      ∀ l, db.byCode c = some l → ∀ md ∈ l, ¬ Spec.Described md n.national.display := by
  change c ∈ looseCodes at hc
  rw [loose_codes, List.mem_map] at hc
  obtain ⟨w, hw, rfl⟩ := hc
  have : looseOk Data.territories w = true := by
    simp only [List.mem_append] at hw
    rcases hw with hw | hw | hw | hw
    · exact List.all_eq_true.1 loose_check1 w hw
    · exact List.all_eq_true.1 loose_check2 w hw
    · exact List.all_eq_true.1 loose_check3 w hw
    · exact List.all_eq_true.1 loose_check4 w hw
  obtain ⟨n, h1, _, h3, h4⟩ := looseOk_sound this
  exact ⟨n, h1, h3, h4⟩

/-- A valid Belgian number and one of Ivory Coast with a leading zero: the codes are not listed. -/
example : ∀ x ∈ wellReadNumbers, x.1 ≠ 54 → ∃ md, Spec.RegionOf db x.1 (⟨x.2⟩ : NationalNumber).display (some md) ∧
    Spec.Described md (⟨x.2⟩ : NationalNumber).display := by
  intro x hx h54
  have hl : ∀ x ∈ wellReadNumbers, x.1 ≠ 54 → x.1 ∉ looseCodes := by decide
  obtain ⟨md, h1, _, h2⟩ := (C87_full _ (hl x hx h54)).1 (wellRead_valid x hx).1
  exact ⟨md, h1, h2⟩

/-- The number +48 300000000 has calling code 48, one of those listed. -/
example : ∃ n : PhoneNumber, n.code.value = 48 ∧ (∀ ε : Type, isValid (ε := ε) n = .ok true) ∧
    ∀ l, db.byCode 48 = some l → ∀ md ∈ l, ¬ Spec.Described md n.national.display := C87_loose (by decide)

/-- C87: in Poland +48 300000000 is valid, although Polish numbers beginning with 30 have seven digits. -/
theorem C87_poland : ∃ n : PhoneNumber, n.code.value = 48 ∧ n.national.display = (str% "300000000") ∧
    (∀ ε : Type, isValid (ε := ε) n = .ok true) ∧ ∀ l, db.byCode 48 = some l → ∀ md ∈ l, ¬ Spec.Described md (str% "300000000") := by
  obtain ⟨n, h1, h2, h3, h4⟩ := looseOk_sound (w := (48, str% "300000000")) (List.all_eq_true.1 loose_check1 _ (by simp [loose1]))
  exact ⟨n, h1, h2, h3, fun l hl md hm h => h4 l hl md hm (by rw [h2]; exact h)⟩

end Builtin
end Phone
