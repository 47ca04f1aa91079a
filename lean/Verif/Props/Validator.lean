import Verif.Spec.Validator
import Verif.Props.Entries
import Verif.Props.Database
import Verif.Props.NationalNumber
import Verif.Props.Parse
/-! # Number types, validity and metadata of a number -/

namespace Phone

/-! ## C43 -/

/-- C43: `Id::from_str` accepts exactly the names of the variants and is the inverse of `as_ref`. -/
theorem C43_id_roundtrip (s : Str) (i : Id) : Id.fromStr s = some i ↔ i.asRef = s := by
  constructor
  · intro h
    have := List.find?_some h
    simpa using this
  · rintro rfl
    cases i <;> kernel_rfl

/-- C43: the names are two capital ASCII letters and distinct. -/
theorem C43_names (i j : Id) : (∃ a b : Char, i.asRef = [a, b] ∧ 'A' ≤ a ∧ a ≤ 'Z' ∧ 'A' ≤ b ∧ b ≤ 'Z') ∧ (i.asRef = j.asRef → i = j) := by
  constructor
  · cases i <;> exact ⟨_, _, rfl, by decide, by decide, by decide, by decide⟩
  · intro h
    have hi := (C43_id_roundtrip i.asRef i).2 rfl
    have hj := (C43_id_roundtrip i.asRef j).2 h.symm
    rw [hi] at hj
    exact Option.some.inj hj

example : Id.fromStr (str% "DE") = some .DE ∧ Id.fromStr (str% "de") = none ∧ Id.fromStr (str% "001") = none := by decide

theorem asRef_ne_world (i : Id) : i.asRef ≠ worldId := by
  obtain ⟨a, b, h, _⟩ := (C43_names i i).1
  rw [h]
  intro h'
  have := congrArg List.length h'
  simp [worldId] at this

/-! ## C24 -/

/-- C24. -/
theorem C24_partition (v : Validation) : (v.possible = true ↔ v.invalid = false) ∧ (v.badLength = true → v.invalid = true) ∧
    (v.invalid = true ↔ v.badLength = true ∨ v = .invalidCountryCode) := by
  cases v <;> decide

/-! ## C52 -/

/-- The comparisons of `length`, once the lists are chosen. -/
theorem judged {ps ls : List Nat} {n : Nat} : ps.Pairwise (· ≤ ·) → Spec.LengthIs ps ls n
    (match ps with
      | [] => .invalidLength
      | minimum :: more =>
        if n ∈ ls then .isPossibleLocalOnly
        else if n = minimum then .isPossible
        else if n < minimum then .tooShort
        else if n > (minimum :: more).getLast (by simp) then .tooLong
        else if n ∈ ps then .isPossible
        else .invalidLength) := by
  intro h
  cases ps with
  | nil => exact .nothing rfl
  | cons a as =>
    rw [List.pairwise_cons] at h
    have hlast : ∀ k ∈ a :: as, k ≤ (a :: as).getLast (by simp) := by
      obtain ⟨h1, h2⟩ := h
      induction as generalizing a with
      | nil => simp
      | cons b bs ih =>
        rw [List.pairwise_cons] at h2
        have ihb := ih b h2.1 h2.2
        rw [List.getLast_cons (by simp)]
        intro k hk
        rcases List.mem_cons.1 hk with rfl | hk
        · exact Nat.le_trans (h1 b (by simp)) (ihb b (by simp))
        · exact ihb k hk
    have hmem := List.getLast_mem (l := a :: as) (by simp)
    have hfirst : ∀ k ∈ a :: as, a ≤ k := by
      intro k hk
      rcases List.mem_cons.1 hk with rfl | hk
      · exact Nat.le_refl _
      · exact h.1 k hk
    simp only
    split
    · exact .loc (by simp) ‹_›
    split
    · exact .listed ‹_› (by simp [*])
    split
    · exact .short (by simp) ‹_› fun k hk => Nat.lt_of_lt_of_le ‹_› (hfirst k hk)
    split
    · exact .long (by simp) ‹_› fun k hk => Nat.lt_of_le_of_lt (hlast k hk) ‹_›
    split
    · exact .listed ‹_› ‹_›
    · rename_i hl h1 h2 h3 h4
      refine .between hl h4 ⟨a, by simp, by omega⟩ ⟨_, hmem, ?_⟩
      rcases Nat.lt_or_ge n ((a :: as).getLast (by simp)) with h | h
      · exact h
      · exfalso
        apply h4
        rw [show n = (a :: as).getLast (by simp) by omega]
        exact hmem

theorem Spec.Describes.get {d : Descriptors} {kind : PType} {o : Option Descriptor} (h : Spec.Describes d kind o) :
    d.get kind = o := by
  cases h <;> rfl

/-- C52: every kind of number has its place in the table. -/
theorem C52_described (d : Descriptors) (kind : PType) : ∃ o, Spec.Describes d kind o := by
  cases kind <;> exact ⟨_, by constructor⟩

/-- C52: for the general descriptor with ascending lengths, `length` judges the digit count against its lengths. -/
theorem C52_length (md : Metadata) (national : Str) (h : md.descriptors.general.possibleLength.Pairwise (· ≤ ·)) :
    Spec.LengthIs md.descriptors.general.possibleLength md.descriptors.general.possibleLocalLength (byteLen national % 65536)
      (length md national .unknown) := by
  have hsel : ∀ l : List Nat, (if l = [] then l else l) = l := fun l => by split <;> rfl
  have hget : md.descriptors.get .unknown = some md.descriptors.general := rfl
  unfold length
  rw [hget]
  simp only [hsel]
  exact judged h

/-- C52: `length` for any kind of number. A kind that is not described, or is described without lengths, has no valid length. For
any other the digit count is judged against the lengths of the region in general (not those of the kind) and against the local
lengths of the kind. -/
theorem C52_kind (md : Metadata) (kind : PType) (o : Option Descriptor) (national : Str)
    (ho : Spec.Describes md.descriptors kind o) (h : md.descriptors.general.possibleLength.Pairwise (· ≤ ·)) :
    (o = none → length md national kind = .invalidLength) ∧
    ∀ d, o = some d → (d.possibleLength = [] → length md national kind = .invalidLength) ∧
      (d.possibleLength ≠ [] → Spec.LengthIs md.descriptors.general.possibleLength d.possibleLocalLength (byteLen national % 65536)
        (length md national kind)) := by
  unfold length
  rw [ho.get]
  refine ⟨fun h' => by rw [h'], ?_⟩
  rintro d rfl
  refine ⟨fun h' => by simp [h'], fun h' => ?_⟩
  simp only [if_neg h']
  exact judged h

theorem length_tooShort {md : Metadata} {v : Str} : length md v .unknown = .tooShort ↔
    Spec.TooFew md.descriptors.general.possibleLength md.descriptors.general.possibleLocalLength v := by
  have hsel : ∀ l : List Nat, (if l = [] then l else l) = l := fun l => by split <;> rfl
  have hget : md.descriptors.get .unknown = some md.descriptors.general := rfl
  unfold length Spec.TooFew
  rw [hget]
  simp only [hsel]
  generalize md.descriptors.general.possibleLength = ps
  cases ps with
  | nil => simp
  | cons a as =>
    simp only
    grind

theorem length_possible {md : Metadata} {v : Str} : (length md v .unknown).possible = true ↔
    Spec.PossibleCount md.descriptors.general.possibleLength md.descriptors.general.possibleLocalLength v := by
  have hsel : ∀ l : List Nat, (if l = [] then l else l) = l := fun l => by split <;> rfl
  have hget : md.descriptors.get .unknown = some md.descriptors.general := rfl
  unfold length Spec.PossibleCount
  rw [hget]
  simp only [hsel]
  generalize md.descriptors.general.possibleLength = ps
  cases ps with
  | nil => simp [Validation.possible]
  | cons a as =>
    simp only [List.head?_cons, List.getLast?_eq_some_getLast (l := a :: as) (by simp), Option.some.injEq]
    generalize (a :: as).getLast _ = l
    grind [Validation.possible]

/-- The judgement is unambiguous for ascending lists. -/
theorem Spec.LengthIs.unique {ps ls : List Nat} {n : Nat} {v w : Validation} (hv : Spec.LengthIs ps ls n v)
    (hw : Spec.LengthIs ps ls n w) : v = w := by
  have hne : ps ≠ [] → ∃ k, k ∈ ps := List.exists_mem_of_ne_nil ps
  cases hv <;> cases hw <;> first
    | rfl
    | contradiction
    | grind

/-- A metadata record with lengths 7, 9 and 10 and local length 6. -/
private def lengthSample : Metadata :=
  { descriptors :=
      { general := ⟨⟨[], .eps, 0⟩, [7, 9, 10], [6], none⟩, fixedLine := some ⟨⟨[], .eps, 0⟩, [8], [], none⟩,
        mobile := some ⟨⟨[], .eps, 0⟩, [], [], none⟩, tollFree := none, premiumRate := none,
        sharedCost := none, personalNumber := none, voip := none, pager := none, uan := none, emergency := none, voicemail := none,
        shortCode := none, standardRate := none, carrier := none, noInternational := none },
    id := [], countryCode := 1, internationalPrefix := none, preferredInternationalPrefix := none, nationalPrefix := none,
    preferredExtensionPrefix := none, nationalPrefixForParsing := none, nationalPrefixTransformRule := none, formats := [],
    internationalFormats := [], mainCountryForCode := false, leadingDigits := none, mobileNumberPortable := false }

/-- The hypothesis of `C52_length` is met, and every judgement but `InvalidCountryCode` occurs. -/
example : lengthSample.descriptors.general.possibleLength.Pairwise (· ≤ ·) ∧
    length lengthSample (str% "12345") .unknown = .tooShort ∧ length lengthSample (str% "123456") .unknown = .isPossibleLocalOnly ∧
    length lengthSample (str% "1234567") .unknown = .isPossible ∧ length lengthSample (str% "12345678") .unknown = .invalidLength ∧
    length lengthSample (str% "1234567890") .unknown = .isPossible ∧
    length lengthSample (str% "12345678901") .unknown = .tooLong := by decide

/-- C52: for a special kind the listed lengths of that kind are not used: if it lists none, or the region lists none in general,
every length is judged invalid, and otherwise those of the region are used. -/
theorem C52_kind_ignored (md : Metadata) (kind : PType) (national : Str) (d : Descriptor) (hd : md.descriptors.get kind = some d) :
    (d.possibleLength = [] ∨ md.descriptors.general.possibleLength = [] → length md national kind = .invalidLength) ∧
    (d.possibleLength ≠ [] → d.possibleLocalLength = md.descriptors.general.possibleLocalLength →
      length md national kind = length md national .unknown) := by
  unfold length
  rw [hd]
  constructor
  · rintro (h | h)
    · simp [h]
    · by_cases h' : d.possibleLength = [] <;> simp [h, h']
  · intro h h'
    have hg : md.descriptors.get .unknown = some md.descriptors.general := rfl
    simp only [hg, if_neg h, h']
    have hsel : ∀ l : List Nat, (if l = [] then l else l) = l := fun l => by split <;> rfl
    simp only [hsel]

/-- Eight digits are a listed length of fixed lines here, yet they are judged invalid. -/
example : length lengthSample (str% "12345678") .fixedLine = .invalidLength ∧
    length lengthSample (str% "1234567") .mobile = .invalidLength := by decide

/-- Numbers that may be fixed lines or mobiles are judged as fixed lines, which have no local length here. -/
example : Spec.Describes lengthSample.descriptors .fixedLineOrMobile lengthSample.descriptors.fixedLine ∧
    lengthSample.descriptors.fixedLine.isSome = true ∧
    length lengthSample (str% "123456") .fixedLineOrMobile = .tooShort ∧
    length lengthSample (str% "1234567") .fixedLineOrMobile = .isPossible := ⟨.fixedLineOrMobile, by decide⟩

variable [UnicodeTables]

/-! ## C26 -/

/-- C26: a descriptor matches exactly the values of a listed length (if any is listed) that begin with a word of the pattern. -/
theorem C26_isMatch_iff (d : Descriptor) (v : Str) : d.isMatch v = true ↔ Spec.Accepts d v := by
  have hf : ((d.nationalNumber.find v).map fun m => decide (m.start = 0)).getD false = true ↔
      ∃ w q, v = w ++ q ∧ Lang d.nationalNumber.re 0 w q := by
    have := find_at_start_iff (r := d.nationalNumber) (s := v)
    rw [show (∃ w q, v = w ++ q ∧ Lang d.nationalNumber.re 0 w q) ↔ MatchesAt d.nationalNumber.re [] v from Iff.rfl, ← this]
    cases d.nationalNumber.find v with
    | none => simp
    | some m => simp [Match.start_eq_zero]
  unfold Descriptor.isMatch Spec.Accepts
  by_cases h : d.possibleLength ≠ [] ∧ (byteLen v % 65536) ∉ d.possibleLength
  · rw [if_pos h]
    simp only [Bool.false_eq_true, false_iff]
    rintro ⟨h1 | h1, _⟩
    · exact h.1 h1
    · exact h.2 h1
  · rw [if_neg h, hf]
    constructor
    · intro h'
      refine ⟨?_, h'⟩
      by_cases h0 : d.possibleLength = []
      · exact .inl h0
      · by_cases h1 : byteLen v % 65536 ∈ d.possibleLength
        · exact .inr h1
        · exact absurd ⟨h0, h1⟩ h
    · exact fun h' => h'.2

/-- The freephone descriptor covers eight digits and nothing else; with no listed length a longer value is covered too. -/
example : ∃ re, Sample.compile (str% "(?:00|[1-9]\\d)\\d{6}") = some re ∧
    Descriptor.isMatch ⟨re, [8], [], none⟩ (str% "00123456") = true ∧ Descriptor.isMatch ⟨re, [8], [], none⟩ (str% "001234567") = false ∧
    Descriptor.isMatch ⟨re, [], [], none⟩ (str% "001234567") = true ∧ Descriptor.isMatch ⟨re, [], [], none⟩ (str% "01234567") = false :=
  ⟨_, rfl, by kernel_rfl, by kernel_rfl, by kernel_rfl, by kernel_rfl⟩

theorem descMatch_iff {o : Option Descriptor} {v : Str} : descMatch o v = true ↔ Spec.AcceptsOpt o v := by
  cases o with
  | none => simp [descMatch, Spec.AcceptsOpt]
  | some d => simp [descMatch, Spec.AcceptsOpt, C26_isMatch_iff]

/-! ## C23 -/

omit [UnicodeTables] in
theorem samePattern_iff {d : Descriptors} (h : d.fixedLine.isSome) :
    d.fixedLine.map (·.nationalNumber.src) = d.mobile.map (·.nationalNumber.src) ↔ Spec.SamePattern d := by
  obtain ⟨f, hf⟩ := Option.isSome_iff_exists.1 h
  cases hm : d.mobile with
  | none => simp [hf, Spec.SamePattern, hm]
  | some m => simp [hf, hm, Spec.SamePattern]

theorem numberType_eq (md : Metadata) (v : Str) : numberType md v =
    if md.descriptors.general.isMatch v = true then
      match (Spec.categories md.descriptors).find? (fun p => descMatch p.2 v) with
      | some p => p.1
      | none =>
        if descMatch md.descriptors.fixedLine v then
          if md.descriptors.fixedLine.map (·.nationalNumber.src) = md.descriptors.mobile.map (·.nationalNumber.src) then .fixedLineOrMobile
          else if descMatch md.descriptors.mobile v then .fixedLineOrMobile
          else .fixedLine
        else if descMatch md.descriptors.mobile v then .mobile
        else .unknown
    else .unknown := by
  unfold numberType
  simp only [Spec.categories, List.find?_cons, List.find?_nil]
  cases md.descriptors.general.isMatch v
  · rfl
  cases descMatch md.descriptors.premiumRate v
  · cases descMatch md.descriptors.tollFree v
    · cases descMatch md.descriptors.sharedCost v
      · cases descMatch md.descriptors.voip v
        · cases descMatch md.descriptors.personalNumber v
          · cases descMatch md.descriptors.pager v
            · cases descMatch md.descriptors.uan v
              · cases descMatch md.descriptors.voicemail v <;> rfl
              · rfl
            · rfl
          · rfl
        · rfl
      · rfl
    · rfl
  · rfl

/-- C23: the type is the first category in the fixed order that covers the number, then fixed line or mobile. -/
theorem C23_first_category (md : Metadata) (v : Str) :
    (¬ Spec.Accepts md.descriptors.general v → numberType md v = .unknown) ∧
    (Spec.Accepts md.descriptors.general v →
      (∀ before t o after, Spec.categories md.descriptors = before ++ (t, o) :: after → Spec.AcceptsOpt o v →
        (∀ p ∈ before, ¬ Spec.AcceptsOpt p.2 v) → numberType md v = t) ∧
      ((∀ p ∈ Spec.categories md.descriptors, ¬ Spec.AcceptsOpt p.2 v) →
        (Spec.AcceptsOpt md.descriptors.fixedLine v → Spec.SamePattern md.descriptors ∨ Spec.AcceptsOpt md.descriptors.mobile v →
          numberType md v = .fixedLineOrMobile) ∧
        (Spec.AcceptsOpt md.descriptors.fixedLine v → ¬ Spec.SamePattern md.descriptors → ¬ Spec.AcceptsOpt md.descriptors.mobile v →
          numberType md v = .fixedLine) ∧
        (¬ Spec.AcceptsOpt md.descriptors.fixedLine v → Spec.AcceptsOpt md.descriptors.mobile v → numberType md v = .mobile) ∧
        (¬ Spec.AcceptsOpt md.descriptors.fixedLine v → ¬ Spec.AcceptsOpt md.descriptors.mobile v → numberType md v = .unknown))) := by
  rw [numberType_eq]
  refine ⟨fun h => if_neg (by rwa [C26_isMatch_iff]), fun h => ?_⟩
  rw [if_pos ((C26_isMatch_iff _ _).2 h)]
  refine ⟨?_, ?_⟩
  · intro before t o after hc ho hb
    have : (Spec.categories md.descriptors).find? (fun p => descMatch p.2 v) = some (t, o) := by
      rw [List.find?_eq_some_iff_append]
      exact ⟨descMatch_iff.2 ho, before, after, hc, fun p hp => by simpa [← descMatch_iff] using hb p hp⟩
    rw [this]
  · intro hn
    have : (Spec.categories md.descriptors).find? (fun p => descMatch p.2 v) = none := by
      rw [List.find?_eq_none]
      intro p hp
      rw [descMatch_iff]
      exact hn p hp
    rw [this]
    simp only
    refine ⟨?_, ?_, ?_, ?_⟩
    · intro hf hm
      have hs : md.descriptors.fixedLine.isSome := by obtain ⟨d, hd, _⟩ := hf; simp [hd]
      rw [if_pos (descMatch_iff.2 hf)]
      split
      · rfl
      · rename_i h'
        rw [samePattern_iff hs] at h'
        rw [if_pos (descMatch_iff.2 (hm.resolve_left h'))]
    · intro hf hp hm
      have hs : md.descriptors.fixedLine.isSome := by obtain ⟨d, hd, _⟩ := hf; simp [hd]
      rw [if_pos (descMatch_iff.2 hf), if_neg (by rwa [samePattern_iff hs]), if_neg (by rwa [descMatch_iff])]
    · intro hf hm
      rw [if_neg (by rwa [descMatch_iff]), if_pos (by rwa [descMatch_iff])]
    · intro hf hm
      rw [if_neg (by rwa [descMatch_iff]), if_neg (by rwa [descMatch_iff])]

/-- C23: the types that have a descriptor but are never reported. -/
theorem C23_never (md : Metadata) (v : Str) :
    numberType md v ∉ [PType.emergency, .shortCode, .standardRate, .carrier, .noInternational] := by
  rw [numberType_eq]
  split
  · split
    · rename_i p hp
      have hm := List.mem_of_find?_eq_some hp
      simp only [Spec.categories, List.mem_cons, List.not_mem_nil, or_false] at hm
      rcases hm with rfl | rfl | rfl | rfl | rfl | rfl | rfl | rfl <;> simp
    · split
      · split
        · decide
        · split <;> decide
      · split <;> decide
  · decide

/-- C23: a number has a type exactly if the general descriptor and one of the typed ones cover it. -/
theorem C23_known_iff (md : Metadata) (v : Str) :
    numberType md v ≠ .unknown ↔
      Spec.Accepts md.descriptors.general v ∧ ∃ o ∈ Spec.typed md.descriptors, Spec.AcceptsOpt o v := by
  rw [numberType_eq]
  by_cases hg : md.descriptors.general.isMatch v = true
  · rw [if_pos hg]
    rw [C26_isMatch_iff] at hg
    cases hf : (Spec.categories md.descriptors).find? (fun p => descMatch p.2 v) with
    | some p =>
      have hm := List.mem_of_find?_eq_some hf
      have ha := List.find?_some hf
      rw [descMatch_iff] at ha
      have hu : p.1 ≠ .unknown := by
        simp only [Spec.categories, List.mem_cons, List.not_mem_nil, or_false] at hm
        rcases hm with rfl | rfl | rfl | rfl | rfl | rfl | rfl | rfl <;> simp
      exact ⟨fun _ => ⟨hg, p.2, by simp only [Spec.typed, List.mem_append, List.mem_map]; exact .inl ⟨p, hm, rfl⟩, ha⟩, fun _ => hu⟩
    | none =>
      have hn : ∀ p ∈ Spec.categories md.descriptors, ¬ Spec.AcceptsOpt p.2 v := by
        rw [List.find?_eq_none] at hf
        intro p hp
        rw [← descMatch_iff]
        exact hf p hp
      have ht : (∃ o ∈ Spec.typed md.descriptors, Spec.AcceptsOpt o v) ↔
          Spec.AcceptsOpt md.descriptors.fixedLine v ∨ Spec.AcceptsOpt md.descriptors.mobile v := by
        simp only [Spec.typed, List.mem_append, List.mem_map, List.mem_cons, List.not_mem_nil, or_false]
        constructor
        · rintro ⟨o, (⟨p, hp, rfl⟩ | rfl | rfl), ho⟩
          · exact absurd ho (hn p hp)
          · exact .inl ho
          · exact .inr ho
        · rintro (h | h)
          · exact ⟨_, .inr (.inl rfl), h⟩
          · exact ⟨_, .inr (.inr rfl), h⟩
      rw [ht, ← descMatch_iff, ← descMatch_iff]
      simp only [hg, true_and]
      cases descMatch md.descriptors.fixedLine v <;> cases descMatch md.descriptors.mobile v <;> simp
      split <;> simp
  · rw [if_neg hg]
    rw [C26_isMatch_iff] at hg
    simp [hg]

/-- Toll free wins over fixed line; the same pattern for fixed line and mobile gives `FixedLineOrMobile`. -/
example : ((Sample.db.byId (str% "US")).map fun md => (numberType md (str% "8002345678"), numberType md (str% "6502530000"), numberType md (str% "1234567890"))) =
    some (.tollFree, .fixedLine, .unknown) ∧
    ((Sample.db.byId (str% "CA")).map fun md => numberType md (str% "2042345678")) = some .fixedLineOrMobile :=
  ⟨by kernel_rfl, by kernel_rfl⟩

/-! ## C21, C22, C25, C53 -/

theorem sourceLoop_some {ε : Type} {db : Database} {v : Str} {rs : List Str} {src : Id ⊕ Nat}
    (h : sourceLoop (ε := ε) db v rs = .ok (some src)) :
    ∃ before r after md id, rs = before ++ r :: after ∧ db.byId r = some md ∧ regionHit md v = true ∧ id.asRef = r ∧ src = .inl id ∧
      ∀ r' ∈ before, ∃ md', db.byId r' = some md' ∧ regionHit md' v = false := by
  induction rs with
  | nil => simp [sourceLoop] at h
  | cons r rs ih =>
    simp only [sourceLoop] at h
    cases hb : db.byId r with
    | none => rw [hb] at h; simp at h
    | some md =>
      rw [hb] at h
      simp only [Outcome.unwrap_some, Outcome.bind_ok] at h
      cases hh : regionHit md v with
      | true =>
        rw [hh, if_pos rfl] at h
        cases hi : Id.fromStr r with
        | none => rw [hi] at h; simp at h
        | some id =>
          rw [hi] at h
          simp only [Outcome.unwrap_some, Outcome.bind_ok, Outcome.pure_eq, Outcome.ok.injEq, Option.some.injEq] at h
          exact ⟨[], r, rs, md, id, rfl, hb, hh, (C43_id_roundtrip _ _).1 hi, h.symm, by simp⟩
      | false =>
        rw [hh, if_neg (by simp)] at h
        obtain ⟨before, r', after, md', id, h1, h2, h3, h4, h5, h6⟩ := ih h
        refine ⟨r :: before, r', after, md', id, by rw [h1]; rfl, h2, h3, h4, h5, ?_⟩
        intro x hx
        rcases List.mem_cons.1 hx with rfl | hx
        · exact ⟨md, hb, hh⟩
        · exact h6 x hx

/-- What a source found by `source_for` is. -/
theorem sourceFor_some {ε : Type} {compile : Str → Option Regex} {ms : List Loader.Metadata} {db : Database}
    (hdb : Database.from compile ms = .ok db) {code : Nat} {v : Str} {src : Id ⊕ Nat} {md : Metadata}
    (h : sourceFor (ε := ε) db code v = .ok (some src)) (hm : sourceMeta db src = some md) :
    ∃ l, db.byCode code = some l ∧ Spec.Entry db md ∧
      ((∃ m ∈ l, m.id = md.id) ∧ (md ∈ l ∨ md.id ≠ worldId ∧ db.byId md.id = some md)) ∧ (l.length ≠ 1 → regionHit md v = true) := by
  obtain ⟨mds, hmap, hid, hcode, hlist, hreg⟩ := C27_indexes ms db hdb
  obtain ⟨_, _, hbyid⟩ := C27_iter ms db hdb
  unfold sourceFor at h
  cases hr : db.region code with
  | none => rw [hr] at h; simp at h
  | some rs =>
    rw [hr] at h
    have hc : (db.byCode code).isSome := by rw [← hreg]; simp [hr]
    obtain ⟨hl1, hl2⟩ := hlist code ((hcode code).1 hc)
    rw [hr, Option.some.injEq] at hl2
    generalize hl : Spec.listed (·.mainCountryForCode) (mds.filter (·.countryCode == code)) = l at hl1 hl2
    refine ⟨l, hl1, ?_⟩
    have loop : sourceLoop (ε := ε) db v rs = .ok (some src) → rs.length ≠ 1 →
        Spec.Entry db md ∧ ((∃ m ∈ l, m.id = md.id) ∧ (md ∈ l ∨ md.id ≠ worldId ∧ db.byId md.id = some md)) ∧
        (l.length ≠ 1 → regionHit md v = true) := by
      intro h hlen
      obtain ⟨before, r, after, md', id, h1, h2, h3, h4, rfl, _⟩ := sourceLoop_some h
      simp only [sourceMeta, h4] at hm
      rw [h2, Option.some.injEq] at hm
      subst hm
      have hmid : md'.id = r := hbyid r md' h2
      have hmem : r ∈ rs := by rw [h1]; simp
      rw [hl2, List.mem_map] at hmem
      refine ⟨.inl ⟨r, h2⟩, ⟨by rw [hmid]; exact hmem, .inr ⟨?_, by rw [hmid]; exact h2⟩⟩, fun _ => h3⟩
      rw [hmid, ← h4]
      intro hw
      exact asRef_ne_world id hw
    match rs, h, hl2, loop with
    | [], h, _, loop => exact loop h (by simp)
    | [r], h, hl2, _ =>
      have hlen : l.length = 1 := by simpa using (congrArg List.length hl2).symm
      simp only at h
      split at h
      · cases h
        simp only [sourceMeta, hl1, Option.bind_some] at hm
        have hmem := List.mem_of_head? hm
        exact ⟨.inr ⟨code, l, hl1, hmem⟩, ⟨⟨md, hmem, rfl⟩, .inl hmem⟩, fun h => absurd hlen h⟩
      · rename_i hw
        cases hi : Id.fromStr r with
        | none => rw [hi] at h; simp at h
        | some id =>
          rw [hi] at h
          simp only [Option.map_some, Outcome.ok.injEq, Option.some.injEq] at h
          subst h
          have ha := (C43_id_roundtrip _ _).1 hi
          simp only [sourceMeta, ha] at hm
          have hmid := hbyid r md hm
          have hmem : r ∈ l.map (·.id) := by rw [← hl2]; simp
          rw [List.mem_map] at hmem
          exact ⟨.inl ⟨r, hm⟩, ⟨by rw [hmid]; exact hmem, .inr ⟨by rw [hmid]; exact hw, by rw [hmid]; exact hm⟩⟩, fun h => absurd hlen h⟩
    | r1 :: r2 :: rs, h, _, loop => exact loop h (by simp)

omit [UnicodeTables] in
theorem eq_of_nodup_map {α β : Type} {f : α → β} {l : List α} (h : (l.map f).Nodup) {a b : α} (ha : a ∈ l) (hb : b ∈ l)
    (hab : f a = f b) : a = b := by
  induction l with
  | nil => cases ha
  | cons x l ih =>
    simp only [List.map_cons, List.nodup_cons, List.mem_map, not_exists, not_and] at h
    rcases List.mem_cons.1 ha with rfl | ha' <;> rcases List.mem_cons.1 hb with rfl | hb'
    · rfl
    · exact absurd hab.symm (h.1 b hb')
    · exact absurd hab (h.1 a ha')
    · exact ih h.2 ha' hb'

/-- C21: a valid number has a calling code of the database; an entry of the database for a region with that code covers its
national digits, leading zeros included, both by its general descriptor and by a typed one. -/
theorem C21_valid (ε : Type) (compile : Str → Option Regex) (ms : List Loader.Metadata) (db : Database)
    (hdb : Database.from compile ms = .ok db) (n : PhoneNumber) (h : isValidWith (ε := ε) db n = .ok true) :
    ∃ l md, db.byCode n.code.value = some l ∧ (∃ m ∈ l, m.id = md.id) ∧ Spec.Entry db md ∧
      Spec.Accepts md.descriptors.general n.national.display ∧
      ∃ o ∈ Spec.typed md.descriptors, Spec.AcceptsOpt o n.national.display := by
  simp only [isValidWith, Outcome.bind_eq_ok, Outcome.pure_eq, Outcome.ok.injEq] at h
  obtain ⟨src, hsrc, h⟩ := h
  cases src with
  | none => simp at h
  | some src =>
    simp only [Option.bind_some] at h
    cases hm : sourceMeta db src with
    | none => rw [hm] at h; simp at h
    | some md =>
      rw [hm] at h
      simp only [Option.map_some, Option.getD_some, bne_iff_ne] at h
      obtain ⟨l, h1, h2, ⟨h3, _⟩, _⟩ := sourceFor_some hdb hsrc hm
      obtain ⟨h5, h6⟩ := (C23_known_iff _ _).1 h
      exact ⟨l, md, h1, h3, h2, h5, h6⟩

example : isValidWith (ε := ParseErr) Sample.db ⟨⟨1, .plus⟩, ⟨2042345678⟩, none, none⟩ = .ok true ∧
    isValidWith (ε := ParseErr) Sample.db ⟨⟨1, .plus⟩, ⟨2012345678⟩, none, none⟩ = .ok true ∧
    isValidWith (ε := ParseErr) Sample.db ⟨⟨1, .plus⟩, ⟨1012345678⟩, none, none⟩ = .ok false := ⟨by kernel_rfl, by kernel_rfl, by kernel_rfl⟩

/-- C22: without leading zeros, validity means having a type. -/
theorem C22_valid_iff_typed (ε : Type) (db : Database) (n : PhoneNumber) (hz : n.national.zeros = 0) :
    isValidWith (ε := ε) db n = (n.numberTypeWith db >>= fun t => .ok (decide (t ≠ .unknown))) := by
  have hd : n.national.display = decStr n.national.value.toNat := by simp [NationalNumber.display, hz]
  simp only [isValidWith, PhoneNumber.numberTypeWith, PhoneNumber.metadata, hd]
  cases sourceFor (ε := ε) db n.code.value (decStr n.national.value.toNat) with
  | err e => rfl
  | panic p => rfl
  | ok src =>
    simp only [Outcome.bind_ok, Outcome.pure_eq]
    cases src.bind (sourceMeta db) with
    | none => rfl
    | some md => simp [bne, Bool.beq_eq_decide_eq]

/-- A number without leading zeros; and one with leading zeros, which is valid although its type is unknown. -/
example : (⟨6502530000⟩ : NationalNumber).zeros = 0 ∧
    isValidWith (ε := ParseErr) Sample.db ⟨⟨1, .plus⟩, ⟨6502530000⟩, none, none⟩ = .ok true ∧
    NationalNumber.fromStr (str% "00123456") = .ok ⟨0x200000000000000 + 123456⟩ ∧
    isValidWith (ε := ParseErr) Sample.db ⟨⟨800, .plus⟩, ⟨0x200000000000000 + 123456⟩, none, none⟩ = .ok true ∧
    PhoneNumber.numberTypeWith (ε := ParseErr) ⟨⟨800, .plus⟩, ⟨0x200000000000000 + 123456⟩, none, none⟩ Sample.db = .ok .unknown :=
  ⟨by kernel_rfl, by kernel_rfl, by kernel_rfl, by kernel_rfl, by kernel_rfl⟩

theorem source_mem {ε : Type} {compile : Str → Option Regex} {ms : List Loader.Metadata} {db : Database}
    (hdb : Database.from compile ms = .ok db) (hid : ((ms.filterMap (·.id)).filter (· ≠ worldId)).Nodup) {code : Nat} {v : Str}
    {src : Id ⊕ Nat} {md : Metadata} (hsrc : sourceFor (ε := ε) db code v = .ok (some src)) (hm : sourceMeta db src = some md) :
    md.countryCode = code ∧ ∃ l, db.byCode code = some l ∧ md ∈ l := by
  obtain ⟨l, h1, _, ⟨⟨m, hml, hmid⟩, h4⟩, _⟩ := sourceFor_some hdb hsrc hm
  obtain ⟨mds, hmap, hbyId, hcode, hlist, hreg⟩ := C27_indexes ms db hdb
  have hc : (db.byCode code).isSome := by simp [h1]
  obtain ⟨hl, _⟩ := hlist _ ((hcode _).1 hc)
  rw [h1, Option.some.injEq] at hl
  have hmem : ∀ x, x ∈ l ↔ x ∈ mds ∧ x.countryCode = code := by
    intro x
    rw [hl]
    simp only [Spec.listed, List.mem_append, List.mem_reverse, List.mem_filter, Bool.not_eq_true', beq_iff_eq]
    cases x.mainCountryForCode <;> simp
  have hin : md ∈ l := by
    rcases h4 with h4 | ⟨hw, hb⟩
    · exact h4
    · have hmd : md ∈ mds := by
        rw [hbyId] at hb
        exact (List.mem_filter.1 (List.mem_of_getLast? hb)).1
      have hmm := ((hmem m).1 hml).1
      have e : ms.filterMap (·.id) = mds.map (·.id) := by
        have e := congrArg (List.map Prod.fst) hmap
        simp only [List.map_map] at e
        have e1 : mds.map (fun md => some md.id) = ms.map (fun m => m.id) := e
        rw [show ms.filterMap (·.id) = (ms.map (·.id)).filterMap id by simp [List.filterMap_map], ← e1]
        simp [List.filterMap_map]
      rw [e, List.filter_map] at hid
      have := eq_of_nodup_map hid (a := md) (b := m) (by simp [hmd, hw]) (by simp [hmm, hmid, hw]) hmid.symm
      rw [this]; exact hml
  exact ⟨((hmem md).1 hin).2, l, h1, hin⟩

/-- C25: if territories other than the non-geographic ones have distinct ids, the metadata found for a number is an entry for its
calling code. -/
theorem C25_metadata_code (ε : Type) (compile : Str → Option Regex) (ms : List Loader.Metadata) (db : Database)
    (hdb : Database.from compile ms = .ok db) (hid : ((ms.filterMap (·.id)).filter (· ≠ worldId)).Nodup)
    (n : PhoneNumber) (md : Metadata) (h : n.metadata (ε := ε) db = .ok (some md)) :
    md.countryCode = n.code.value ∧ ∃ l, db.byCode n.code.value = some l ∧ md ∈ l := by
  simp only [PhoneNumber.metadata, Outcome.bind_eq_ok, Outcome.pure_eq, Outcome.ok.injEq] at h
  obtain ⟨src, hsrc, h⟩ := h
  obtain ⟨src, rfl, hm⟩ := Option.bind_eq_some_iff.1 h
  exact source_mem hdb hid hsrc hm

/-- The sample territories meet the hypothesis; a Canadian number gets Canada's entry, a freephone number the freephone one. -/
example : ((Sample.territories.filterMap (·.id)).filter (· ≠ worldId)).Nodup ∧
    ((PhoneNumber.metadata (ε := ParseErr) ⟨⟨1, .plus⟩, ⟨2042345678⟩, none, none⟩ Sample.db) =
      .ok (Sample.db.byId (str% "CA"))) ∧
    ((PhoneNumber.metadata (ε := ParseErr) ⟨⟨800, .plus⟩, ⟨12345678⟩, none, none⟩ Sample.db) =
      .ok (Sample.db.byId (str% "001"))) := ⟨by decide, by kernel_rfl, by kernel_rfl⟩

/-- C53: a number whose calling code the database does not have has no metadata, no country, no type and is not valid. -/
theorem C53_unknown_code (ε : Type) (compile : Str → Option Regex) (ms : List Loader.Metadata) (db : Database)
    (hdb : Database.from compile ms = .ok db) (n : PhoneNumber) (h : ∀ m ∈ ms, m.countryCode ≠ some n.code.value) :
    n.metadata (ε := ε) db = .ok none ∧ n.countryId db = .ok none ∧ n.numberTypeWith (ε := ε) db = .ok .unknown ∧
      isValidWith (ε := ε) db n = .ok false := by
  obtain ⟨mds, hmap, hbyId, hcode, hlist, hreg⟩ := C27_indexes ms db hdb
  have hr : db.region n.code.value = none := by
    rw [← Option.not_isSome_iff_eq_none, hreg, hcode]
    rintro ⟨m, hm, h'⟩
    exact h m hm h'
  have hs : ∀ (ε : Type) v, sourceFor (ε := ε) db n.code.value v = .ok none := by intro ε v; unfold sourceFor; rw [hr]
  simp [PhoneNumber.metadata, PhoneNumber.countryId, PhoneNumber.numberTypeWith, isValidWith, hs]

example : (∀ m ∈ Sample.territories, m.countryCode ≠ some 999) ∧
    isValidWith (ε := ParseErr) Sample.db ⟨⟨999, .plus⟩, ⟨2042345678⟩, none, none⟩ = .ok false := ⟨by decide, by kernel_rfl⟩

/-- C54: with a database in which regions sharing a calling code are countries, the queries about a number never panic, and the
country reported has the id of the number's metadata. -/
theorem C54_queries_no_panic (ε : Type) (compile : Str → Option Regex) (ms : List Loader.Metadata) (db : Database)
    (hdb : Database.from compile ms = .ok db) (hs : Spec.SharedAreCountries db) (n : PhoneNumber) :
    (∃ o, n.metadata (ε := ε) db = .ok o) ∧ (∃ t, n.numberTypeWith (ε := ε) db = .ok t) ∧
      (∃ b, isValidWith (ε := ε) db n = .ok b) ∧ ¬ (n.countryId db).IsPanic ∧
      (∀ i, n.countryId db = .ok (some i) ↔ ∃ md, n.metadata (ε := ParseErr) db = .ok (some md) ∧ md.id = i.asRef) ∧
      (n.countryId db = .err .invalidCountryCode ↔
        ∃ md, n.metadata (ε := ParseErr) db = .ok (some md) ∧ ∀ i : Id, md.id ≠ i.asRef) := by
  have hk : ∀ (ε : Type) v, ∃ o, sourceFor (ε := ε) db n.code.value v = .ok o :=
    fun ε v => sourceFor_ok (from_consistent hdb).1 hs n.code.value v
  have hm : ∀ ε : Type, ∃ o, n.metadata (ε := ε) db = .ok o := by
    intro ε
    obtain ⟨o, ho⟩ := hk ε (decStr n.national.value.toNat)
    exact ⟨o.bind (sourceMeta db), by simp [PhoneNumber.metadata, ho]⟩
  refine ⟨hm ε, ?_, ?_, ?_⟩
  · obtain ⟨o, ho⟩ := hm ε
    exact ⟨_, by simp only [PhoneNumber.numberTypeWith, ho, Outcome.bind_ok, Outcome.pure_eq]; rfl⟩
  · obtain ⟨o, ho⟩ := hk ε n.national.display
    exact ⟨_, by simp only [isValidWith, ho, Outcome.bind_ok, Outcome.pure_eq]; rfl⟩
  · obtain ⟨o, ho⟩ := hm ParseErr
    simp only [PhoneNumber.countryId, ho, Outcome.bind_ok]
    cases o with
    | none => simp
    | some md =>
      cases hi : Id.fromStr md.id with
      | none =>
        have : ∀ i : Id, md.id ≠ i.asRef := by
          intro i h
          rw [(C43_id_roundtrip _ i).2 h.symm] at hi
          cases hi
        simp [hi, this]
      | some i =>
        have := (C43_id_roundtrip _ _).1 hi
        simp only [hi, Outcome.okOr_some, Outcome.bind_ok, Outcome.pure_eq, Outcome.not_isPanic_ok, not_false_eq_true, Outcome.ok.injEq,
          Option.some.injEq, exists_eq_left', reduceCtorEq, false_iff, true_and]
        rw [← this]
        refine ⟨fun j => ⟨fun h => by rw [h], fun h => (C43_names i j).2 h⟩, fun h => h i rfl⟩

example : PhoneNumber.countryId ⟨⟨1, .plus⟩, ⟨2042345678⟩, none, none⟩ Sample.db = .ok (some .CA) ∧
    PhoneNumber.countryId ⟨⟨800, .plus⟩, ⟨12345678⟩, none, none⟩ Sample.db = .err .invalidCountryCode ∧
    Spec.SharedAreCountries Sample.db := ⟨by kernel_rfl, by kernel_rfl, Sample.db_shared⟩

end Phone
