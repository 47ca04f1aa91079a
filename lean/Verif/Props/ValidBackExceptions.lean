import Verif.Props.ValidBack
import Verif.Props.DashesBuiltin
/-! # C81: the valid numbers that are not read back -/

namespace Phone.Builtin
variable [UnicodeTables]

/-- What the territories of a calling code alone say about a number: whether those that share it are countries, whether the number is
valid, and what its E.164 form is read as. -/
def reread (ms : List Loader.Metadata) (p : PhoneNumber) : Bool × Outcome ParseErr Bool × Outcome ParseErr PhoneNumber :=
  match Database.from compile ms with
  | .ok d => (d.sharedCheck, isValidWith d p, parseWith d none ('+' :: (decStr p.code.value ++ p.national.display)))
  | _ => (false, .ok false, .err .noNumber)

/-- The shipped database says the same. -/
theorem reread_builtin (p : PhoneNumber) (hlen : 3 ≤ (decStr p.code.value ++ p.national.display).length)
    (o : Outcome ParseErr PhoneNumber) (h : reread (Data.territories.filter (·.countryCode == some p.code.value)) p = (true, .ok true, o)) :
    isValid (ε := ParseErr) p = .ok true ∧ format p .e164 = .ok ('+' :: (decStr p.code.value ++ p.national.display)) ∧
      parse none ('+' :: (decStr p.code.value ++ p.national.display)) = o := by
  revert h
  generalize hms : Data.territories.filter (·.countryCode == some p.code.value) = ms
  intro h
  unfold reread at h
  split at h
  · rename_i d hd'
    simp only [Prod.mk.injEq] at h
    obtain ⟨h1, h2, h3⟩ := h
    obtain ⟨f1, f2⟩ := filtered Data.territories ids_nodup p.code.value
    rw [hms] at f1 f2
    have hs := shared_of_check h1
    have hv : isValid (ε := ParseErr) p = .ok true := by
      rw [← h2]
      exact (C76_builtin_number ms d hd' f2 hs p (by rw [hms]; exact f1)).1 _
    obtain ⟨s, hs'⟩ := valid_formats hv .e164
    have hk : (db.byCode p.code.value).isSome := (valid_facts p hv).2.1
    refine ⟨hv, e164_text hs', ?_⟩
    rw [← h3]
    exact parse_plus_local from_builtin hd' ids_nodup f2 shared hs prefixFree (alone (hms ▸ hd')) (by rw [hms]; exact f1) hk
      (code_range hk) (digits_display _) hlen
  · cases h

/-- Valid, and read as another national number. -/
def misread (ms : List Loader.Metadata) (p : PhoneNumber) : Bool :=
  match reread ms p with
  | (true, .ok true, .ok q) => !decide (q.national.raw = p.national.raw)
  | _ => false

/-- A number of each exception: leading zeros in the top byte, value below. -/
def misreadNumbers : List (Nat × UInt64) :=
  [(7, 8001234567), (55, 900123456), (62, 144115188256168217), (66, 144115206077090439), (81, 144115188141979328),
    (82, 144115188383979328), (91, 216172790115018375), (250, 72057594044051392), (359, 144115196077090439), (370, 80012345),
    (375, 8011234567), (598, 216172782113784220)]

def misreadCheck (ms : List Loader.Metadata) : Bool :=
  misreadNumbers.all fun x => misread (ms.filter (·.countryCode == some x.1)) ⟨⟨x.1, .plus⟩, ⟨x.2⟩, none, none⟩

theorem misread_check : misreadCheck Data.territories = true := by kernel_rfl

omit [UnicodeTables] in
theorem misread_numbers : (misreadNumbers.map Prod.fst = exceptions) ∧
    misreadNumbers.all (fun x => (⟨x.2⟩ : NationalNumber).value != 0 && Nat.ble 3 (decStr x.1 ++ (⟨x.2⟩ : NationalNumber).display).length) = true :=
  ⟨by kernel_rfl, by kernel_rfl⟩

/-- C81: every exception has a valid number, not all zeros, whose E.164 form is read as another number. -/
theorem C81_exceptions (c : Nat) (hc : c ∈ exceptions) : ∃ (n : PhoneNumber) (s : Str) (q : PhoneNumber),
    n.code.value = c ∧ isValid (ε := ParseErr) n = .ok true ∧ n.national.value ≠ 0 ∧ format n .e164 = .ok s ∧ parse none s = .ok q ∧
    q.national ≠ n.national := by
  rw [← misread_numbers.1] at hc
  obtain ⟨⟨c', v⟩, hx, rfl⟩ := List.mem_map.1 hc
  have h1 := List.all_eq_true.1 misread_numbers.2 _ hx
  have h2 := List.all_eq_true.1 misread_check _ hx
  rw [Bool.and_eq_true] at h1
  unfold misread at h2
  split at h2
  · rename_i q hq
    obtain ⟨hv, hf, hp⟩ := reread_builtin ⟨⟨c', .plus⟩, ⟨v⟩, none, none⟩ (Nat.le_of_ble_eq_true h1.2) _ hq
    refine ⟨_, _, q, rfl, hv, by simpa using h1.1, hf, hp, fun e => ?_⟩
    rw [Bool.not_eq_true', decide_eq_false_iff_not] at h2
    exact h2 (by rw [e])
  · cases h2

/-- C81: the calling codes all whose valid numbers are read back, other than zeros, are those that are no exceptions. -/
theorem C81_exact (c : Nat) : (∀ n : PhoneNumber, n.code.value = c → isValid (ε := ParseErr) n = .ok true → n.national.value ≠ 0 →
      ∃ s, format n .e164 = .ok s ∧ parse none s = .ok ⟨⟨c, .plus⟩, n.national, none, none⟩) ↔
    c ∉ [7, 55, 62, 66, 81, 82, 91, 250, 359, 370, 375, 598] := by
  constructor
  · intro h hc
    obtain ⟨n, s, q, h1, h2, h3, h4, h5, h6⟩ := C81_exceptions c hc
    obtain ⟨s', e1, e2⟩ := h n h1 h2 h3
    rw [h4, Outcome.ok.injEq] at e1
    subst e1
    rw [h5, Outcome.ok.injEq] at e2
    exact h6 (by rw [e2])
  · intro hc n h1 h2 h3
    subst h1
    exact C81_e164 n h2 h3 hc none (fun _ h => by cases h)

/-- Valid, and read as the same number. -/
def wellRead (ms : List Loader.Metadata) (p : PhoneNumber) : Bool :=
  match reread ms p with
  | (true, .ok true, .ok q) => Nat.beq q.code.value p.code.value && Nat.beq q.national.raw.toNat p.national.raw.toNat &&
      q.extension.isNone && q.carrier.isNone
  | _ => false

/-- A Belgian number, an Argentine one to which the parsing pattern applies, and one of Ivory Coast with a leading zero. -/
def wellReadNumbers : List (Nat × UInt64) := [(32, 12345678), (54, 1115345678), (225, 72057594161384725)]

def wellReadCheck (ms : List Loader.Metadata) : Bool :=
  wellReadNumbers.all fun x => wellRead (ms.filter (·.countryCode == some x.1)) ⟨⟨x.1, .plus⟩, ⟨x.2⟩, none, none⟩

theorem wellRead_check : wellReadCheck Data.territories = true := by kernel_rfl

omit [UnicodeTables] in
theorem wellRead_numbers : wellReadNumbers.all (fun x => (⟨x.2⟩ : NationalNumber).value != 0 && !exceptions.any (Nat.beq x.1) &&
    Nat.ble 3 (decStr x.1 ++ (⟨x.2⟩ : NationalNumber).display).length) = true := by kernel_rfl

/-- These meet the hypotheses of `C81_e164`. -/
theorem wellRead_valid : ∀ x ∈ wellReadNumbers, isValid (ε := ParseErr) ⟨⟨x.1, .plus⟩, ⟨x.2⟩, none, none⟩ = .ok true ∧
    (⟨x.2⟩ : NationalNumber).value ≠ 0 ∧ x.1 ∉ exceptions := by
  intro x hx
  have h1 := List.all_eq_true.1 wellRead_numbers _ hx
  have h2 := List.all_eq_true.1 wellRead_check _ hx
  simp only [Bool.and_eq_true, Bool.not_eq_true', List.any_eq_false] at h1
  unfold wellRead at h2
  split at h2
  · rename_i q hq
    obtain ⟨hv, _⟩ := reread_builtin ⟨⟨x.1, .plus⟩, ⟨x.2⟩, none, none⟩ (Nat.le_of_ble_eq_true h1.2) _ hq
    exact ⟨hv, by simpa using h1.1.1, fun hm => h1.1.2 _ hm (Nat.beq_refl _)⟩
  · cases h2

/-- Nine zeros of Tajikistan. -/
def zeros : PhoneNumber := ⟨⟨992, .plus⟩, ⟨576460752303423488⟩, none, none⟩

def zerosCheck (ms : List Loader.Metadata) : Bool :=
  (match reread (ms.filter (·.countryCode == some zeros.code.value)) zeros with
    | (true, .ok true, .err (.malformedInteger .empty)) => true
    | _ => false) && decide (zeros.national.value = 0) && Nat.ble 3 (decStr zeros.code.value ++ zeros.national.display).length &&
    decide ('+' :: (decStr zeros.code.value ++ zeros.national.display) = (str% "+992000000000"))

theorem zeros_check : zerosCheck Data.territories = true := by kernel_rfl

/-- C81: zeros that are valid are not read back: Tajikistan's nine zeros. -/
theorem C81_zeros : ∃ n : PhoneNumber, isValid (ε := ParseErr) n = .ok true ∧ n.national.value = 0 ∧
    format n .e164 = .ok (str% "+992000000000") ∧ parse none (str% "+992000000000") = .err (.malformedInteger .empty) := by
  have h := zeros_check
  simp only [zerosCheck, Bool.and_eq_true, decide_eq_true_eq] at h
  obtain ⟨⟨⟨h1, h2⟩, h3⟩, h4⟩ := h
  split at h1
  · rename_i hq
    obtain ⟨hv, hf, hp⟩ := reread_builtin zeros (Nat.le_of_ble_eq_true h3) _ hq
    rw [h4] at hf hp
    exact ⟨zeros, hv, h2, hf, hp⟩
  · cases h1

end Phone.Builtin
