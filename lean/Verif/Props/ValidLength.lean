import Verif.Props.Grouped
/-! # C92: the number of digits of a valid number -/

namespace Phone.Builtin
variable [UnicodeTables]

/-- No description of the territory allows more than 15 digits with the calling code (outside the exceptions) or more than 19, or fewer
than 6. -/
def limitCheck (m : Loader.Metadata) : Bool :=
  match m.countryCode with
  | none => false
  | some c => (typedOf m).all fun d => d.possibleLength.all fun n =>
      Nat.ble 6 ((decStr c).length + n) && Nat.ble ((decStr c).length + n) 19 &&
        ([49, 62, 81, 82, 234, 598].any (Nat.beq c) || Nat.ble ((decStr c).length + n) 15)

omit [UnicodeTables] in
theorem limit_check : Data.territories.all limitCheck = true := by kernel_rfl

/-- C92: a valid number has 4 to 17 national digits and, with the calling code, 6 to 19 digits; outside six calling codes at most the 15
that E.164 allows. -/
theorem C92_digits {ε : Type} (n : PhoneNumber) (hv : isValid (ε := ε) n = .ok true) :
    (4 ≤ n.national.display.length ∧ n.national.display.length ≤ 17) ∧
    (6 ≤ (decStr n.code.value ++ n.national.display).length ∧ (decStr n.code.value ++ n.national.display).length ≤ 19) ∧
    (n.code.value ∉ [49, 62, 81, 82, 234, 598] → (decStr n.code.value ++ n.national.display).length ≤ 15) := by
  refine ⟨(valid_facts n hv).1, ?_⟩
  obtain ⟨md, hr, hg, _, ho, d, rfl, ha⟩ := (C63_valid ε compile Data.territories db from_builtin ids_nodup shared n).1 hv
  have hd : Digits n.national.display := digits_display _
  obtain ⟨l, hl, hmd⟩ := region_mem hr
  obtain ⟨m, hm, he, hc⟩ := territory_of_region hl hmd
  obtain ⟨hlc, _⟩ := validCheck_mem valid_check hm hc
  obtain ⟨e, he1, he2⟩ := typed_of_entry he ho
  have hlen := List.all_eq_true.1 hlc e he1
  rw [Bool.and_eq_true, ← he2.possibleLength] at hlen
  have hne : d.possibleLength ≠ [] := by simpa using hlen.1
  have hmem := ha.1.resolve_left hne
  rw [hd.byteLen, Nat.mod_eq_of_lt (display_length _), he2.possibleLength] at hmem
  have hk := List.all_eq_true.1 limit_check m hm
  simp only [limitCheck, hc, List.all_eq_true, Bool.and_eq_true, Bool.or_eq_true, List.any_eq_true] at hk
  obtain ⟨⟨h6, h19⟩, h15⟩ := hk e he1 _ hmem
  rw [List.length_append]
  refine ⟨⟨Nat.le_of_ble_eq_true h6, Nat.le_of_ble_eq_true h19⟩, fun hx => ?_⟩
  rcases h15 with ⟨c, hc, e⟩ | h15
  · rw [Nat.eq_of_beq_eq_true e] at hx
    exact absurd hc hx
  · exact Nat.le_of_ble_eq_true h15

/-- National digits of valid numbers that are too long for E.164. -/
def overlong : List (Nat × Str) :=
  [(49, str% "800123456789012"), (62, str% "00180312345678901"), (81, str% "00371234567890123"), (82, str% "00798123456789"),
   (234, str% "80012345678901"), (598, str% "0004123456789")]

theorem overlong_check : (((49, str% "1641") : Nat × Str) :: overlong).all (validOk Data.territories) = true := by kernel_rfl

/-- C92: in each of the six calling codes some valid number has more than 15 digits. -/
theorem C92_overlong (c : Nat) (hc : c ∈ [49, 62, 81, 82, 234, 598]) : ∃ n : PhoneNumber, n.code.value = c ∧
    (∀ ε : Type, isValid (ε := ε) n = .ok true) ∧ 15 < (decStr c ++ n.national.display).length := by
  have e : [49, 62, 81, 82, 234, 598] = overlong.map (·.1) := by decide
  rw [e] at hc
  obtain ⟨w, hw, rfl⟩ := List.mem_map.1 hc
  obtain ⟨n, h1, h2⟩ := validOk_sound (List.all_eq_true.1 overlong_check w (List.mem_cons_of_mem _ hw))
  refine ⟨⟨⟨w.1, .plus⟩, n, none, none⟩, rfl, h2, ?_⟩
  rw [h1]
  have : overlong.all (fun w => Nat.blt 15 (decStr w.1 ++ w.2).length) = true := by decide
  exact Nat.le_of_ble_eq_true (List.all_eq_true.1 this w hw)

/-- C92: the bounds are reached: there are valid numbers with 4 and 17 national digits, which have 6 and 19 digits with the calling
code. -/
theorem C92_reached : (∃ n : PhoneNumber, (∀ ε : Type, isValid (ε := ε) n = .ok true) ∧ n.national.display.length = 4 ∧
      (decStr n.code.value ++ n.national.display).length = 6) ∧
    ∃ n : PhoneNumber, (∀ ε : Type, isValid (ε := ε) n = .ok true) ∧ n.national.display.length = 17 ∧
      (decStr n.code.value ++ n.national.display).length = 19 := by
  have key : ∀ w ∈ ((49, str% "1641") : Nat × Str) :: overlong, ∃ n : PhoneNumber, (∀ ε : Type, isValid (ε := ε) n = .ok true) ∧
      n.national.display = w.2 ∧ n.code.value = w.1 := by
    intro w hw
    obtain ⟨n, h1, h2⟩ := validOk_sound (List.all_eq_true.1 overlong_check w hw)
    exact ⟨_, h2, h1, rfl⟩
  obtain ⟨n, h1, h2, h3⟩ := key (49, str% "1641") (by decide)
  obtain ⟨n', h1', h2', h3'⟩ := key (62, str% "00180312345678901") (by decide)
  exact ⟨⟨n, h1, by rw [h2]; decide, by rw [h2, h3]; decide⟩, ⟨n', h1', by rw [h2']; decide, by rw [h2', h3']; decide⟩⟩

/-- A valid number outside the six calling codes. -/
example : ∃ n : PhoneNumber, n.code.value ∉ [49, 62, 81, 82, 234, 598] ∧ ∀ ε : Type, isValid (ε := ε) n = .ok true := by
  obtain ⟨n, _, h⟩ := validOk_sound (List.all_eq_true.1 plain_valid2 (31, str% "61111111111") (by decide))
  exact ⟨_, by simp, h⟩

end Phone.Builtin
