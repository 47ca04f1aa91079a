import Verif.Data.All
import Verif.Model.Validator
import Verif.Basic.KernelRfl
import Verif.Basic.StrLemmas
/-! # Ids and calling codes of the shipped territories -/

namespace Phone.Builtin

/-- Id, calling code and main country flag of the shipped territories. -/
noncomputable def brief : List (Option Str × Option Nat × Bool) := Data.territories.map fun m => (m.id, m.countryCode, m.mainCountryForCode)

/-- All ids of countries occur. -/
theorem brief_ids : Id.all.all (fun i => (brief.filterMap (·.1)).contains i.asRef) = true := by kernel_rfl
/-- Codes that occur more than once only occur with ids of countries, and exactly one of them is flagged as main country. -/
theorem brief_shared : brief.all (fun p => (brief.filter (·.2.1 == p.2.1)).length == 1 ||
    ((p.1.bind Id.fromStr).isSome && ((brief.filter (·.2.1 == p.2.1)).filter (·.2.2)).length == 1)) = true := by kernel_rfl
/-- The set of the codes, as bits of a number. -/
def bitSet (l : List Nat) : Nat := l.foldr (fun c m => 2 ^ c ||| m) 0

theorem mem_bitSet {l : List Nat} {c : Nat} (h : c ∈ l) : (bitSet l).testBit c = true := by
  induction l with
  | nil => cases h
  | cons d l ih =>
    rw [bitSet, List.foldr_cons, Nat.testBit_or]
    rcases List.mem_cons.1 h with rfl | h
    · simp
    · have := ih h
      rw [bitSet] at this
      rw [this]; simp

/-- Codes have at most three digits, and without their last one or two digits they are no codes. -/
theorem brief_shorter : (let l := brief.filterMap (·.2.1)
    l.all fun d => Nat.ble d 999 && (!(bitSet l).testBit (d / 10) && !(bitSet l).testBit (d / 100))) = true := by kernel_rfl

/-- An initial part of the digits of a number is the quotient by a power of ten. -/
theorem prefix_quotient {c d : Nat} (hd : d ≤ 999) (h : decStr c <+: decStr d) : c = d ∨ c = d / 10 ∨ c = d / 100 := by
  have step : ∀ {x y : Nat}, decStr x <+: decStr y → x = y ∨ 10 ≤ y ∧ decStr x <+: decStr (y / 10) := by
    intro x y h
    obtain ⟨t, ht⟩ := h
    rcases List.eq_nil_or_concat t with rfl | ⟨t, c, rfl⟩
    · exact .inl (decStr_injective (by simpa using ht))
    · by_cases hy : 10 ≤ y
      · rw [decStr_step hy, List.concat_eq_append, ← List.append_assoc] at ht
        exact .inr ⟨hy, t, (List.append_inj' ht rfl).1⟩
      · rw [decStr_small (n := y) (by omega), List.concat_eq_append, ← List.append_assoc] at ht
        have := congrArg List.length ht
        have h0 := List.length_pos_iff.2 (decStr_ne_nil x)
        simp only [List.length_append, List.length_cons, List.length_nil] at this
        omega
  rcases step h with h | ⟨_, h⟩
  · exact .inl h
  rcases step h with h | ⟨_, h⟩
  · exact .inr (.inl h)
  rcases step h with h | ⟨h9, h⟩
  · exact .inr (.inr (by omega))
  · omega

/-- No code is an initial part of another one. -/
theorem brief_prefix {c d : Nat} (hc : c ∈ brief.filterMap (·.2.1)) (hd : d ∈ brief.filterMap (·.2.1)) (h : decStr c <+: decStr d) : c = d := by
  have hk := List.all_eq_true.1 brief_shorter d hd
  have hb := mem_bitSet hc
  generalize brief.filterMap (·.2.1) = l at *
  simp only [Bool.and_eq_true, Bool.not_eq_true', Nat.ble_eq] at hk
  rcases prefix_quotient hk.1 h with h | rfl | rfl
  · exact h
  · rw [hk.2.1] at hb; cases hb
  · rw [hk.2.2] at hb; cases hb

/-- Ids other than 001 occur once. -/
theorem brief_nodup : decide (((brief.filterMap (·.1)).filter (· != worldId)).Nodup) = true := by kernel_rfl

end Phone.Builtin
