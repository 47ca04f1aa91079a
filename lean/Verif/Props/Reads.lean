import Verif.Props.LocalMore
import Verif.Props.Builtin
/-! # Reading single texts with the shipped database -/

namespace Phone.Builtin
variable [UnicodeTables]

/-- The territories of one calling code alone read the text as the number, and the reference country has that code. -/
def readCheck (ms : List Loader.Metadata) (country : Option Id) (s : Str) (p : PhoneNumber) : Bool :=
  match Database.from compile (ms.filter (·.countryCode == some p.code.value)) with
  | .ok d => d.sharedCheck &&
    ((match country with | none => true | some i => ms.all fun m => m.id != some i.asRef || m.countryCode == some p.code.value) &&
    match parseWith d country s with
    | .ok q => decide (q.code = p.code) && Nat.beq q.national.raw.toNat p.national.raw.toNat && decide (q.extension = p.extension) &&
      decide (q.carrier = p.carrier)
    | _ => false)
  | _ => false

/-- Then the shipped database reads it so. -/
theorem reads_of_check {country : Option Id} {s : Str} {p : PhoneNumber} (h : readCheck Data.territories country s p = true) :
    parse country s = .ok p := by
  revert h
  have hnd := ids_nodup
  have hfrom := from_builtin
  generalize Data.territories = ms at *
  intro h
  unfold readCheck at h
  split at h
  · rename_i d hd
    rw [Bool.and_eq_true, Bool.and_eq_true] at h
    obtain ⟨h1, h2, h3⟩ := h
    split at h3
    · rename_i q hq
      have h3 : q = p := by
        simp only [Bool.and_eq_true, decide_eq_true_eq] at h3
        obtain ⟨⟨⟨e1, e2⟩, e3⟩, e4⟩ := h3
        obtain ⟨c, ⟨n⟩, x, y⟩ := q
        obtain ⟨c', ⟨n'⟩, x', y'⟩ := p
        simp only at e1 e2 e3 e4
        rw [e1, e3, e4, UInt64.toNat_inj.1 (Nat.eq_of_beq_eq_true e2)]
      subst h3
      have hid' : (((ms.filter (·.countryCode == some q.code.value)).filterMap (·.id)).filter (· ≠ worldId)).Nodup :=
        hnd.sublist ((List.filter_sublist.filterMap _).filter _)
      refine C76_some compile _ ms d db hd hfrom hid' hnd (shared_of_check h1) shared prefixFree country s q hq
        (fun m hm => (List.mem_filter.1 hm).1) ?_ ?_
      · rintro i rfl
        rw [List.filter_filter]
        refine List.filter_congr fun a ha => ?_
        have := List.all_eq_true.1 h2 a ha
        cases hi : a.id == some i.asRef with
        | false => rfl
        | true =>
          rw [Bool.or_eq_true] at this
          rcases this with this | this
          · rw [eq_of_beq hi] at this; simp at this
          · rw [this]; rfl
      · rw [List.filter_filter]
        exact List.filter_congr fun a _ => by simp
    · cases h3
  · cases h

end Phone.Builtin
