import Verif.Model.Hash
import Verif.Model.Validator
import Verif.Model.Formatter
import Verif.Props.NationalNumber
import Verif.Spec.Sample
/-! # C36: equality of phone numbers -/

namespace Phone

/-- C36: two numbers are equal exactly if code value, national value, leading zeros, extension and carrier agree; the source of the
code is ignored. -/
theorem C36_eq_iff (a b : PhoneNumber) : a.eq b = true ↔
    a.code.value = b.code.value ∧ a.national.value = b.national.value ∧ a.national.zeros = b.national.zeros ∧
      a.extension = b.extension ∧ a.carrier = b.carrier := by
  have hn : a.national = b.national ↔ a.national.value = b.national.value ∧ a.national.zeros = b.national.zeros := by
    constructor
    · intro h; rw [h]; exact ⟨rfl, rfl⟩
    · rintro ⟨h1, h2⟩
      exact NationalNumber.ext_parts h1 h2
  simp only [PhoneNumber.eq, Code.eq, Bool.and_eq_true, beq_iff_eq, hn]
  constructor
  · rintro ⟨⟨⟨h1, h2, h3⟩, h4⟩, h5⟩; exact ⟨h1, h2, h3, h4, h5⟩
  · rintro ⟨h1, h2, h3, h4, h5⟩; exact ⟨⟨⟨h1, h2, h3⟩, h4⟩, h5⟩

/-- C36: equality is an equivalence. -/
theorem C36_equivalence : (∀ a : PhoneNumber, a.eq a = true) ∧ (∀ a b : PhoneNumber, a.eq b = true → b.eq a = true) ∧
    ∀ a b c : PhoneNumber, a.eq b = true → b.eq c = true → a.eq c = true := by
  refine ⟨fun a => (C36_eq_iff a a).2 ⟨rfl, rfl, rfl, rfl, rfl⟩, ?_, ?_⟩
  · intro a b h
    obtain ⟨h1, h2, h3, h4, h5⟩ := (C36_eq_iff a b).1 h
    exact (C36_eq_iff b a).2 ⟨h1.symm, h2.symm, h3.symm, h4.symm, h5.symm⟩
  · intro a b c h h'
    obtain ⟨h1, h2, h3, h4, h5⟩ := (C36_eq_iff a b).1 h
    obtain ⟨k1, k2, k3, k4, k5⟩ := (C36_eq_iff b c).1 h'
    exact (C36_eq_iff a c).2 ⟨h1.trans k1, h2.trans k2, h3.trans k3, h4.trans k4, h5.trans k5⟩

/-- C36: equal numbers are hashed by the same sequence of writes, and only they are. -/
theorem C36_hash (a b : PhoneNumber) : a.hashWrites = b.hashWrites ↔ a.eq b = true := by
  obtain ⟨⟨c, s⟩, ⟨r⟩, e, k⟩ := a
  obtain ⟨⟨c', s'⟩, ⟨r'⟩, e', k'⟩ := b
  cases e <;> cases e' <;> cases k <;> cases k' <;>
    simp [PhoneNumber.hashWrites, Code.hashWrites, hashWritesOpt, PhoneNumber.eq, Code.eq, and_assoc]

/-- C36: equal numbers cannot be told apart by any query or formatting mode, with any database. -/
theorem C36_indistinguishable [UnicodeTables] (ε : Type) (db : Database) (a b : PhoneNumber) (h : a.eq b = true) :
    isValidWith (ε := ε) db a = isValidWith db b ∧ a.metadata (ε := ε) db = b.metadata db ∧
    a.numberTypeWith (ε := ε) db = b.numberTypeWith db ∧ a.countryId db = b.countryId db ∧
    ∀ mode custom, Formatter.fmt db a mode custom = Formatter.fmt db b mode custom := by
  obtain ⟨⟨c, s⟩, r, e, k⟩ := a
  obtain ⟨⟨c', s'⟩, r', e', k'⟩ := b
  simp only [PhoneNumber.eq, Code.eq, Bool.and_eq_true, beq_iff_eq] at h
  obtain ⟨⟨⟨rfl, rfl⟩, rfl⟩, rfl⟩ := h
  exact ⟨rfl, rfl, rfl, rfl, fun _ _ => rfl⟩

/-- The same number dialled in two ways, and two different ones. -/
example : PhoneNumber.eq ⟨⟨1, .plus⟩, ⟨6502530000⟩, none, none⟩ ⟨⟨1, .default⟩, ⟨6502530000⟩, none, none⟩ = true ∧
    PhoneNumber.eq ⟨⟨1, .plus⟩, ⟨6502530000⟩, none, none⟩ ⟨⟨1, .plus⟩, ⟨6502530000⟩, some [], none⟩ = false := by decide

end Phone
