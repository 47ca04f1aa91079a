import Verif.Builtin.Db
import Verif.Props.Unused
/-! # C103 for the shipped metadata -/

namespace Phone.Builtin
variable [UnicodeTables]

/-- C103 for the shipped metadata: they can be left out of the file. -/
theorem C103_builtin : ∃ db', Database.from compile (Data.territories.map Spec.leanTerritory) = .ok db' ∧
    (∀ country s, parseWith db' country s = parse country s) ∧ (∀ p mode, Formatter.fmt db' p mode = format p mode) ∧
    (∀ ε p, isValidWith (ε := ε) db' p = isValid p) ∧ (∀ ε (p : PhoneNumber), p.numberTypeWith (ε := ε) db' = numberType p) ∧
    ∀ p : PhoneNumber, p.countryId db' = countryId p := by
  obtain ⟨db', h, h1, h2, h3, h4, h5⟩ := C103_document Data.territories db from_builtin
  exact ⟨db', h, h1, fun p m => h2 p m none, h3, h4, h5⟩

end Phone.Builtin
