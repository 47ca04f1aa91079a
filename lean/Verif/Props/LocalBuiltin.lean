import Verif.Props.Local
import Verif.Props.Builtin
/-! # C76 for the shipped database -/

namespace Phone.Builtin
variable [UnicodeTables]

/-- C76 for the shipped database: rearranging the territories of the metadata file without changing the order of those that share a
calling code gives a database with which everything is read, judged and written as with the built-in one. -/
theorem C76_builtin (ms : List Loader.Metadata) (hperm : Data.territories.Perm ms)
    (hc : ∀ c, Data.territories.filter (·.countryCode == some c) = ms.filter (·.countryCode == some c)) :
    ∃ db', Database.from compile ms = .ok db' ∧ (∀ country s, parse country s = parseWith db' country s) ∧
      (∀ ε : Type, ∀ n : PhoneNumber, isValid (ε := ε) n = isValidWith db' n) ∧
      (∀ n : PhoneNumber, countryId n = n.countryId db') ∧ ∀ n mode, format n mode = Formatter.fmt db' n mode := by
  obtain ⟨db', h1, h2, _, h4, _, h5, h6⟩ := C76_order compile Data.territories ms db from_builtin ids_nodup shared hperm hc
  exact ⟨db', h1, h2, h4, h5, fun n mode => h6 n mode none⟩

/-- A number of the shipped database keeps its country, validity and text when only its calling code's territories are shipped. -/
theorem C76_builtin_number (ms : List Loader.Metadata) (db' : Database) (hdb' : Database.from compile ms = .ok db')
    (hid' : ((ms.filterMap (·.id)).filter (· ≠ worldId)).Nodup) (hs' : Spec.SharedAreCountries db') (n : PhoneNumber)
    (hc : Data.territories.filter (·.countryCode == some n.code.value) = ms.filter (·.countryCode == some n.code.value)) :
    (∀ ε : Type, isValid (ε := ε) n = isValidWith db' n) ∧ countryId n = n.countryId db' ∧
      ∀ mode, format n mode = Formatter.fmt db' n mode := by
  obtain ⟨_, h2, _, h4, h5⟩ := C76_number compile Data.territories ms db db' from_builtin hdb' ids_nodup hid' shared hs' n hc
  exact ⟨h2, h4, fun mode => h5 mode none⟩

omit [UnicodeTables] in
/-- Moving the first of the territories to the end, if no other has its calling code. -/
theorem moved (a : Loader.Metadata) (t : List Loader.Metadata) (h : ∀ m ∈ t, m.countryCode ≠ a.countryCode) :
    (a :: t).Perm (t ++ [a]) ∧
      ∀ c, (a :: t).filter (·.countryCode == some c) = (t ++ [a]).filter (·.countryCode == some c) := by
  refine ⟨(List.perm_append_comm (l₁ := [a])), fun c => ?_⟩
  by_cases hc : a.countryCode = some c
  · have : t.filter (·.countryCode == some c) = [] := by
      rw [List.filter_eq_nil_iff]
      intro m hm
      simpa [hc] using h m hm
    simp [hc, this]
  · simp [hc]

omit [UnicodeTables] in
theorem first_alone : (match Data.territories with | a :: t => t.all (fun m => m.countryCode != a.countryCode) | [] => false) = true := by
  kernel_rfl

/-- Ascension, the first of the shipped territories, can be moved to the end. -/
example : ∃ a t, Data.territories = a :: t ∧ ∃ db', Database.from compile (t ++ [a]) = .ok db' ∧
    ∀ country s, parse country s = parseWith db' country s := by
  have h := first_alone
  split at h
  · rename_i a t he
    obtain ⟨h1, h2⟩ := moved a t fun m hm => by simpa using List.all_eq_true.1 h m hm
    obtain ⟨db', h3, h4, _⟩ := C76_builtin (t ++ [a]) (he ▸ h1) (he ▸ h2)
    exact ⟨a, t, he, db', h3, h4⟩
  · cases h

end Phone.Builtin
