import Verif.Builtin.Part0
import Verif.Builtin.Part1
import Verif.Builtin.Part2
import Verif.Builtin.Part3
import Verif.Builtin.Brief
import Verif.Model.Parse
/-! # The database shipped with the library

`Data.territories` holds the territories of `/repo/assets/PhoneNumberMetadata.xml` in the form the XML loader hands them to
`Database::from`. The theorems here instantiate the general ones with the database built from it, for all inputs. -/

namespace Phone.Builtin
open Database

theorem territories_good : ∀ m ∈ Data.territories, goodTerritory m = true := by
  have := chunk00; have := chunk01; have := chunk02; have := chunk03; have := chunk04; have := chunk05; have := chunk06
  have := chunk07; have := chunk08; have := chunk09; have := chunk10; have := chunk11; have := chunk12; have := chunk13
  have := chunk14; have := chunk15
  apply List.all_eq_true.1
  simp only [Data.territories, List.all_append, Bool.and_eq_true]
  simp only [*, and_self]

/-- The value, or a default: `unwrap` where success is proved separately. -/
def okD {ε α : Type} (o : Outcome ε α) (d : α) : α :=
  match o with
  | .ok a => a
  | _ => d

theorem okD_ok {ε α : Type} {o : Outcome ε α} {d : α} (h : ∃ a, o = .ok a) : o = .ok (okD o d) := by
  obtain ⟨a, rfl⟩ := h; rfl

/-- `metadata::DATABASE`, `/repo/src/metadata/database.rs:28-32`: the database built from the shipped territories. That it comes
out of the shipped file by `/repo/build.rs:12-26` and the initialiser is proved in `Props/ShippedBuiltin.lean` (C67, C68). The
`unwrap` succeeds by `from_builtin`. -/
noncomputable def db : Database := okD (Database.from compile Data.territories) Database.empty

theorem from_builtin : Database.from compile Data.territories = .ok db := by
  unfold db
  apply okD_ok
  have : ∀ m ∈ Data.territories, ∃ md, Database.metadata compile m = .ok md := by
    intro m hm
    have := territories_good m hm
    unfold goodTerritory at this
    split at this
    · rename_i md h; exact ⟨md, h⟩
    · cases this
  obtain ⟨mds, h⟩ := (collect_isOk (f := Database.metadata compile)).2 this
  exact ⟨_, from_eq_ok.2 ⟨mds, h, rfl⟩⟩

attribute [irreducible] db

/-- Everything in `by_id` and `by_code` is the entry of some territory. -/
theorem entry_of_territory {compile : Str → Option Regex} {ms : List Loader.Metadata} {db : Database}
    (h : Database.from compile ms = .ok db) {md : Metadata} (hm : Spec.Entry db md) :
    ∃ m ∈ ms, Database.metadata compile m = .ok md := by
  obtain ⟨mds, hc, rfl⟩ := from_eq_ok.1 h
  have hmem : md ∈ mds := by
    rcases hm with ⟨i, hi⟩ | ⟨c, l, hl, hm⟩
    · rw [foldl_byId] at hi
      simp only [empty, byId, lookup] at hi
      have : (mds.filter (·.id == i)).getLast? = some md := by simpa using hi
      exact (List.mem_filter.1 (List.mem_of_getLast? this)).1
    · rw [(foldl_byCode mds c).1] at hl
      split at hl
      · cases hl
      · cases hl
        simp only [Spec.listed, List.mem_append, List.mem_reverse, List.mem_filter] at hm
        rcases hm with ⟨⟨h, _⟩, _⟩ | ⟨⟨h, _⟩, _⟩ <;> exact h
  clear h hm
  induction ms generalizing mds with
  | nil => simp [collect] at hc; subst hc; cases hmem
  | cons m ms ih =>
    simp only [collect, Outcome.bind_eq_ok, Outcome.ok.injEq] at hc
    obtain ⟨md', h1, mds', h2, rfl⟩ := hc
    rcases List.mem_cons.1 hmem with rfl | hmem
    · exact ⟨m, by simp, h1⟩
    · obtain ⟨m', h3, h4⟩ := ih _ h2 hmem
      exact ⟨m', by simp [h3], h4⟩

theorem entry_good {md : Metadata} (h : Spec.Entry db md) : good md = true := by
  obtain ⟨m, hm, he⟩ := entry_of_territory from_builtin h
  have := territories_good m hm
  rw [goodTerritory, he] at this
  exact (Bool.and_eq_true_iff.1 (Bool.and_eq_true_iff.1 this).1).1

theorem entry_readable {md : Metadata} (h : Spec.Entry db md) : readable md = true := by
  obtain ⟨m, hm, he⟩ := entry_of_territory from_builtin h
  have := territories_good m hm
  rw [goodTerritory, he] at this
  exact (Bool.and_eq_true_iff.1 (Bool.and_eq_true_iff.1 this).1).2

theorem entry_readableNational {md : Metadata} (h : Spec.Entry db md) : readableNational md = true := by
  obtain ⟨m, hm, he⟩ := entry_of_territory from_builtin h
  have := territories_good m hm
  rw [goodTerritory, he] at this
  exact (Bool.and_eq_true_iff.1 this).2

/-! ## The functions that use it -/

section
variable [UnicodeTables]

/-- `parse`, `/repo/src/parser/mod.rs:33-38`, and `FromStr for PhoneNumber`, `/repo/src/phone_number.rs:142-148`, for `country = none`. -/
noncomputable def parse (country : Option Id) (s : Str) : Outcome ParseErr PhoneNumber := parseWith db country s

/-- `is_valid`, `/repo/src/validator.rs:91-93`, and `PhoneNumber::is_valid`, `/repo/src/phone_number.rs:220-222`. -/
noncomputable def isValid {ε : Type} (n : PhoneNumber) : Outcome ε Bool := isValidWith db n

/-- `PhoneNumber::number_type`, `/repo/src/phone_number.rs:230-232`. -/
noncomputable def numberType {ε : Type} (n : PhoneNumber) : Outcome ε PType := n.numberTypeWith db

/-- `Country::id`, `/repo/src/phone_number.rs:248-254`. -/
noncomputable def countryId (n : PhoneNumber) : Outcome ParseErr (Option Id) := n.countryId db

/-- `format`, `/repo/src/formatter.rs:77-84`, with the mode set and rendered: `format(n).mode(mode)`, `/repo/src/formatter.rs:100-206`. -/
noncomputable def format (n : PhoneNumber) (mode : Formatter.Mode) : Outcome Formatter.FmtErr Str := Formatter.fmt db n mode

end

end Phone.Builtin
