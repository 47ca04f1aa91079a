import Verif.Spec.Validator
import Verif.Spec.Parse
/-! # Specification of the choice of a region for a number -/

namespace Phone.Spec
variable [UnicodeTables]

/-- The digits suit the region: they begin with its leading digits, or, when it has none, its descriptors give them a type. -/
def Suits (md : Metadata) (ds : Str) : Prop :=
  match md.leadingDigits with
  | some re => ∃ w q, ds = w ++ q ∧ Lang re.re 0 w q
  | none => Accepts md.descriptors.general ds ∧ ∃ o ∈ typed md.descriptors, AcceptsOpt o ds

/-- The region chosen among those of a calling code for the national digits `ds`. -/
inductive RegionOf (db : Database) (code : Nat) (ds : Str) : Option Metadata → Prop where
  /-- A calling code the database does not have. -/
  | unknown : db.byCode code = none → RegionOf db code ds none
  /-- The only region of a calling code is chosen whatever the digits are. -/
  | only {md : Metadata} : db.byCode code = some [md] → md.id = (str% "001") ∨ (∃ i : Id, md.id = i.asRef) →
      RegionOf db code ds (some md)
  /-- Unless it is neither a country nor the world. -/
  | other {md : Metadata} : db.byCode code = some [md] → md.id ≠ (str% "001") → (∀ i : Id, md.id ≠ i.asRef) →
      RegionOf db code ds none
  /-- Among several regions the first that suits is chosen. -/
  | first {md : Metadata} {before after : List Metadata} : db.byCode code = some (before ++ md :: after) → before ++ after ≠ [] →
      Suits md ds → (∀ m ∈ before, ¬ Suits m ds) → RegionOf db code ds (some md)
  /-- None suits. -/
  | nobody {l : List Metadata} : db.byCode code = some l → 2 ≤ l.length → (∀ m ∈ l, ¬ Suits m ds) → RegionOf db code ds none

end Phone.Spec
