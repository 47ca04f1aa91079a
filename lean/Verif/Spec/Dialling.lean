import Verif.Spec.Parse
/-! # Specification of international dialling prefixes -/

namespace Phone.Spec

/-- The digits `ds` consist of the international dialling prefix of the reference country, or of 00 when there is none, and `rest`. -/
def Dialled [UnicodeTables] (db : Database) (country : Option Id) (ds rest : Str) : Prop :=
  match country with
  | none => ds = '0' :: '0' :: rest
  | some c => ∃ md re m, db.byId c.asRef = some md ∧ md.internationalPrefix = some re ∧ re.find ds = some m ∧ m.pre = [] ∧ m.post = rest

/-- The digits do not begin with a dialling prefix that would be removed: there is none, or a zero follows. -/
def NotDialled [UnicodeTables] (db : Database) (country : Option Id) (ds : Str) : Prop := ∀ rest, Dialled db country ds rest → ['0'] <+: rest

/-- The number with another origin of its calling code. -/
def withSource (s : Source) (p : PhoneNumber) : PhoneNumber := { p with code := { p.code with source := s } }

end Phone.Spec
