import Verif.Model.Database
/-! # Conditions on a database under which the parser is well behaved -/

namespace Phone.Spec

/-- A template made of decimal digits and group references `$d` only. -/
inductive DigitTemplate : Str → Prop where
  | nil : DigitTemplate []
  | digit {c s} : isDigit c = true → DigitTemplate s → DigitTemplate (c :: s)
  | ref {c s} : isDigit c = true → DigitTemplate s → DigitTemplate ('$' :: c :: s)

/-- The entries of a database: those found by id or listed under a calling code. -/
def Entry (db : Database) (md : Metadata) : Prop :=
  (∃ i, db.byId i = some md) ∨ ∃ c l, db.byCode c = some l ∧ md ∈ l

/-- All regions that share a calling code with another one have the id of a country. -/
def SharedAreCountries (db : Database) : Prop :=
  ∀ c rs, db.region c = some rs → rs.length ≠ 1 → ∀ r ∈ rs, (Id.fromStr r).isSome

/-- In an entry with a transform rule, the first group of the parsing pattern takes part in every match in which the last
one takes part. -/
def FirstWithLast [UnicodeTables] (md : Metadata) : Prop :=
  md.nationalPrefixTransformRule.isSome → ∀ re, md.nationalPrefixForParsing = some re →
    ∀ s m, re.find s = some m → (m.get re.ngroups).isSome → (m.get 1).isSome

/-- A string of characters allowed in a plainly formatted number: digits, space, hyphen, dot, parentheses, slash. -/
def Plain (s : Str) : Prop := ∀ c ∈ s, isDigit c = true ∨ c ∈ (str% " -.()/")

/-- The digits written after a plus begin with the international dialling prefix of the reference country, or with 00 when
there is none. -/
def BeginsWithIdd [UnicodeTables] (db : Database) (country : Option Id) (ds : Str) : Prop :=
  match country with
  | none => ['0', '0'] <+: ds
  | some c => ∃ md re m, db.byId c.asRef = some md ∧ md.internationalPrefix = some re ∧ re.find ds = some m ∧ m.start = 0

/-- `l` is the least of 1, 2, 3 for which the first `l` digits are a known calling code. -/
def ShortestCode (db : Database) (ds : Str) (l : Nat) : Prop :=
  1 ≤ l ∧ l ≤ 3 ∧ (db.byCode (decVal (ds.take l))).isSome ∧ ∀ k, 1 ≤ k → k < l → db.byCode (decVal (ds.take k)) = none

end Phone.Spec
