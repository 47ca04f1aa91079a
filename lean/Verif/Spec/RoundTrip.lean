import Verif.Spec.Parse
/-! # Specification for parsing what the formatter wrote -/

namespace Phone.Spec

/-- National prefix handling has nothing to do for the digits: no entry for the calling code has a national prefix they start with
or a parsing pattern that fits at their start. -/
def Untouched [UnicodeTables] (db : Database) (code : Nat) (ds : Str) : Prop :=
  ∀ l md, db.byCode code = some l → md ∈ l →
    (∀ np, md.nationalPrefix = some np → ¬ np <+: ds) ∧
    ∀ re m, md.nationalPrefixForParsing = some re → re.find ds = some m → m.start ≠ 0

/-- What is known about a number that the parser could have returned: calling code of one to three digits that the database has, and
a national number of two to seventeen digits, not all zero. -/
structure Ordinary (db : Database) (n : PhoneNumber) : Prop where
  known : (db.byCode n.code.value).isSome
  code : 1 ≤ n.code.value ∧ n.code.value ≤ 999
  length : 2 ≤ n.national.display.length ∧ n.national.display.length ≤ 17
  value : n.national.value ≠ 0

end Phone.Spec
