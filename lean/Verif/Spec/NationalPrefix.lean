import Verif.Spec.Parse
/-! # Specification of national prefix handling -/

namespace Phone.Spec

/-- Remove `np` at the start, once. -/
def dropOnce (np s : Str) : Str := if np.isPrefixOf s then s.drop np.length else s

/-- A region whose national prefix is `np` and that has neither a parsing pattern nor lengths for its general description. -/
structure SimplePrefix (md : Metadata) (np : Str) : Prop where
  np : md.nationalPrefix = some np
  noPattern : md.nationalPrefixForParsing = none
  noLengths : md.descriptors.general.possibleLength = []

/-- A string of at least two digits written the national way in the country `c` with entry `md`: it begins neither with the
international dialling prefix of the country nor with its calling code. -/
structure WrittenNationally [UnicodeTables] (db : Database) (c : Id) (md : Metadata) (ds : Str) : Prop where
  digits : ∀ x ∈ ds, isDigit x = true
  length : 2 ≤ ds.length
  idd : ¬ BeginsWithIdd db (some c) ds
  code : ¬ decStr md.countryCode <+: ds

/-- How `x` is read off a match `m` of the parsing pattern `re` of a region: with a transform rule and the last group taking part in
the match it is the first group, otherwise the last group; the whole match if there is no group. -/
def CarrierGroup (md : Metadata) (re : Regex) (m : Match) (x : Str) : Prop :=
  if md.nationalPrefixTransformRule.isSome ∧ (m.get re.ngroups).isSome then m.get 1 = some x else m.get re.ngroups = some x

end Phone.Spec
