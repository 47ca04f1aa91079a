import Verif.Spec.Trunk
/-! # Specification of calling codes with a single region -/

namespace Phone.Spec

/-- The calling code `c` belongs to the country `i` alone, which has no parsing pattern and no lengths for its general description. -/
structure SoleRegion (db : Database) (c : Nat) (i : Id) (md : Metadata) : Prop where
  only : db.byCode c = some [md]
  id : md.id = i.asRef
  noPattern : md.nationalPrefixForParsing = none
  noLengths : md.descriptors.general.possibleLength = []

end Phone.Spec
