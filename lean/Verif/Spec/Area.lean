import Verif.Basic.Str
/-! # Specification of digits added to a local number -/

namespace Phone.Spec

/-- Territories in which a number can be dialled without its area code: territory, area code, number of digits of a local number.
`/repo/assets/PhoneNumberMetadata.xml`, `nationalPrefixTransformRule`. -/
def areaCodes : List (Str × Str × Nat) :=
  [(str% "AG", str% "268", 7), (str% "AI", str% "264", 7), (str% "AS", str% "684", 7), (str% "BB", str% "246", 7),
   (str% "BM", str% "441", 7), (str% "BS", str% "242", 7), (str% "CC", str% "8", 8), (str% "CX", str% "8", 8),
   (str% "DM", str% "767", 7), (str% "GD", str% "473", 7), (str% "GG", str% "1481", 6), (str% "GU", str% "671", 7),
   (str% "IM", str% "1624", 6), (str% "JE", str% "1534", 6), (str% "KN", str% "869", 7), (str% "KY", str% "345", 7),
   (str% "LC", str% "758", 7), (str% "MG", str% "20", 7), (str% "MP", str% "670", 7), (str% "MS", str% "664", 7),
   (str% "NF", str% "3", 5), (str% "SM", str% "0549", 6), (str% "SX", str% "721", 7), (str% "TC", str% "649", 7),
   (str% "TT", str% "868", 7), (str% "VC", str% "784", 7), (str% "VG", str% "284", 7), (str% "VI", str% "340", 7)]

/-- The national digits a territory of the shipped database makes of the digits `ds`. -/
inductive Reshaped (id : Str) (ds : Str) : Str → Prop where
  /-- Digits are only removed at the beginning. -/
  | kept (k : Nat) : Reshaped id ds (ds.drop k)
  /-- The area code is put before a local number. -/
  | area {a : Str} : (id, a, ds.length) ∈ areaCodes → Reshaped id ds (a ++ ds)
  /-- Argentina: `15` after the area code of a mobile number is replaced by `9` before it. -/
  | mobile {z a r : Str} : id = (str% "AR") → z = [] ∨ z = ['0'] → ds = z ++ a ++ ['1', '5'] ++ r → Reshaped id ds ('9' :: a ++ r)

end Phone.Spec
