import Verif.Spec.Area
/-! # Specification of what is reported as carrier with the shipped database -/

namespace Phone.Spec

/-- Territories in which a carrier can be chosen: territory, what is dialled before the carrier code, the possible lengths of the code.
`/repo/assets/PhoneNumberMetadata.xml`, `nationalPrefixForParsing`. -/
def carrierCodes : List (Str × List Str × List Nat) :=
  [(str% "AU", [[]], [4]), (str% "BO", [['0']], [2]), (str% "BR", [['0'], ['9', '0']], [2]), (str% "CN", [[]], [5]),
   (str% "CO", [['0']], [1, 3]), (str% "CR", [[]], [4]), (str% "FO", [[]], [4]), (str% "KR", [['0']], [2, 4]),
   (str% "LI", [[]], [4]), (str% "LU", [[]], [5])]

/-- Territories that are reported to have a trunk prefix as carrier. -/
def trunkCarriers : List (Str × List Str) :=
  [(str% "BY", [['0'], ['8'], ['8', '0']]), (str% "GB", [['0'], str% "180020"]), (str% "LT", [['0'], ['8']])]

/-- What a territory of the shipped database may report as the carrier of the digits `ds`. -/
inductive Carried (id : Str) (ds : Str) : Str → Prop where
  /-- A carrier code that stands first or after the trunk prefix. -/
  | code {zs : List Str} {ns : List Nat} {z x r : Str} : (id, zs, ns) ∈ carrierCodes → z ∈ zs → x.length ∈ ns → ds = z ++ x ++ r → Carried id ds x
  /-- The trunk prefix. -/
  | trunk {xs : List Str} {x r : Str} : (id, xs) ∈ trunkCarriers → x ∈ xs → ds = x ++ r → Carried id ds x
  /-- The whole local number, where the area code is put before it. -/
  | whole {a : Str} : (id, a, ds.length) ∈ areaCodes → Carried id ds ds
  /-- The area code of an Argentinian mobile number. -/
  | area {z x r : Str} : id = (str% "AR") → z = [] ∨ z = ['0'] → ds = z ++ x ++ ['1', '5'] ++ r → Carried id ds x
  /-- The whole number after the trunk prefix in Gabon. -/
  | gabon {x r : Str} : id = (str% "GA") → x.length = 8 → ds = '0' :: x ++ r → Carried id ds x
  /-- The whole number in Japan. -/
  | japan : id = (str% "JP") → ds.length ∈ [8, 9, 10] → Carried id ds ds

end Phone.Spec
