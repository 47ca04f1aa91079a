import Verif.Model.Serde
/-! # Specification: which documents stand for a number -/

namespace Phone.Spec
open Serde (Doc)

/-- The values given for a name, in order. -/
def valuesOf (name : Str) (l : List (Str × Doc)) : List Doc := (l.filter (·.1 == name)).map Prod.snd

/-- The name of a source. -/
def sourceName : Source → Str
  | .plus => str% "plus"
  | .idd => str% "idd"
  | .number => str% "number"
  | .default => str% "default"

/-- The name of a type. -/
def typeName : PType → Str
  | .fixedLine => str% "fixed_line"
  | .mobile => str% "mobile"
  | .fixedLineOrMobile => str% "fixed_line_or_mobile"
  | .tollFree => str% "toll_free"
  | .premiumRate => str% "premium_rate"
  | .sharedCost => str% "shared_cost"
  | .personalNumber => str% "personal_number"
  | .voip => str% "voip"
  | .pager => str% "pager"
  | .uan => str% "uan"
  | .emergency => str% "emergency"
  | .voicemail => str% "voicemail"
  | .shortCode => str% "short_code"
  | .standardRate => str% "standard_rate"
  | .carrier => str% "carrier"
  | .noInternational => str% "no_international"
  | .unknown => str% "unknown"

/-- A name, or the name as the only key with null as its value. -/
def NameDoc (d : Doc) (name : Str) : Prop := d = .text name ∨ d = .map [(name, .null)]

/-- A document of a calling code: both fields once each among any others, or a list of both. -/
inductive CodeDoc : Doc → Code → Prop
  | fields {l : List (Str × Doc)} {d : Doc} {c : Code} : c.value < 65536 → valuesOf (str% "value") l = [.num c.value] →
      valuesOf (str% "source") l = [d] → NameDoc d (sourceName c.source) → CodeDoc (.map l) c
  | list {d : Doc} {c : Code} : c.value < 65536 → NameDoc d (sourceName c.source) → CodeDoc (.list [.num c.value, d]) c

/-- A document of a national number. -/
inductive NationalDoc : Doc → NationalNumber → Prop
  | fields {l : List (Str × Doc)} {n : NationalNumber} : valuesOf (str% "value") l = [.num n.raw.toNat] → NationalDoc (.map l) n
  | list {n : NationalNumber} : NationalDoc (.list [.num n.raw.toNat]) n

/-- A document of an optional text. -/
inductive TextDoc : Doc → Option Str → Prop
  | none : TextDoc .null none
  | some {s : Str} : TextDoc (.text s) (some s)

/-- The values of an optional field: nothing, or one. -/
inductive FieldDoc : List Doc → Option Str → Prop
  | missing : FieldDoc [] none
  | given {d : Doc} {o : Option Str} : TextDoc d o → FieldDoc [d] o

/-- A document of a number. -/
inductive NumberDoc : Doc → PhoneNumber → Prop
  | fields {l : List (Str × Doc)} {a b : Doc} {p : PhoneNumber} : valuesOf (str% "code") l = [a] → CodeDoc a p.code →
      valuesOf (str% "national") l = [b] → NationalDoc b p.national → FieldDoc (valuesOf (str% "extension") l) p.extension →
      FieldDoc (valuesOf (str% "carrier") l) p.carrier → NumberDoc (.map l) p
  | list {a b c d : Doc} {p : PhoneNumber} : CodeDoc a p.code → NationalDoc b p.national → TextDoc c p.extension →
      TextDoc d p.carrier → NumberDoc (.list [a, b, c, d]) p

end Phone.Spec
