import Verif.Model.Postcard
/-! # Serialisation of numbers

`PhoneNumber` and its parts derive `Serialize` and `Deserialize` (`/repo/src/phone_number.rs:31`, `/repo/src/country.rs:21,54,99`,
`/repo/src/national_number.rs:19`, `/repo/src/extension.rs:20`, `/repo/src/carrier.rs:20`). The derived code is generated by
`serde_derive`, which is not in `/repo`; it is modelled after its documentation, with two formats: documents (`Doc`), for
self-describing formats such as JSON, and the bytes of `postcard`.

A structure is written as its fields with their names. It is read from such fields in any order, where a repeated field is an error,
unknown fields are skipped and a missing field is an error unless it is an option; or from a list of all fields in order. An option is
null or the value, a structure with one unnamed field is that field, a variant is its name. -/

namespace Phone
namespace Serde

/-- A document of a self-describing format. `other` stands for numbers that are not natural numbers. -/
inductive Doc where
  | null
  | bool (b : Bool)
  | num (n : Nat)
  | other
  | text (s : Str)
  | list (l : List Doc)
  | map (l : List (Str × Doc))

/-- Why a document is rejected. The messages are simplified to these kinds. -/
inductive DocErr where
  | invalidType
  | invalidValue
  | missingField (name : Str)
  | duplicateField (name : Str)
  | unknownVariant (name : Str)
  deriving DecidableEq, Repr

/-- `u16` and `u64` with their bounds. -/
def readNum (bound : Nat) : Doc → Outcome DocErr Nat
  | .num n => if n < bound then .ok n else .err .invalidValue
  | _ => .err .invalidType

/-- `String`, and the newtypes `Extension(String)` and `Carrier(String)`, `/repo/src/extension.rs:20-21`, `/repo/src/carrier.rs:20-21`. -/
def readText : Doc → Outcome DocErr Str
  | .text s => .ok s
  | _ => .err .invalidType

/-- `Option<T>` -/
def readOption {α : Type} (f : Doc → Outcome DocErr α) : Doc → Outcome DocErr (Option α)
  | .null => .ok none
  | d => f d >>= fun a => .ok (some a)

/-- `Option<T>` -/
def writeOption {α : Type} (f : α → Doc) : Option α → Doc
  | none => .null
  | some a => f a

/-- `#[serde(rename_all = "snake_case")]`: an underscore before every capital letter but the first, and small letters. -/
def snakeCase : Str → Str
  | [] => []
  | c :: cs => lower c :: cs.flatMap fun c => if isUpper c then ['_', lower c] else [c]
where
  /-- an ASCII capital letter -/
  isUpper (c : Char) : Bool := 'A'.toNat ≤ c.toNat && c.toNat ≤ 'Z'.toNat
  /-- `to_ascii_lowercase` -/
  lower (c : Char) : Char := if isUpper c then Char.ofNat (c.toNat + 32) else c

/-- The variants of `Source` in the order of declaration, `/repo/src/country.rs:55-78`. -/
def sourceNames : List (Str × Source) :=
  [(str% "Plus", .plus), (str% "Idd", .idd), (str% "Number", .number), (str% "Default", .default)].map fun x => (snakeCase x.1, x.2)

/-- The variants of `Type` in the order of declaration, `/repo/src/phone_number.rs:80-140`. -/
def typeNames : List (Str × PType) :=
  [(str% "FixedLine", .fixedLine), (str% "Mobile", .mobile), (str% "FixedLineOrMobile", .fixedLineOrMobile),
   (str% "TollFree", .tollFree), (str% "PremiumRate", .premiumRate), (str% "SharedCost", .sharedCost),
   (str% "PersonalNumber", .personalNumber), (str% "Voip", .voip), (str% "Pager", .pager), (str% "Uan", .uan),
   (str% "Emergency", .emergency), (str% "Voicemail", .voicemail), (str% "ShortCode", .shortCode),
   (str% "StandardRate", .standardRate), (str% "Carrier", .carrier), (str% "NoInternational", .noInternational),
   (str% "Unknown", .unknown)].map fun x => (snakeCase x.1, x.2)

/-- The variants of `Id`, named as written, `/repo/src/country.rs:99-346`. -/
def idNames : List (Str × Id) := Id.all.map fun i => (i.asRef, i)

/-- The name of a variant. -/
def nameIn {α : Type} [DecidableEq α] (names : List (Str × α)) (a : α) : Str := ((names.find? fun x => x.2 == a).map Prod.fst).getD []

/-- A variant without fields is written as its name. -/
def writeVariant {α : Type} [DecidableEq α] (names : List (Str × α)) (a : α) : Doc := .text (nameIn names a)

/-- The variant with a name. -/
def variant {α : Type} (names : List (Str × α)) (s : Str) : Outcome DocErr α :=
  match names.find? fun x => x.1 == s with
  | some x => .ok x.2
  | none => .err (.unknownVariant s)

/-- A variant without fields is read from its name, or from the name as a key with null as its value. -/
def readVariant {α : Type} (names : List (Str × α)) : Doc → Outcome DocErr α
  | .text s => variant names s
  | .map [(s, .null)] => variant names s
  | _ => .err .invalidType

/-- A field that has been read, or an error if it is missing. -/
def needed {α : Type} (name : Str) : Option α → Outcome DocErr α
  | some a => .ok a
  | none => .err (.missingField name)

/-- Read a field that must not have been read before. -/
def once {α : Type} (name : Str) (old : Option α) (new : Outcome DocErr α) : Outcome DocErr (Option α) :=
  if old.isSome then .err (.duplicateField name) else new >>= fun a => .ok (some a)

/-- Read the fields one after the other. -/
def readFields {σ : Type} (step : σ → Str → Doc → Outcome DocErr σ) : σ → List (Str × Doc) → Outcome DocErr σ
  | s, [] => .ok s
  | s, (k, d) :: l => step s k d >>= fun s => readFields step s l

/-- `Serialize for Code`, `/repo/src/country.rs:21-28`. -/
def writeCode (c : Code) : Doc := .map [(str% "value", .num c.value), (str% "source", writeVariant sourceNames c.source)]

/-- One field of `Code`, `/repo/src/country.rs:21-28`. -/
def codeField (s : Option Nat × Option Source) (k : Str) (d : Doc) : Outcome DocErr (Option Nat × Option Source) :=
  if k = (str% "value") then once k s.1 (readNum 65536 d) >>= fun v => .ok (v, s.2)
  else if k = (str% "source") then once k s.2 (readVariant sourceNames d) >>= fun v => .ok (s.1, v)
  else .ok s

/-- `Deserialize for Code`, `/repo/src/country.rs:21-28`. -/
def readCode : Doc → Outcome DocErr Code
  | .map l => do
    let s ← readFields codeField (none, none) l
    let v ← needed (str% "value") s.1
    let src ← needed (str% "source") s.2
    .ok ⟨v, src⟩
  | .list [a, b] => do
    let v ← readNum 65536 a
    let src ← readVariant sourceNames b
    .ok ⟨v, src⟩
  | _ => .err .invalidType

/-- `Serialize for NationalNumber`, `/repo/src/national_number.rs:19-22`. -/
def writeNational (n : NationalNumber) : Doc := .map [(str% "value", .num n.raw.toNat)]

/-- The one field of `NationalNumber`, `/repo/src/national_number.rs:19-22`. -/
def nationalField (s : Option Nat) (k : Str) (d : Doc) : Outcome DocErr (Option Nat) :=
  if k = (str% "value") then once k s (readNum (2 ^ 64) d) else .ok s

/-- `Deserialize for NationalNumber`, `/repo/src/national_number.rs:19-22`. -/
def readNational : Doc → Outcome DocErr NationalNumber
  | .map l => do
    let s ← readFields nationalField none l
    let v ← needed (str% "value") s
    .ok ⟨UInt64.ofNat v⟩
  | .list [a] => do
    let v ← readNum (2 ^ 64) a
    .ok ⟨UInt64.ofNat v⟩
  | _ => .err .invalidType

/-- `Serialize for PhoneNumber`, `/repo/src/phone_number.rs:31-72`. -/
def write (p : PhoneNumber) : Doc :=
  .map [(str% "code", writeCode p.code), (str% "national", writeNational p.national),
    (str% "extension", writeOption .text p.extension), (str% "carrier", writeOption .text p.carrier)]

/-- The fields of `PhoneNumber` read so far. -/
structure Fields where
  code : Option Code := none
  national : Option NationalNumber := none
  extension : Option (Option Str) := none
  carrier : Option (Option Str) := none

/-- One field of `PhoneNumber`, `/repo/src/phone_number.rs:31-72`. -/
def numberField (s : Fields) (k : Str) (d : Doc) : Outcome DocErr Fields :=
  if k = (str% "code") then once k s.code (readCode d) >>= fun v => .ok { s with code := v }
  else if k = (str% "national") then once k s.national (readNational d) >>= fun v => .ok { s with national := v }
  else if k = (str% "extension") then once k s.extension (readOption readText d) >>= fun v => .ok { s with extension := v }
  else if k = (str% "carrier") then once k s.carrier (readOption readText d) >>= fun v => .ok { s with carrier := v }
  else .ok s

/-- `Deserialize for PhoneNumber`, `/repo/src/phone_number.rs:31-72`. -/
def read : Doc → Outcome DocErr PhoneNumber
  | .map l => do
    let s ← readFields numberField {} l
    let code ← needed (str% "code") s.code
    let national ← needed (str% "national") s.national
    .ok ⟨code, national, s.extension.getD none, s.carrier.getD none⟩
  | .list [a, b, c, d] => do
    let code ← readCode a
    let national ← readNational b
    let extension ← readOption readText c
    let carrier ← readOption readText d
    .ok ⟨code, national, extension, carrier⟩
  | _ => .err .invalidType

end Serde

namespace Postcard
open Wire

/-- `u64`: at most ten bytes. -/
def takeU64 : List Nat → Option (Nat × List Nat) := takeVarint 1 10

/-- A variant is written as its place in the declaration, a `u32`: at most five bytes, the last at most 15. -/
def takeSource (bs : List Nat) : Option (Source × List Nat) := do
  let (i, bs) ← takeVarint 15 5 bs
  let s ← (Serde.sourceNames.map Prod.snd)[i]?
  some (s, bs)

/-- The place of a variant of `Source`, `/repo/src/country.rs:55-78`. -/
def putSource (s : Source) : List Nat := varint ((Serde.sourceNames.map Prod.snd).idxOf s)

/-- `PhoneNumber`, `/repo/src/phone_number.rs:31-72`: code value, source, national number, extension, carrier. -/
def putNumber (p : PhoneNumber) : List Nat :=
  [varint p.code.value, putSource p.code.source, varint p.national.raw.toNat, put p.extension, put p.carrier].flatten

/-- `PhoneNumber`, `/repo/src/phone_number.rs:31-72`. -/
def takeNumber (bs : List Nat) : Option (PhoneNumber × List Nat) := do
  let (v, bs) ← takeVarint 3 3 bs
  let (s, bs) ← takeSource bs
  let (n, bs) ← takeU64 bs
  let (e, bs) ← take bs
  let (c, bs) ← take bs
  some (⟨⟨v, s⟩, ⟨UInt64.ofNat n⟩, e, c⟩, bs)

end Postcard
end Phone
