import Verif.Model.XmlReader
/-! # From the metadata file to the built-in database

`/repo/build.rs` loads the metadata file, serialises the territories with `postcard` and writes `database.bin`;
`/repo/src/metadata/database.rs:28-32` embeds those bytes, deserialises them with `postcard` and makes the database from them.

`postcard` and `serde_derive` are dependencies whose sources are not in `/repo`; the format is modelled after its
specification: integers of type `u16` and lengths are base 128 numbers with the least significant seven bits first, all
bytes but the last with the high bit set; a string is its length in bytes and its UTF-8 bytes; a vector is its length and its
elements; an option is 0, or 1 and the value; a boolean is 0 or 1; a structure is its fields in the order of declaration.
Bytes are numbers below 256. File access is not modelled. -/

namespace Phone
namespace Postcard

/-- A number in base 128, the least significant digit first. -/
def varint (n : Nat) : List Nat := if n < 128 then [n] else (n % 128 + 128) :: varint (n / 128)

/-- Read a number of at most `k` bytes whose `k`-th byte must not be above `top`. -/
def takeVarint (top : Nat) : Nat → List Nat → Option (Nat × List Nat)
  | 0, _ | _, [] => none
  | k + 1, b :: bs =>
    if b < 128 then (if k = 0 ∧ top < b then none else some (b, bs))
    else (takeVarint top k bs).map fun x => (b - 128 + 128 * x.1, x.2)

/-- The UTF-8 bytes of a character. -/
def utf8 (c : Char) : List Nat :=
  let n := c.toNat
  if n < 0x80 then [n]
  else if n < 0x800 then [0xC0 + n / 64, 0x80 + n % 64]
  else if n < 0x10000 then [0xE0 + n / 4096, 0x80 + n / 64 % 64, 0x80 + n % 64]
  else [0xF0 + n / 262144, 0x80 + n / 4096 % 64, 0x80 + n / 64 % 64, 0x80 + n % 64]

/-- A continuation byte of UTF-8. -/
def cont (b : Nat) : Bool := 0x80 ≤ b && b < 0xC0

/-- A character with this number, if there is one and it is at least `low` (which excludes overlong forms). -/
def charFrom (low n : Nat) : Option Char := if low ≤ n ∧ n.isValidChar then some (Char.ofNat n) else none

/-- Read one character in UTF-8. -/
def takeChar : List Nat → Option (Char × List Nat)
  | [] => none
  | b :: bs =>
    if b < 0x80 then some (Char.ofNat b, bs)
    else if b < 0xC0 then none
    else if b < 0xE0 then
      match bs with
      | x :: bs => if cont x then (charFrom 0x80 ((b - 0xC0) * 64 + (x - 0x80))).map (·, bs) else none
      | _ => none
    else if b < 0xF0 then
      match bs with
      | x :: y :: bs =>
        if cont x && cont y then (charFrom 0x800 ((b - 0xE0) * 4096 + (x - 0x80) * 64 + (y - 0x80))).map (·, bs) else none
      | _ => none
    else
      match bs with
      | x :: y :: z :: bs =>
        if cont x && cont y && cont z then
          (charFrom 0x10000 ((b - 0xF0) * 262144 + (x - 0x80) * 4096 + (y - 0x80) * 64 + (z - 0x80))).map (·, bs)
        else none
      | _ => none

/-- `str::from_utf8`; every character takes at least one of the `f` bytes. -/
def fromUtf8 : Nat → List Nat → Option Str
  | _, [] => some []
  | 0, _ => none
  | f + 1, b :: bs =>
    match takeChar (b :: bs) with
    | some (c, r) => (fromUtf8 f r).map (c :: ·)
    | none => none

/-- A serialised type: how values are written and read. -/
class Wire (α : Type) where
  /-- the bytes of a value -/
  put : α → List Nat
  /-- read a value from the front -/
  take : List Nat → Option (α × List Nat)

open Wire

/-- `u16`: at most three bytes. -/
instance u16 : Wire Nat where
  put := varint
  take := takeVarint 3 3

/-- A length (`usize`, 64 bits): at most ten bytes. -/
def takeLength : List Nat → Option (Nat × List Nat) := takeVarint 1 10

/-- `bool` -/
instance : Wire Bool where
  put b := [if b then 1 else 0]
  take
    | 0 :: r => some (false, r)
    | 1 :: r => some (true, r)
    | _ => none

/-- `String` -/
instance : Wire Str where
  put s := varint (s.flatMap utf8).length ++ s.flatMap utf8
  take bs :=
    match takeLength bs with
    | some (n, r) => if n ≤ r.length then (fromUtf8 n (r.take n)).map (·, r.drop n) else none
    | none => none

/-- `Option<T>` -/
instance {α : Type} [Wire α] : Wire (Option α) where
  put
    | none => [0]
    | some a => 1 :: put a
  take
    | 0 :: r => some (none, r)
    | 1 :: r => (take r).map fun x => (some x.1, x.2)
    | _ => none

/-- Read `n` values. -/
def takeMany {α : Type} [Wire α] : Nat → List Nat → Option (List α × List Nat)
  | 0, bs => some ([], bs)
  | n + 1, bs =>
    match take bs with
    | some (a, r) => (takeMany n r).map fun x => (a :: x.1, x.2)
    | none => none

/-- `Vec<T>` -/
def putList {α : Type} [Wire α] (l : List α) : List Nat := varint l.length ++ l.flatMap put

/-- `Vec<T>` -/
def takeList {α : Type} [Wire α] (bs : List Nat) : Option (List α × List Nat) :=
  match takeLength bs with
  | some (n, r) => takeMany n r
  | none => none

/-- `Vec<u16>` -/
instance numbers : Wire (List Nat) := ⟨putList, takeList⟩
/-- `Vec<String>` -/
instance texts : Wire (List Str) := ⟨putList, takeList⟩

/-- `loader::Descriptor`, `/repo/src/metadata/loader.rs:83-89`. -/
def putDescriptor (d : Loader.Descriptor) : List Nat :=
  [put d.nationalNumber, put d.possibleLength, put d.possibleLocalLength, put d.example?].flatten

/-- `loader::Descriptor`, `/repo/src/metadata/loader.rs:83-89`. -/
def takeDescriptor (bs : List Nat) : Option (Loader.Descriptor × List Nat) := do
  let (a, bs) ← take bs
  let (b, bs) ← take bs
  let (c, bs) ← take bs
  let (d, bs) ← take bs
  some (⟨a, b, c, d⟩, bs)

/-- `loader::Descriptor`, `/repo/src/metadata/loader.rs:83-89`. -/
instance : Wire Loader.Descriptor := ⟨putDescriptor, takeDescriptor⟩

/-- `loader::Format`, `/repo/src/metadata/loader.rs:72-80`. -/
def putFormat (f : Loader.Format) : List Nat :=
  [put f.pattern, put f.format, put f.leadingDigits, put f.nationalPrefixFormattingRule,
   put f.nationalPrefixOptionalWhenFormatting, put f.domesticCarrier].flatten

/-- `loader::Format`, `/repo/src/metadata/loader.rs:72-80`. -/
def takeFormat (bs : List Nat) : Option (Loader.Format × List Nat) := do
  let (a, bs) ← take bs
  let (b, bs) ← take bs
  let (c, bs) ← take bs
  let (d, bs) ← take bs
  let (e, bs) ← take bs
  let (f, bs) ← take bs
  some (⟨a, b, c, d, e, f⟩, bs)

/-- `loader::Format`, `/repo/src/metadata/loader.rs:72-80`. -/
instance : Wire Loader.Format := ⟨putFormat, takeFormat⟩

/-- `Vec<Format>` -/
instance formats : Wire (List Loader.Format) := ⟨putList, takeList⟩

/-- `loader::Defaults`, `/repo/src/metadata/loader.rs:24-28`. -/
def putDefaults (d : Loader.Defaults) : List Nat :=
  [put d.format, put d.descriptor].flatten

/-- `loader::Defaults`, `/repo/src/metadata/loader.rs:24-28`. -/
def takeDefaults (bs : List Nat) : Option (Loader.Defaults × List Nat) := do
  let (a, bs) ← take bs
  let (b, bs) ← take bs
  some (⟨a, b⟩, bs)

/-- `loader::Defaults`, `/repo/src/metadata/loader.rs:24-28`. -/
instance : Wire Loader.Defaults := ⟨putDefaults, takeDefaults⟩

/-- `loader::Metadata`, `/repo/src/metadata/loader.rs:31-69`. -/
def putMetadata (m : Loader.Metadata) : List Nat :=
  [put m.general, put m.fixedLine, put m.mobile, put m.tollFree, put m.premiumRate, put m.sharedCost,
   put m.personalNumber, put m.voip, put m.pager, put m.uan, put m.emergency, put m.voicemail,
   put m.shortCode, put m.standardRate, put m.carrier, put m.noInternational,
   put m.id, put m.countryCode,
   put m.internationalPrefix, put m.preferredInternationalPrefix, put m.nationalPrefix,
   put m.preferredExtensionPrefix, put m.nationalPrefixForParsing, put m.nationalPrefixTransformRule,
   put m.formats, put m.internationalFormats,
   put m.mainCountryForCode, put m.leadingDigits, put m.mobileNumberPortable, put m.defaults].flatten

/-- `loader::Metadata`, `/repo/src/metadata/loader.rs:31-69`. -/
def takeMetadata (bs : List Nat) : Option (Loader.Metadata × List Nat) := do
  let (general, bs) ← take bs
  let (fixedLine, bs) ← take bs
  let (mobile, bs) ← take bs
  let (tollFree, bs) ← take bs
  let (premiumRate, bs) ← take bs
  let (sharedCost, bs) ← take bs
  let (personalNumber, bs) ← take bs
  let (voip, bs) ← take bs
  let (pager, bs) ← take bs
  let (uan, bs) ← take bs
  let (emergency, bs) ← take bs
  let (voicemail, bs) ← take bs
  let (shortCode, bs) ← take bs
  let (standardRate, bs) ← take bs
  let (carrier, bs) ← take bs
  let (noInternational, bs) ← take bs
  let (id, bs) ← take bs
  let (countryCode, bs) ← take bs
  let (internationalPrefix, bs) ← take bs
  let (preferredInternationalPrefix, bs) ← take bs
  let (nationalPrefix, bs) ← take bs
  let (preferredExtensionPrefix, bs) ← take bs
  let (nationalPrefixForParsing, bs) ← take bs
  let (nationalPrefixTransformRule, bs) ← take bs
  let (formats, bs) ← take bs
  let (internationalFormats, bs) ← take bs
  let (mainCountryForCode, bs) ← take bs
  let (leadingDigits, bs) ← take bs
  let (mobileNumberPortable, bs) ← take bs
  let (defaults, bs) ← take bs
  some (⟨general, fixedLine, mobile, tollFree, premiumRate, sharedCost, personalNumber, voip, pager, uan, emergency,
    voicemail, shortCode, standardRate, carrier, noInternational, id, countryCode, internationalPrefix,
    preferredInternationalPrefix, nationalPrefix, preferredExtensionPrefix, nationalPrefixForParsing,
    nationalPrefixTransformRule, formats, internationalFormats, mainCountryForCode, leadingDigits,
    mobileNumberPortable, defaults⟩, bs)

/-- `loader::Metadata`, `/repo/src/metadata/loader.rs:31-69`. -/
instance : Wire Loader.Metadata := ⟨putMetadata, takeMetadata⟩

/-- `Vec<loader::Metadata>` -/
instance territories : Wire (List Loader.Metadata) := ⟨putList, takeList⟩

/-- `postcard::to_io` -/
def toBytes (ms : List Loader.Metadata) : List Nat := put ms

/-- `postcard::from_bytes`: bytes left over are ignored. -/
def fromBytes (bs : List Nat) : Option (List Loader.Metadata) := (take bs).map Prod.fst

end Postcard

section
variable (compile : Str → Option Regex)

/-- `Database::parse`, `/repo/src/metadata/database.rs:50-52`; also `Database::load`, `/repo/src/metadata/database.rs:45-47`, on
the text of the file. -/
def Database.parse (content : Str) : Outcome LoadErr Database := do
  let ms ← Loader.load (XmlReader.read content)
  Database.from compile ms

/-- `Result::unwrap` and `Result::expect`. -/
def Outcome.unwrapped {ε α : Type} : Outcome ε α → Outcome Empty α
  | .ok a => .ok a
  | .err _ => .panic .unwrap
  | .panic p => .panic p

/-- `main` of `/repo/build.rs:12-26`: the bytes of `database.bin` for the text of `assets/PhoneNumberMetadata.xml`. -/
def Build.main (asset : Str) : Outcome Empty (List Nat) := do
  let metadata ← (Loader.load (XmlReader.read asset)).unwrapped
  .ok (Postcard.toBytes metadata)

/-- The initialiser of `DEFAULT`, `/repo/src/metadata/database.rs:31-32`, on the bytes of `database.bin`. -/
def Database.default (bytes : List Nat) : Outcome Empty Database := do
  let ms ← Outcome.unwrap (Postcard.fromBytes bytes)
  (Database.from compile ms).unwrapped

end
end Phone
