import Verif.Model.Types
/-! # `/repo/src/metadata/database.rs` and the data types of `/repo/src/metadata/loader.rs` -/

namespace Phone

namespace Loader

/-- `loader::Format`, `/repo/src/metadata/loader.rs:73-80`. -/
structure Format where
  pattern : Option Str := none
  format : Option Str := none
  leadingDigits : List Str := []
  nationalPrefixFormattingRule : Option Str := none
  nationalPrefixOptionalWhenFormatting : Bool := false
  domesticCarrier : Option Str := none
  deriving DecidableEq, Repr

/-- `loader::Descriptor`, `/repo/src/metadata/loader.rs:84-89`. -/
structure Descriptor where
  nationalNumber : Option Str := none
  possibleLength : List Nat := []
  possibleLocalLength : List Nat := []
  example? : Option Str := none
  deriving DecidableEq, Repr

/-- `loader::Defaults`, `/repo/src/metadata/loader.rs:25-28`. -/
structure Defaults where
  format : Format := {}
  descriptor : Descriptor := {}
  deriving DecidableEq, Repr

/-- `loader::Metadata`, `/repo/src/metadata/loader.rs:32-69`. -/
structure Metadata where
  general : Option Descriptor := none
  fixedLine : Option Descriptor := none
  mobile : Option Descriptor := none
  tollFree : Option Descriptor := none
  premiumRate : Option Descriptor := none
  sharedCost : Option Descriptor := none
  personalNumber : Option Descriptor := none
  voip : Option Descriptor := none
  pager : Option Descriptor := none
  uan : Option Descriptor := none
  emergency : Option Descriptor := none
  voicemail : Option Descriptor := none
  shortCode : Option Descriptor := none
  standardRate : Option Descriptor := none
  carrier : Option Descriptor := none
  noInternational : Option Descriptor := none
  id : Option Str := none
  countryCode : Option Nat := none
  internationalPrefix : Option Str := none
  preferredInternationalPrefix : Option Str := none
  nationalPrefix : Option Str := none
  preferredExtensionPrefix : Option Str := none
  nationalPrefixForParsing : Option Str := none
  nationalPrefixTransformRule : Option Str := none
  formats : List Format := []
  internationalFormats : List Format := []
  mainCountryForCode : Bool := false
  leadingDigits : Option Str := none
  mobileNumberPortable : Bool := false
  defaults : Defaults := {}
  deriving DecidableEq, Repr

end Loader

/-- `error::Metadata`, `/repo/src/error.rs:19-48`. The debug rendering of the unhandled event is dropped. -/
inductive MetadataErr where
  | unexpectedEof
  | mismatchedTag (name : Str)
  | missingValue (phase name : Str)
  | unhandledElement (phase name : Str)
  | unhandledAttribute (phase name value : Str)
  | unhandledEvent (phase : Str)
  deriving DecidableEq, Repr

/-- `error::LoadMetadata`, `/repo/src/error.rs:93-121`, without the payloads of the library errors and without the I/O error
(reading the file is not modelled). `outOfFuel` is an artefact of the model; it never occurs (see `Verif/Props/Loader`). -/
inductive LoadErr where
  | xml
  | utf8
  | metadata (e : MetadataErr)
  | integer
  | bool
  | regex
  | outOfFuel
  deriving DecidableEq, Repr

namespace Database

/-- `FnvHashMap::insert` on an association list: replace or add. -/
def insert {κ α : Type} [DecidableEq κ] (k : κ) (a : α) : List (κ × α) → List (κ × α)
  | [] => [(k, a)]
  | (k', a') :: xs => if k' = k then (k', a) :: xs else (k', a') :: insert k a xs

/-- `*map.entry(k).or_insert_with(Vec::new)` updated with `f`. -/
def upsert {κ α : Type} [DecidableEq κ] (k : κ) (f : List α → List α) : List (κ × List α) → List (κ × List α)
  | [] => [(k, f [])]
  | (k', a') :: xs => if k' = k then (k', f a') :: xs else (k', a') :: upsert k f xs

/-- The empty database, `/repo/src/metadata/database.rs:188-190`. -/
def empty : Database := ⟨[], [], []⟩

/-- Body of the loop of `Database::from` for one converted entry, `/repo/src/metadata/database.rs:192-208`. -/
def add (db : Database) (md : Phone.Metadata) : Database :=
  { byIdMap := insert md.id md db.byIdMap
    byCodeMap := upsert md.countryCode (fun l => if md.mainCountryForCode then md :: l else l ++ [md]) db.byCodeMap
    regionsMap := upsert md.countryCode (fun l => if md.mainCountryForCode then md.id :: l else l ++ [md.id])
      db.regionsMap }

section
variable (compile : Str → Option Regex)

/-- The closure `regex`, `/repo/src/metadata/database.rs:65-67`; `compile` stands for
`RegexBuilder::new(..).ignore_whitespace(true).build()`. -/
def regex (s : Str) : Outcome LoadErr Regex := Outcome.okOr .regex (compile s)

/-- `tranpose(x.map(f))?`, `/repo/src/metadata/database.rs:55-63`. -/
def transpose {α β : Type} (f : α → Outcome LoadErr β) : Option α → Outcome LoadErr (Option β)
  | none => .ok none
  | some a => do
    let b ← f a
    .ok (some b)

/-- `xs.into_iter().map(f).collect::<Result<_, _>>()?`. -/
def collect {α β : Type} (f : α → Outcome LoadErr β) : List α → Outcome LoadErr (List β)
  | [] => .ok []
  | a :: as => do
    let b ← f a
    let bs ← collect f as
    .ok (b :: bs)

/-- `error::Metadata::MissingValue` for the given phase and name. -/
def missing (phase name : Str) : LoadErr := .metadata (.missingValue phase name)

/-- The closure `descriptor`, `/repo/src/metadata/database.rs:69-89`: `national_number.unwrap()` panics when absent. -/
def descriptor (d : Loader.Descriptor) : Outcome LoadErr Phone.Descriptor := do
  let src ← Outcome.unwrap d.nationalNumber
  let re ← regex compile src
  .ok { nationalNumber := re
        possibleLength := d.possibleLength
        possibleLocalLength := d.possibleLocalLength
        example? := d.example? }

/-- The closure `format`, `/repo/src/metadata/database.rs:91-121`. -/
def format (f : Loader.Format) : Outcome LoadErr Phone.Format := do
  let src ← Outcome.okOr (missing (str% "format") (str% "pattern")) f.pattern
  let pattern ← regex compile src
  let fmt ← Outcome.okOr (missing (str% "format") (str% "format")) f.format
  let leading ← collect (regex compile) f.leadingDigits
  .ok { pattern := pattern
        format := fmt
        leadingDigits := leading
        nationalPrefix := f.nationalPrefixFormattingRule
        nationalPrefixOptional := f.nationalPrefixOptionalWhenFormatting
        domesticCarrier := f.domesticCarrier }

/-- The closure `metadata`, `/repo/src/metadata/database.rs:123-186`, fields in evaluation order. -/
def metadata (m : Loader.Metadata) : Outcome LoadErr Phone.Metadata := do
  let g ← Outcome.okOr (missing (str% "metadata") (str% "generalDesc")) m.general
  let general ← descriptor compile g
  let fixedLine ← transpose (descriptor compile) m.fixedLine
  let mobile ← transpose (descriptor compile) m.mobile
  let tollFree ← transpose (descriptor compile) m.tollFree
  let premiumRate ← transpose (descriptor compile) m.premiumRate
  let sharedCost ← transpose (descriptor compile) m.sharedCost
  let personalNumber ← transpose (descriptor compile) m.personalNumber
  let voip ← transpose (descriptor compile) m.voip
  let pager ← transpose (descriptor compile) m.pager
  let uan ← transpose (descriptor compile) m.uan
  let emergency ← transpose (descriptor compile) m.emergency
  let voicemail ← transpose (descriptor compile) m.voicemail
  let shortCode ← transpose (descriptor compile) m.shortCode
  let standardRate ← transpose (descriptor compile) m.standardRate
  let carrier ← transpose (descriptor compile) m.carrier
  let noInternational ← transpose (descriptor compile) m.noInternational
  let id ← Outcome.okOr (missing (str% "metadata") (str% "id")) m.id
  let countryCode ← Outcome.okOr (missing (str% "metadata") (str% "countryCode")) m.countryCode
  let internationalPrefix ← transpose (regex compile) m.internationalPrefix
  let parsing ← transpose (regex compile) m.nationalPrefixForParsing
  let formats ← collect (format compile) m.formats
  let internationalFormats ← collect (format compile) m.internationalFormats
  let leadingDigits ← transpose (regex compile) m.leadingDigits
  .ok { descriptors := ⟨general, fixedLine, mobile, tollFree, premiumRate, sharedCost, personalNumber, voip, pager, uan,
          emergency, voicemail, shortCode, standardRate, carrier, noInternational⟩
        id := id
        countryCode := countryCode
        internationalPrefix := internationalPrefix
        preferredInternationalPrefix := m.preferredInternationalPrefix
        nationalPrefix := m.nationalPrefix
        preferredExtensionPrefix := m.preferredExtensionPrefix
        nationalPrefixForParsing := parsing
        nationalPrefixTransformRule := m.nationalPrefixTransformRule
        formats := formats
        internationalFormats := internationalFormats
        mainCountryForCode := m.mainCountryForCode
        leadingDigits := leadingDigits
        mobileNumberPortable := m.mobileNumberPortable }

/-- The loop of `Database::from`, `/repo/src/metadata/database.rs:192-208`. -/
def fromLoop (db : Database) : List Loader.Metadata → Outcome LoadErr Database
  | [] => .ok db
  | m :: ms => do
    let md ← metadata compile m
    fromLoop (db.add md) ms

/-- `Database::from`, `/repo/src/metadata/database.rs:54-215`. -/
def «from» (ms : List Loader.Metadata) : Outcome LoadErr Database := fromLoop compile empty ms

end

end Database
end Phone
