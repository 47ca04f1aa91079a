import Verif.Model.CountryId
import Verif.Model.NationalNumber
import Verif.Regex.Match
/-! # Data types: `/repo/src/country.rs`, `/repo/src/phone_number.rs`, `/repo/src/metadata/*.rs` -/

namespace Phone

/-- `country::Source`, `/repo/src/country.rs:54-78`; `Default` is the `Default::default()`. -/
inductive Source where
  | plus
  | idd
  | number
  | default
  deriving DecidableEq, Repr

/-- `country::Code`, `/repo/src/country.rs:21-28`; `value` is a `u16`, always produced by a `u16` parse. -/
structure Code where
  value : Nat
  source : Source
  deriving DecidableEq, Repr

/-- `PartialEq for Code`, `/repo/src/country.rs:30-38`: the source is ignored. -/
def Code.eq (a b : Code) : Bool := a.value == b.value

/-- `phone_number::Type`, `/repo/src/phone_number.rs:81-140`. -/
inductive PType where
  | fixedLine | mobile | fixedLineOrMobile | tollFree | premiumRate | sharedCost | personalNumber | voip | pager | uan
  | emergency | voicemail | shortCode | standardRate | carrier | noInternational | unknown
  deriving DecidableEq, Repr

/-- `PhoneNumber`, `/repo/src/phone_number.rs:32-72`. -/
structure PhoneNumber where
  code : Code
  national : NationalNumber
  extension : Option Str
  carrier : Option Str
  deriving DecidableEq, Repr

/-- `derive(PartialEq)` of `PhoneNumber`, `/repo/src/phone_number.rs:31`: fieldwise, using `Code`'s equality. -/
def PhoneNumber.eq (a b : PhoneNumber) : Bool :=
  a.code.eq b.code && a.national == b.national && a.extension == b.extension && a.carrier == b.carrier

/-- `metadata::Descriptor`, `/repo/src/metadata/descriptor.rs:19-26`. -/
structure Descriptor where
  nationalNumber : Regex
  possibleLength : List Nat
  possibleLocalLength : List Nat
  example? : Option Str
  deriving DecidableEq, Repr

/-- `metadata::Descriptors`, `/repo/src/metadata/metadata.rs:44-61`. -/
structure Descriptors where
  general : Descriptor
  fixedLine : Option Descriptor
  mobile : Option Descriptor
  tollFree : Option Descriptor
  premiumRate : Option Descriptor
  sharedCost : Option Descriptor
  personalNumber : Option Descriptor
  voip : Option Descriptor
  pager : Option Descriptor
  uan : Option Descriptor
  emergency : Option Descriptor
  voicemail : Option Descriptor
  shortCode : Option Descriptor
  standardRate : Option Descriptor
  carrier : Option Descriptor
  noInternational : Option Descriptor
  deriving DecidableEq, Repr

/-- `metadata::Format`, `/repo/src/metadata/format.rs:19-27`. -/
structure Format where
  pattern : Regex
  format : Str
  leadingDigits : List Regex
  nationalPrefix : Option Str
  nationalPrefixOptional : Bool
  domesticCarrier : Option Str
  deriving DecidableEq, Repr

/-- `metadata::Metadata`, `/repo/src/metadata/metadata.rs:23-40`. -/
structure Metadata where
  descriptors : Descriptors
  id : Str
  countryCode : Nat
  internationalPrefix : Option Regex
  preferredInternationalPrefix : Option Str
  nationalPrefix : Option Str
  preferredExtensionPrefix : Option Str
  nationalPrefixForParsing : Option Regex
  nationalPrefixTransformRule : Option Str
  formats : List Format
  internationalFormats : List Format
  mainCountryForCode : Bool
  leadingDigits : Option Regex
  mobileNumberPortable : Bool
  deriving DecidableEq, Repr

/-- `Descriptor::is_match`, `/repo/src/metadata/descriptor.rs:74-86`; `value.len() as u16` wraps at 65536. -/
def Descriptor.isMatch [UnicodeTables] (d : Descriptor) (value : Str) : Bool :=
  if d.possibleLength ≠ [] ∧ (byteLen value % 65536) ∉ d.possibleLength then false
  else ((d.nationalNumber.find value).map fun m => decide (m.start = 0)).getD false

/-- `Descriptors::get`, `/repo/src/metadata/metadata.rs:239-273`. -/
def Descriptors.get (d : Descriptors) : PType → Option Descriptor
  | .unknown => some d.general
  | .fixedLine | .fixedLineOrMobile => d.fixedLine
  | .mobile => d.mobile
  | .tollFree => d.tollFree
  | .premiumRate => d.premiumRate
  | .sharedCost => d.sharedCost
  | .personalNumber => d.personalNumber
  | .voip => d.voip
  | .pager => d.pager
  | .uan => d.uan
  | .emergency => d.emergency
  | .voicemail => d.voicemail
  | .shortCode => d.shortCode
  | .standardRate => d.standardRate
  | .carrier => d.carrier
  | .noInternational => d.noInternational

/-- `metadata::Database`, `/repo/src/metadata/database.rs:36-40`. Hash maps are association lists; iteration order of the
map is not modelled. -/
structure Database where
  byIdMap : List (Str × Metadata)
  byCodeMap : List (Nat × List Metadata)
  regionsMap : List (Nat × List Str)
  deriving DecidableEq, Repr

namespace Database

/-- `FnvHashMap::get`. -/
def lookup {κ α : Type} [DecidableEq κ] (k : κ) : List (κ × α) → Option α
  | [] => none
  | (k', a) :: xs => if k' = k then some a else lookup k xs

/-- `Database::by_id`, `/repo/src/metadata/database.rs:218-224`. -/
def byId (db : Database) (id : Str) : Option Metadata := lookup id db.byIdMap
/-- `Database::by_code`, `/repo/src/metadata/database.rs:227-235`. -/
def byCode (db : Database) (code : Nat) : Option (List Metadata) := lookup code db.byCodeMap
/-- `Database::region`, `/repo/src/metadata/database.rs:238-246`. -/
def region (db : Database) (code : Nat) : Option (List Str) := lookup code db.regionsMap
/-- `Database::iter`, `/repo/src/metadata/database.rs:249-251` (in unspecified order). -/
def iter (db : Database) : List Metadata := db.byIdMap.map Prod.snd

end Database

/-- `helper::Number`, `/repo/src/parser/helper.rs:62-69`. -/
structure Number where
  country : Source := .default
  national : Str
  pref : Option Str := none
  extension : Option Str := none
  carrier : Option Str := none
  deriving DecidableEq, Repr

end Phone
