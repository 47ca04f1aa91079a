import Verif.Model.Types
import Verif.Model.Consts
import Verif.Model.Valid
/-! # `/repo/src/validator.rs` -/

namespace Phone

/-- `Validation`, `/repo/src/validator.rs:25-48`. -/
inductive Validation where
  | isPossible
  | isPossibleLocalOnly
  | invalidCountryCode
  | tooShort
  | invalidLength
  | tooLong
  deriving DecidableEq, Repr

namespace Validation
/-- `Validation::is_possible`, `/repo/src/validator.rs:52-57`. -/
def possible : Validation → Bool
  | isPossible | isPossibleLocalOnly => true
  | _ => false
/-- `Validation::is_invalid`, `/repo/src/validator.rs:60-68`. -/
def invalid : Validation → Bool
  | invalidCountryCode | tooShort | invalidLength | tooLong => true
  | _ => false
/-- `Validation::is_invalid_length`, `/repo/src/validator.rs:71-76`. -/
def badLength : Validation → Bool
  | tooShort | invalidLength | tooLong => true
  | _ => false
end Validation

/-- `is_viable`, `/repo/src/validator.rs:80-88`. -/
def isViable (s : Str) : Bool :=
  if byteLen s < Consts.minLengthForNsn then false else (Valid.phoneNumber s).isSome

/-- `length`, `/repo/src/validator.rs:108-142`; `number.national.len() as u16` wraps at 65536. The national number is the
only part of `number` that is used. -/
def length (md : Metadata) (national : Str) (kind : PType) : Validation :=
  match md.descriptors.get kind with
  | none => .invalidLength
  | some desc =>
    let len := byteLen national % 65536
    let localLens := desc.possibleLocalLength
    let possible := if desc.possibleLength = [] then desc.possibleLength else md.descriptors.general.possibleLength
    match possible with
    | [] => .invalidLength
    | minimum :: more =>
      if len ∈ localLens then .isPossibleLocalOnly
      else if len = minimum then .isPossible
      else if len < minimum then .tooShort
      else if len > (minimum :: more).getLast (by simp) then .tooLong
      else if len ∈ possible then .isPossible
      else .invalidLength

section
variable [UnicodeTables]

/-- `d.as_ref().map(|d| d.is_match(value)).unwrap_or(false)`, used throughout `/repo/src/validator.rs:184-303`. -/
def descMatch (d : Option Descriptor) (value : Str) : Bool := (d.map (·.isMatch value)).getD false

/-- `number_type`, `/repo/src/validator.rs:179-309`. -/
def numberType (md : Metadata) (value : Str) : PType :=
  let d := md.descriptors
  if !d.general.isMatch value then .unknown
  else if descMatch d.premiumRate value then .premiumRate
  else if descMatch d.tollFree value then .tollFree
  else if descMatch d.sharedCost value then .sharedCost
  else if descMatch d.voip value then .voip
  else if descMatch d.personalNumber value then .personalNumber
  else if descMatch d.pager value then .pager
  else if descMatch d.uan value then .uan
  else if descMatch d.voicemail value then .voicemail
  else if descMatch d.fixedLine value then
    if d.fixedLine.map (·.nationalNumber.src) = d.mobile.map (·.nationalNumber.src) then .fixedLineOrMobile
    else if descMatch d.mobile value then .fixedLineOrMobile
    else .fixedLine
  else if descMatch d.mobile value then .mobile
  else .unknown

/-- Non-geographic region id, `/repo/src/validator.rs:152`. -/
def worldId : Str := str% "001"

/-- The test of one region in `source_for`, `/repo/src/validator.rs:165-173`. -/
def regionHit (md : Metadata) (national : Str) : Bool :=
  match md.leadingDigits with
  | some pattern => ((pattern.find national).map fun m => decide (m.start = 0)).getD false
  | none => numberType md national != .unknown

/-- The loop of `source_for`, `/repo/src/validator.rs:162-174`. -/
def sourceLoop {ε : Type} (db : Database) (national : Str) : List Str → Outcome ε (Option (Id ⊕ Nat))
  | [] => .ok none
  | region :: more => do
    let md ← Outcome.unwrap (db.byId region)
    if regionHit md national then
      let id ← Outcome.unwrap (Id.fromStr region)
      pure (some (.inl id))
    else sourceLoop db national more

/-- `source_for`, `/repo/src/validator.rs:145-177`. `Left(id)` is `inl`, `Right(code)` is `inr`. -/
def sourceFor {ε : Type} (db : Database) (code : Nat) (national : Str) : Outcome ε (Option (Id ⊕ Nat)) :=
  match db.region code with
  | none => .ok none
  | some regions =>
    match regions with
    | [r] => if r = worldId then .ok (some (.inr code)) else .ok ((Id.fromStr r).map .inl)
    | rs => sourceLoop db national rs

/-- The metadata for a result of `source_for`, `/repo/src/validator.rs:100-103`, `/repo/src/phone_number.rs:213-216`,
`/repo/src/parser/mod.rs:78-82`. -/
def sourceMeta (db : Database) : Id ⊕ Nat → Option Metadata
  | .inl region => db.byId region.asRef
  | .inr code => (db.byCode code).bind List.head?

/-- `is_valid_with`, `/repo/src/validator.rs:96-106`. -/
def isValidWith {ε : Type} (db : Database) (number : PhoneNumber) : Outcome ε Bool := do
  let national := number.national.display
  let src ← sourceFor db number.code.value national
  pure (((src.bind (sourceMeta db)).map fun md => numberType md national != .unknown).getD false)

/-- `PhoneNumber::metadata`, `/repo/src/phone_number.rs:208-217`. -/
def PhoneNumber.metadata {ε : Type} (number : PhoneNumber) (db : Database) : Outcome ε (Option Metadata) := do
  let src ← sourceFor db number.code.value (decStr number.national.value.toNat)
  pure (src.bind (sourceMeta db))

/-- `PhoneNumber::number_type_with`, `/repo/src/phone_number.rs:235-240`. -/
def PhoneNumber.numberTypeWith {ε : Type} (number : PhoneNumber) (db : Database) : Outcome ε PType := do
  let md ← number.metadata db
  pure (match md with
    | some m => numberType m (decStr number.national.value.toNat)
    | none => .unknown)

/-- `Country::id`, `/repo/src/phone_number.rs:248-254`, for an arbitrary database (the code uses the built-in one). -/
def PhoneNumber.countryId (number : PhoneNumber) (db : Database) : Outcome ParseErr (Option Id) := do
  let md ← number.metadata db
  match md with
  | none => pure none
  | some m => do
    let id ← Outcome.okOr .invalidCountryCode (Id.fromStr m.id)
    pure (some id)

end
end Phone
