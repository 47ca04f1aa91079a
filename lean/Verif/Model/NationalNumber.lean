import Verif.Basic.Str
/-! # `/repo/src/error.rs` (parse errors) and `/repo/src/national_number.rs` -/

namespace Phone

/-- `error::Parse`, `/repo/src/error.rs:54-89`. A `ParseIntError` is its kind. -/
inductive ParseErr where
  | noNumber
  | invalidCountryCode
  | tooShortAfterIdd
  | tooShortNsn
  | tooLong
  | malformedInteger (kind : IntErr)
  deriving DecidableEq, Repr

/-- `NationalNumber { value: u64 }`, `/repo/src/national_number.rs:20-22`. -/
structure NationalNumber where
  raw : UInt64
  deriving DecidableEq, Repr

namespace NationalNumber

/-- `NationalNumber::new(value: u64, zeros: u8)`, `/repo/src/national_number.rs:36-46`. -/
def new (value : UInt64) (zeros : UInt8) : Outcome ParseErr NationalNumber :=
  if value ≥ ((1 : UInt64) <<< 56) then .err .tooLong
  else .ok ⟨(zeros.toUInt64 <<< 56) ||| value⟩

/-- `NationalNumber::value`, `/repo/src/national_number.rs:49-51`. -/
def value (n : NationalNumber) : UInt64 := n.raw &&& 0x00ffffffffffffff

/-- `NationalNumber::zeros`, `/repo/src/national_number.rs:72-74`. -/
def zeros (n : NationalNumber) : UInt8 := (n.raw >>> 56).toUInt8

/-- `From<NationalNumber> for u64`, `/repo/src/national_number.rs:77-81`. -/
def toU64 (n : NationalNumber) : UInt64 := n.raw

/-- `FromStr`, `/repo/src/national_number.rs:24-33`. The zeros are ASCII, so the slice at their count is on a boundary and
cannot panic: it is the rest after `takeWhile`. `zeros as u8` wraps. -/
def fromStr (s : Str) : Outcome ParseErr NationalNumber :=
  let zeros := (s.takeWhile (· == '0')).length
  do
    let rest ← Outcome.slice (dropBytes s zeros)
    let value ← Outcome.okOr (.malformedInteger (intErr u64Bound rest)) (parseUInt u64Bound rest)
    new (UInt64.ofNat value) (UInt8.ofNat zeros)

/-- `Display`, `/repo/src/national_number.rs:83-91`. -/
def display (n : NationalNumber) : Str := List.replicate n.zeros.toNat '0' ++ decStr n.value.toNat

end NationalNumber
end Phone
