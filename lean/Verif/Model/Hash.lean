import Verif.Model.Types
/-! # `Hash` implementations

A hasher is modelled by the sequence of writes it receives, so equal sequences give equal hashes with every hasher. -/

namespace Phone

/-- One call on a `Hasher`. -/
inductive HashWrite where
  /-- `write_u16` -/
  | u16 (n : Nat)
  /-- `write_u64` -/
  | u64 (n : UInt64)
  /-- `write_isize`, for the discriminant of an `Option` -/
  | disc (n : Nat)
  /-- `write_str` -/
  | str (s : Str)
  deriving DecidableEq, Repr

/-- `Hash for Code`, `/repo/src/country.rs:42-50`. -/
def Code.hashWrites (c : Code) : List HashWrite := [.u16 c.value]

/-- `derive(Hash)` of `Option<Extension>` and `Option<Carrier>`, `/repo/src/extension.rs:20`, `/repo/src/carrier.rs:20`. -/
def hashWritesOpt : Option Str → List HashWrite
  | none => [.disc 0]
  | some s => [.disc 1, .str s]

/-- `derive(Hash)` of `PhoneNumber`, `/repo/src/phone_number.rs:31`, and of `NationalNumber`, `/repo/src/national_number.rs:19`. -/
def PhoneNumber.hashWrites (n : PhoneNumber) : List HashWrite :=
  n.code.hashWrites ++ [.u64 n.national.raw] ++ hashWritesOpt n.extension ++ hashWritesOpt n.carrier

end Phone
