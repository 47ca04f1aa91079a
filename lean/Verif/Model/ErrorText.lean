import Verif.Model.NationalNumber
/-! # The texts of parse errors, `/repo/src/error.rs` -/

namespace Phone

/-- `Display` of `core::num::ParseIntError`. -/
def IntErr.text : IntErr → Str
  | .empty => str% "cannot parse integer from empty string"
  | .invalidDigit => str% "invalid digit found in string"
  | .posOverflow => str% "number too large to fit in target type"

/-- `Display` of `error::Parse` as derived from its `#[error]` attributes, `/repo/src/error.rs:54-89`. -/
def ParseErr.text : ParseErr → Str
  | .noNumber => str% "not a number"
  | .invalidCountryCode => str% "invalid country code"
  | .tooShortAfterIdd => str% "the number is too short after IDD"
  | .tooShortNsn => str% "the number is too short after the country code"
  | .tooLong => str% "the number is too long"
  | .malformedInteger k => (str% "malformed integer part in phone number: ") ++ k.text

end Phone
