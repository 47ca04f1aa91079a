import Verif.Model.Database
/-! # The texts of metadata errors, `/repo/src/error.rs:19-48` -/

namespace Phone

/-- What core's tables say about characters outside ASCII: whether `Debug` of a string leaves them as they are, which it does for
printable characters that do not extend the one before (`char::is_printable`, `Grapheme_Extend`). Only law: control characters and the
separators of lines and paragraphs are not printable. -/
class DebugTables where
  plain : Char → Bool
  plain_shown : ∀ c, plain c = true → ¬ (128 ≤ c.toNat ∧ c.toNat < 160) ∧ c.toNat ≠ 0x2028 ∧ c.toNat ≠ 0x2029

/-- A hexadecimal digit. -/
def hexDigit (n : Nat) : Char := if n < 10 then Char.ofNat (48 + n) else Char.ofNat (87 + n)

/-- The hexadecimal digits of a number below 16^k before `acc`. -/
def hexAux : Nat → Nat → Str → Str
  | 0, _, acc => acc
  | k + 1, n, acc => if n < 16 then hexDigit n :: acc else hexAux k (n / 16) (hexDigit (n % 16) :: acc)

/-- The character is printable and does not extend the one before. -/
def shown [DebugTables] (c : Char) : Bool :=
  if c.toNat < 128 then decide (32 ≤ c.toNat ∧ c.toNat ≠ 127) else DebugTables.plain c

/-- `char::escape_debug_ext` of core as called by `Debug` of `str`: double quotes are escaped, single ones are not. -/
def escapeChar [DebugTables] (c : Char) : Str :=
  if c.toNat = 0 then ['\\', '0']
  else if c = '\t' then ['\\', 't']
  else if c = '\r' then ['\\', 'r']
  else if c = '\n' then ['\\', 'n']
  else if c = '\\' ∨ c = '"' then ['\\', c]
  else if shown c then [c]
  else ['\\', 'u', '{'] ++ hexAux 6 c.toNat ['}']

/-- `Debug` of `str`, the rendering `{:?}` of a string. -/
def quoted [DebugTables] (s : Str) : Str := '"' :: (s.flatMap escapeChar ++ ['"'])

/-- `Display` of `error::Metadata` as derived from its `#[error]` attributes, `/repo/src/error.rs:19-48`. The debug rendering of an
unhandled event is not part of the model's error, so it is a parameter. -/
def MetadataErr.text [DebugTables] (event : Str) : MetadataErr → Str
  | .unexpectedEof => str% "unexpected end of file"
  | .mismatchedTag n => (str% "mismatched tag: ") ++ quoted n
  | .missingValue p n => p ++ (str% ": missing value: ") ++ quoted n
  | .unhandledElement p n => p ++ (str% ": unhandled element: ") ++ quoted n
  | .unhandledAttribute p n v => p ++ (str% ": unhandled attribute: ") ++ quoted n ++ ['='] ++ quoted v
  | .unhandledEvent p => p ++ (str% ": unhandled event: ") ++ quoted event

end Phone
