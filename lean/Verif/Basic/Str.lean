import Lean.Elab.Command
import Verif.Basic.Outcome
/-! # Strings, UTF-8 byte offsets and integers

Rust `str` is modelled as the list of its characters. Indices in the Rust code are byte offsets into the UTF-8
encoding; `byteLen`, `takeBytes` and `dropBytes` give them their meaning on lists of characters. -/

namespace Phone

/-- A Rust string: the sequence of its characters. -/
abbrev Str := List Char

/-- Character-list literal: `str% "ab"` is `['a', 'b']`. -/
elab "str%" s:str : term => return Lean.toExpr s.getString.toList

/-- `str::len`: number of UTF-8 bytes. -/
def byteLen : Str → Nat
  | [] => 0
  | c :: cs => c.utf8Size + byteLen cs

/-- `&s[n..]`; `none` when `n` is out of range or not a character boundary (Rust panics). -/
def dropBytes : Str → Nat → Option Str
  | [], n => if n = 0 then some [] else none
  | c :: cs, n =>
    if n = 0 then some (c :: cs)
    else if c.utf8Size ≤ n then dropBytes cs (n - c.utf8Size) else none

/-- `&s[..n]`; `none` when `n` is out of range or not a character boundary (Rust panics). -/
def takeBytes : Str → Nat → Option Str
  | [], n => if n = 0 then some [] else none
  | c :: cs, n =>
    if n = 0 then some []
    else if c.utf8Size ≤ n then (takeBytes cs (n - c.utf8Size)).map (c :: ·) else none

/-- `str::strip_prefix` on strings: the rest after the prefix. -/
def stripPrefix : Str → Str → Option Str
  | [], s => some s
  | _ :: _, [] => none
  | p :: ps, c :: cs => if p = c then stripPrefix ps cs else none

/-- `str::starts_with`. -/
def startsWith (s p : Str) : Bool := (stripPrefix p s).isSome

/-- `char::is_ascii_digit`; also nom 7 `AsChar::is_dec_digit` for `char`. -/
def isDigit (c : Char) : Bool := 48 ≤ c.toNat && c.toNat ≤ 57

/-- `char::is_ascii_alphabetic`. -/
def isAlpha (c : Char) : Bool := (65 ≤ c.toNat && c.toNat ≤ 90) || (97 ≤ c.toNat && c.toNat ≤ 122)

/-- `char::is_ascii_hexdigit`. -/
def isHex (c : Char) : Bool :=
  isDigit c || (65 ≤ c.toNat && c.toNat ≤ 70) || (97 ≤ c.toNat && c.toNat ≤ 102)

/-- Decimal digit value of a character; only meaningful when `isDigit`. -/
def digitVal (c : Char) : Nat := c.toNat - 48

/-- Value of a decimal digit string, most significant digit first. -/
def decVal (s : Str) : Nat := s.foldl (fun n c => 10 * n + digitVal c) 0

/-- The ASCII character for a digit 0..9. -/
def digitChar (d : Nat) : Char := Char.ofNat (48 + d)

/-- Worker of `decStr`: `fuel > n` suffices. -/
def decAux : Nat → Nat → Str → Str
  | 0, _, acc => acc
  | f + 1, n, acc =>
    if n < 10 then digitChar n :: acc else decAux f (n / 10) (digitChar (n % 10) :: acc)

/-- `to_string` / `{}` of an unsigned integer. -/
def decStr (n : Nat) : Str := decAux (n + 1) n []

/-- Drop a leading `+` that is followed by something. -/
def optPlus : Str → Str
  | '+' :: c :: cs => c :: cs
  | s => s

/-- Rust's `str::parse` for an unsigned integer type with `bound` values (`u16`: 65536, `u64`: 2^64):
an optional leading `+` (not on its own), at least one ASCII digit, nothing else, value in range.
`none` stands for every `ParseIntError`, see `intErr`. -/
def parseUInt (bound : Nat) (s : Str) : Option Nat :=
  let ds := optPlus s
  if ds ≠ [] ∧ ds.all isDigit ∧ decVal ds < bound then some (decVal ds) else none

/-- `core::num::IntErrorKind`, as far as it occurs for unsigned types. -/
inductive IntErr where
  | empty
  | invalidDigit
  | posOverflow
  deriving DecidableEq, Repr

/-- The first reason not to go on, reading digits from the left with the value `acc` so far: a character that is no digit, or a value
out of range. -/
def intScan (bound : Nat) : Nat → Str → IntErr
  | _, [] => .empty
  | acc, c :: cs =>
    if isDigit c then (if 10 * acc + digitVal c < bound then intScan bound (10 * acc + digitVal c) cs else .posOverflow) else .invalidDigit

/-- The kind of the `ParseIntError` if `parseUInt` fails. -/
def intErr (bound : Nat) (s : Str) : IntErr := intScan bound 0 (optPlus s)

/-- Number of values of `u16`. -/
def u16Bound : Nat := 65536
/-- Number of values of `u64`. -/
def u64Bound : Nat := 18446744073709551616

/-- `str::contains(char)`. -/
def containsChar (s : Str) (c : Char) : Bool := s.any (· == c)

end Phone
