import Verif.Basic.Str
/-! # `/repo/src/parser/valid.rs` and the character parsers of `/repo/src/parser/helper.rs`

nom parsers of one character (`one_of`) are modelled by the set of accepted characters; `many0` of such a parser drops the
longest accepted prefix. -/

namespace Phone.Valid

/-- `punctuation`, `/repo/src/parser/helper.rs:79-83`. (The hyphen between U+FF0D and U+FF0F is a plain character here:
`one_of` does not know ranges.) -/
def punctuationChars : Str :=
  ['-', 'x', '\u2010', '\u2011', '\u2012', '\u2013', '\u2014', '\u2015', '\u2212', '\u30FC', '\uFF0D', '-',
   '\uFF0F', ' ', '\u00A0', '\u00AD', '\u200B', '\u2060', '\u3000', '(', ')', '\uFF08', '\uFF09', '\uFF3B',
   '\uFF3D', '.', '[', ']', '/', '~', '\u2053', '\u223C', '\uFF5E']

/-- `punctuation`, `/repo/src/parser/helper.rs:79-83`. -/
def punctuation (c : Char) : Bool := containsChar punctuationChars c

/-- `alpha`, `/repo/src/parser/helper.rs:85-87`. -/
def alpha (c : Char) : Bool :=
  containsChar (str% "abcdefghijklmnopqrstuvwxyzABCDEFGHIJKLMNOPQRSTUVWXYZ") c

/-- `digit`, `/repo/src/parser/helper.rs:90-92`. -/
def digit (c : Char) : Bool := containsChar (str% "0123456789") c

/-- `plus`, `/repo/src/parser/helper.rs:94-96`. -/
def plus (c : Char) : Bool := containsChar ['+', '\uFF0B'] c

/-- `star`, `/repo/src/parser/helper.rs:98-100`. -/
def star (c : Char) : Bool := c == '*'

/-- `count(digit, 1)`: one digit. -/
def oneDigit : Str → Option Str
  | c :: cs => if digit c then some cs else none
  | [] => none

/-- `ieof`, `/repo/src/parser/helper.rs:71-77`. -/
def ieof (s : Str) : Option Unit := if s.isEmpty then some () else none

/-- `short`, `/repo/src/parser/valid.rs:22-29`: `MIN_LENGTH_FOR_NSN` (2) digits and the end of the input. -/
def short (s : Str) : Option Unit := do
  let s ← oneDigit s
  let s ← oneDigit s
  ieof s

/-- `first_group`, `/repo/src/parser/valid.rs:32-38`. -/
def firstGroup (s : Str) : Option Str := oneDigit (s.dropWhile fun c => punctuation c || star c)

/-- `long`, `/repo/src/parser/valid.rs:31-49`. -/
def long (s : Str) : Option Unit := do
  let s := s.dropWhile plus
  let s ← firstGroup s
  let s ← firstGroup s
  let s ← firstGroup s
  let s := s.dropWhile fun c => punctuation c || star c || digit c
  let s := s.dropWhile fun c => punctuation c || star c || digit c || alpha c
  ieof s

/-- `phone_number`, `/repo/src/parser/valid.rs:18-20`; only success or failure is used. -/
def phoneNumber (s : Str) : Option Unit := (short s).orElse fun _ => long s

end Phone.Valid
