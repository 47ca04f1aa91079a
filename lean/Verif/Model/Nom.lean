import Verif.Model.Parse
/-! # The grammar as written: nom combinators

`Model/Valid` and `Model/Parse` have the grammars of `/repo/src/parser/valid.rs` and `/repo/src/parser/rfc3966.rs` with the
combinators of nom 7 expanded by hand. Here the combinators are defined and the grammars are written with them the way the
Rust code writes them; `Verif/Props/Nom.lean` proves that the expanded versions give the same results.

A parser takes the input and returns the remaining input and its output, or an error; `NomErr.error` is nom's recoverable
`Err::Error`, `NomErr.failure` is `Err::Failure`. The error values themselves (input and kind) are never looked at. -/

namespace Phone.Nom
open Helper

/-- `impl Fn(&str) -> IResult<&str, α>` -/
abbrev P (α : Type) := Str → Outcome NomErr (Str × α)

/-- `nom::character::complete::one_of` -/
def oneOf (list : Str) : P Char
  | [] => .err .error
  | c :: cs => if containsChar list c then .ok (cs, c) else .err .error

/-- `nom::character::complete::char` -/
def char (d : Char) : P Char
  | [] => .err .error
  | c :: cs => if c = d then .ok (cs, c) else .err .error

/-- `nom::bytes::complete::take_while` -/
def takeWhile (p : Char → Bool) : P Str := fun i => .ok (i.dropWhile p, i.takeWhile p)

/-- `nom::bytes::complete::take_while1` -/
def takeWhile1 (p : Char → Bool) : P Str := fun i =>
  if (i.takeWhile p).isEmpty then .err .error else .ok (i.dropWhile p, i.takeWhile p)

/-- `nom::bytes::complete::take_till1` -/
def takeTill1 (p : Char → Bool) : P Str := takeWhile1 fun c => !p c

/-- `nom::bytes::complete::tag_no_case`: the characters are compared one by one up to the end of the shorter text, after
conversion to lower case; if there is no difference and the input is long enough, as many bytes as the tag has are taken.
Simplification: only ASCII letters are converted (for the only tag, `Tel:`, no other character has one of its characters as
lower case). -/
def tagNoCase (tag : Str) : P Str := fun i =>
  if (i.zip tag).all fun p => Rfc3966.lower p.1 == Rfc3966.lower p.2 then
    if byteLen tag ≤ byteLen i then do
      let rest ← Outcome.slice (dropBytes i (byteLen tag))
      let out ← Outcome.slice (takeBytes i (byteLen tag))
      pure (rest, out)
    else .err .error
  else .err .error

/-- `nom::combinator::opt`: a recoverable error becomes `None` and consumes nothing. -/
def opt {α : Type} (p : P α) : P (Option α) := fun i =>
  match p i with
  | .ok (i', a) => .ok (i', some a)
  | .err .error => .ok (i, none)
  | .err .failure => .err .failure
  | .panic e => .panic e

/-- `nom::combinator::recognize`: the consumed part of the input. -/
def recognize {α : Type} (p : P α) : P Str := fun i =>
  match p i with
  | .ok (i', _) => .ok (i', i.take (i.length - i'.length))
  | .err e => .err e
  | .panic e => .panic e

/-- `nom::branch::alt` with two parsers: the second is tried after a recoverable error. (For three and four parsers:
nested.) -/
def alt {α : Type} (p q : P α) : P α := fun i =>
  match p i with
  | .ok r => .ok r
  | .err .error => q i
  | .err .failure => .err .failure
  | .panic e => .panic e

/-- `nom::multi::count` -/
def count {α : Type} (p : P α) : Nat → P (List α)
  | 0 => fun i => .ok (i, [])
  | n + 1 => fun i => do
    let (i, a) ← p i
    let (i, as) ← count p n i
    pure (i, a :: as)

/-- The loop of `many0`/`many1` with at most `fuel` rounds. A round that succeeds without consuming input is an error (nom's
guard against endless loops). Running out of fuel is shown as a panic; with the length of the input plus one it cannot happen,
since every round shortens the input. -/
def manyLoop {α : Type} (p : P α) : Nat → P (List α)
  | 0 => fun _ => .panic .overflow
  | f + 1 => fun i =>
    match p i with
    | .err .error => .ok (i, [])
    | .err .failure => .err .failure
    | .panic e => .panic e
    | .ok (i', a) =>
      if byteLen i' = byteLen i then .err .error
      else do
        let (i'', as) ← manyLoop p f i'
        pure (i'', a :: as)

/-- `nom::multi::many0` -/
def many0 {α : Type} (p : P α) : P (List α) := fun i => manyLoop p (i.length + 1) i

/-- `nom::multi::many1`: as `many0`, but an error of the first round is returned. -/
def many1 {α : Type} (p : P α) : P (List α) := fun i =>
  match p i with
  | .err e => .err e
  | .panic e => .panic e
  | .ok (i', a) => do
    let (i'', as) ← manyLoop p (i'.length + 1) i'
    pure (i'', a :: as)

/-! ## `/repo/src/parser/helper.rs` -/

/-- `ieof`, `/repo/src/parser/helper.rs:71-77` -/
def ieof : P Unit := fun i => if i.isEmpty then .ok (i, ()) else .err .error

/-- `punctuation`, `/repo/src/parser/helper.rs:79-83` -/
def punctuation : P Char := oneOf
  ['-', 'x', '\u2010', '\u2011', '\u2012', '\u2013', '\u2014', '\u2015', '\u2212', '\u30FC', '\uFF0D', '-',
   '\uFF0F', ' ', '\u00A0', '\u00AD', '\u200B', '\u2060', '\u3000', '(', ')', '\uFF08', '\uFF09', '\uFF3B',
   '\uFF3D', '.', '[', ']', '/', '~', '\u2053', '\u223C', '\uFF5E']

/-- `alpha`, `/repo/src/parser/helper.rs:85-87` -/
def alpha : P Char := oneOf (str% "abcdefghijklmnopqrstuvwxyzABCDEFGHIJKLMNOPQRSTUVWXYZ")

/-- `digit`, `/repo/src/parser/helper.rs:90-92` -/
def digit : P Char := oneOf (str% "0123456789")

/-- `plus`, `/repo/src/parser/helper.rs:94-96` -/
def plus : P Char := oneOf ['+', '\uFF0B']

/-- `star`, `/repo/src/parser/helper.rs:98-100` -/
def star : P Char := oneOf ['*']

/-- `ignore_plus`, `/repo/src/parser/helper.rs:102-104` -/
def ignorePlus : P Str := recognize (many1 plus)

/-! ## `/repo/src/parser/valid.rs` -/
namespace Valid

/-- `short`, `/repo/src/parser/valid.rs:22-29` -/
def short : P Unit := fun i => do
  let (i, _) ← count digit Consts.minLengthForNsn i
  let (i, _) ← ieof i
  pure (i, ())

/-- `first_group`, `/repo/src/parser/valid.rs:32-38` -/
def firstGroup : P Unit := fun i => do
  let (i, _) ← many0 (alt punctuation star) i
  let (i, _) ← count digit 1 i
  pure (i, ())

/-- `long`, `/repo/src/parser/valid.rs:31-49` -/
def long : P Unit := fun i => do
  let (i, _) ← many0 plus i
  let (i, _) ← count firstGroup 3 i
  let (i, _) ← many0 (alt punctuation (alt star digit)) i
  let (i, _) ← many0 (alt punctuation (alt star (alt digit alpha))) i
  let (i, _) ← ieof i
  pure (i, ())

/-- `phone_number`, `/repo/src/parser/valid.rs:18-20` -/
def phoneNumber : P Str := recognize (alt short long)

end Valid

/-! ## `/repo/src/parser/rfc3966.rs` -/
namespace Rfc3966

/-- `prefix`, `/repo/src/parser/rfc3966.rs:64-69` -/
def prefix_ : P Str := fun i => do
  let (i, _) ← char '+' i
  takeTill1 Phone.Rfc3966.separator i

/-- `parameter`, `/repo/src/parser/rfc3966.rs:79-88` -/
def parameter : P (Str × Str) := fun i => do
  let (i, _) ← char ';' i
  let (i, key) ← takeWhile Phone.Rfc3966.pname i
  let (i, _) ← char '=' i
  let (i, value) ← takeWhile Phone.Rfc3966.pchar i
  pure (i, (key, value))

/-- `FnvHashMap::insert`: a key that is already present gets the new value. -/
def insert (m : List (Str × Str)) (kv : Str × Str) : List (Str × Str) := kv :: m.filter fun p => p.1 != kv.1

/-- `FnvHashMap::get` -/
def get (m : List (Str × Str)) (key : Str) : Option Str := (m.find? fun p => p.1 == key).map Prod.snd

/-- `parameters`, `/repo/src/parser/rfc3966.rs:71-77`: `params.into_iter().collect()` inserts one after the other. -/
def parameters : P (List (Str × Str)) := fun i => do
  let (i, params) ← many1 parameter i
  pure (i, params.foldl insert [])

/-- `check`, `/repo/src/parser/rfc3966.rs:90-96`. (The first byte is that of `;` exactly if the first character is.) -/
def check : P Unit := fun i => if i.isEmpty || i.head? == some ';' then .ok (i, ()) else .err .error

/-- `phone_number`, `/repo/src/parser/rfc3966.rs:26-62` -/
def phoneNumber : P Number := fun i =>
  if containsChar i ' ' then .err .error
  else do
    let (i, _) ← opt (tagNoCase (str% "Tel:")) i
    let (i, pre) ← opt prefix_ i
    let (i, national) ← takeWhile1 Phone.Rfc3966.number i
    let (i, _) ← check i
    let (i, params) ← opt parameters i
    pure (i,
      { national := national
        pref := pre.orElse fun _ =>
          (params.bind fun m => get m (str% "phone-context")).map Phone.Rfc3966.stripPlus
        extension := params.bind fun m => get m (str% "ext") })

end Rfc3966

section
variable [UnicodeTables]

/-- `natural::phone_number`, `/repo/src/parser/natural.rs:20-47`, as a parser: it leaves no input. -/
def natural : P Number := fun i => do
  let n ← Natural.phoneNumber i
  pure ([], n)

/-- `phone_number`, `/repo/src/parser/mod.rs:46-48` -/
def phoneNumber : P Number := alt Rfc3966.phoneNumber natural

/-- `phone_number(string.as_ref()).or(Err(error::Parse::NoNumber))?`, `/repo/src/parser/mod.rs:51` -/
def readNumber (i : Str) : Outcome ParseErr Number :=
  match phoneNumber i with
  | .ok (_, n) => .ok n
  | .err _ => .err .noNumber
  | .panic e => .panic e

/-- `is_viable`, `/repo/src/validator.rs:80-88` -/
def isViable (s : Str) : Bool :=
  if byteLen s < Consts.minLengthForNsn then false
  else match Valid.phoneNumber s with
    | .ok _ => true
    | _ => false

end
end Phone.Nom
