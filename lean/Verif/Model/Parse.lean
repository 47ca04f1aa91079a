import Verif.Model.Helper
/-! # `/repo/src/parser/rfc3966.rs`, `/repo/src/parser/natural.rs`, `/repo/src/parser/mod.rs` -/

namespace Phone
open Helper

namespace Rfc3966

/-- `separator`, `/repo/src/parser/rfc3966.rs:114-116`. -/
def separator (c : Char) : Bool := c == '-' || c == '.' || c == '(' || c == ')'
/-- `digit`, `/repo/src/parser/rfc3966.rs:110-112`: `is_wide_digit` is ASCII digit (`helper.rs:405-407`). -/
def digit (c : Char) : Bool := isDigit c || isHex c
/-- `number`, `/repo/src/parser/rfc3966.rs:106-108`. -/
def number (c : Char) : Bool := digit c || separator c
/-- nom `AsChar::is_alphanum` for `char` (ASCII). -/
def alphanum (c : Char) : Bool := isAlpha c || isDigit c
/-- `pname`, `/repo/src/parser/rfc3966.rs:98-100`. -/
def pname (c : Char) : Bool := alphanum c || c == '-'
/-- `mark`, `/repo/src/parser/rfc3966.rs:126-136`. -/
def mark (c : Char) : Bool :=
  c == '-' || c == '_' || c == '.' || c == '!' || c == '~' || c == '*' || c == '\'' || c == '(' || c == ')'
/-- `parameter_unreserved`, `/repo/src/parser/rfc3966.rs:122-124`. -/
def parameterUnreserved (c : Char) : Bool :=
  c == '[' || c == ']' || c == '/' || c == ':' || c == '&' || c == '+' || c == '$'
/-- `unreserved`, `/repo/src/parser/rfc3966.rs:118-120`. -/
def unreserved (c : Char) : Bool := alphanum c || mark c
/-- `pchar`, `/repo/src/parser/rfc3966.rs:102-104`. -/
def pchar (c : Char) : Bool := parameterUnreserved c || unreserved c

/-- ASCII lower case. -/
def lower (c : Char) : Char := if 65 ≤ c.toNat ∧ c.toNat ≤ 90 then Char.ofNat (c.toNat + 32) else c

/-- `opt(tag_no_case("Tel:"))`, `/repo/src/parser/rfc3966.rs:33`: drop a leading `tel:` in any letter case. (nom compares
`to_lowercase` of the characters; no non-ASCII character has `t`, `e`, `l` or `:` as its lower case.) -/
def optTel : Str → Str
  | a :: b :: c :: d :: rest =>
    if lower a = 't' ∧ lower b = 'e' ∧ lower c = 'l' ∧ d = ':' then rest else a :: b :: c :: d :: rest
  | s => s

/-- `opt(prefix)`, `/repo/src/parser/rfc3966.rs:34,64-69`: `+` and at least one non-separator, up to the next separator or the
end. -/
def optPrefix : Str → Option Str × Str
  | '+' :: rest =>
    let p := rest.takeWhile fun c => !separator c
    if p.isEmpty then (none, '+' :: rest) else (some p, rest.dropWhile fun c => !separator c)
  | s => (none, s)

/-- `parameter`, `/repo/src/parser/rfc3966.rs:79-88`: `;key=value`. -/
def parameter : Str → Option ((Str × Str) × Str)
  | ';' :: rest =>
    match rest.dropWhile pname with
    | '=' :: rest' => some ((rest.takeWhile pname, rest'.takeWhile pchar), rest'.dropWhile pchar)
    | _ => none
  | _ => none

/-- `many1(parameter)` (also for no parameter at all, where `opt` gives nothing), `/repo/src/parser/rfc3966.rs:71-77`; the fuel is
the input length, which suffices since each parameter consumes at least two characters. -/
def params : Nat → Str → List (Str × Str)
  | 0, _ => []
  | f + 1, s =>
    match parameter s with
    | none => []
    | some (kv, rest) => kv :: params f rest

/-- `m.get(key)` of the map collected from the parameters: the last one wins, `/repo/src/parser/rfc3966.rs:76`. -/
def getParam (ps : List (Str × Str)) (key : Str) : Option Str :=
  (ps.reverse.find? fun p => p.1 == key).map Prod.snd

/-- `strip_prefix('+').unwrap_or(s)`, `/repo/src/parser/rfc3966.rs:50`. -/
def stripPlus : Str → Str
  | '+' :: s => s
  | s => s

/-- `phone_number`, `/repo/src/parser/rfc3966.rs:26-62`. -/
def phoneNumber (i : Str) : Outcome NomErr Number :=
  if containsChar i ' ' then .err .error
  else
    let i := optTel i
    let (pre, i) := optPrefix i
    let national := i.takeWhile number
    let i := i.dropWhile number
    if national.isEmpty then .err .error
    else if !(i.isEmpty || i.head? == some ';') then .err .error
    else
      let ps := params i.length i
      .ok { national := national
            pref := pre.orElse fun _ => (getParam ps (str% "phone-context")).map stripPlus
            extension := getParam ps (str% "ext") }

end Rfc3966

section
variable [UnicodeTables]

/-- `natural::phone_number`, `/repo/src/parser/natural.rs:20-47`. Group 0 of a match is always present. -/
def Natural.phoneNumber (i : Str) : Outcome NomErr Number := do
  let i ← extract i
  match Consts.extnPattern.find i with
  | none => pure { national := i }
  | some c =>
    match c.get 2 with
    | none => .err .failure
    | some ext => do
      let nat ← Outcome.slice (takeBytes i c.start)
      pure { national := nat, extension := some ext }

/-- `alt((rfc3966::phone_number, natural::phone_number))`, `/repo/src/parser/mod.rs:46-48`, with every nom error mapped to
`NoNumber` (line 51). -/
def readNumber (i : Str) : Outcome ParseErr Number :=
  match Rfc3966.phoneNumber i with
  | .ok n => .ok n
  | .panic p => .panic p
  | .err .failure => .err .noNumber
  | .err .error =>
    match Natural.phoneNumber i with
    | .ok n => .ok n
    | .panic p => .panic p
    | .err _ => .err .noNumber

/-- `number.prefix.map(|p| p.parse()).unwrap_or(Ok(0))?`, `/repo/src/parser/mod.rs:73,111`. -/
def prefixCode (n : Number) : Outcome ParseErr Nat :=
  match n.pref with
  | none => .ok 0
  | some p => Outcome.okOr (.malformedInteger (intErr u16Bound p)) (parseUInt u16Bound p)

/-- The metadata used for national prefix handling, `/repo/src/parser/mod.rs:66-83`. -/
def parseMeta (db : Database) (country : Option Id) (n : Number) : Outcome ParseErr (Option Metadata) :=
  match country, n.country with
  | some c, .default => .ok (db.byId c.asRef)
  | _, _ => do
    let code ← prefixCode n
    let src ← sourceFor db code (n.national.dropWhile (· == '0'))
    pure (src.bind (sourceMeta db))

/-- `if let Some(prefix) = ... { trim }`, `/repo/src/parser/mod.rs:89-94`: remove the national prefix if the number starts with
it. -/
def dropNationalPrefix (md : Metadata) (n : Number) : Outcome ParseErr Number :=
  match md.nationalPrefix with
  | some pre =>
    if startsWith n.national pre then do
      let nat ← trim n.national (byteLen pre)
      pure { n with national := nat }
    else pure n
  | none => pure n

/-- National prefix and carrier handling, `/repo/src/parser/mod.rs:85-99`. -/
def stripNational (md : Option Metadata) (n : Number) : Outcome ParseErr Number :=
  match md with
  | none => .ok n
  | some md => do
    let potential ← nationalNumber md n
    let potential ← dropNationalPrefix md potential
    pure (if length md potential.national .unknown ≠ .tooShort then potential else n)

/-- The final checks and construction of the result, `/repo/src/parser/mod.rs:101-119`. -/
def finishParse (n : Number) : Outcome ParseErr PhoneNumber :=
  if byteLen n.national < Consts.minLengthForNsn then .err .tooShortNsn
  else if byteLen n.national > Consts.maxLengthForNsn then .err .tooLong
  else do
    let code ← prefixCode n
    let national ← NationalNumber.fromStr n.national
    pure { code := ⟨code, n.country⟩, national := national, extension := n.extension, carrier := n.carrier }

/-- `parse_with`, `/repo/src/parser/mod.rs:41-120`. -/
def parseWith (db : Database) (country : Option Id) (s : Str) : Outcome ParseErr PhoneNumber := do
  let n ← readNumber s
  if !isViable n.national then .err .noNumber
  else do
    let n ← countryCode db country n
    let md ← parseMeta db country n
    let n ← stripNational md n
    finishParse n

end
end Phone
