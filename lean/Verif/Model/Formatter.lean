import Verif.Model.Types
import Verif.Model.Consts
import Verif.Regex.Replace
/-! # `/repo/src/formatter.rs` -/

namespace Phone.Formatter

/-- `Mode`, `/repo/src/formatter.rs:24-37`. -/
inductive Mode where
  | e164
  | international
  | national
  | rfc3966
  deriving DecidableEq, Repr

/-- `fmt::Error`. -/
inductive FmtErr where
  | error
  deriving DecidableEq, Repr

/-- Worker of `strReplace`. -/
def strReplaceAux (pat rep : Str) : Nat → Str → Str
  | 0, s => s
  | _ + 1, [] => []
  | f + 1, c :: cs =>
    match stripPrefix pat (c :: cs) with
    | some rest => rep ++ strReplaceAux pat rep f rest
    | none => c :: strReplaceAux pat rep f cs

/-- `str::replace(pat, rep)` for a non-empty pattern: all non-overlapping occurrences, left to right. -/
def strReplace (s pat rep : Str) : Str := strReplaceAux pat rep s.length s

section
variable [UnicodeTables]

/-- `format.leading_digits().last().unwrap().find(number).map(|m| m.start() == 0).unwrap_or(false)`,
`/repo/src/formatter.rs:213-218`. -/
def leadingMatches (number : Str) (re : Regex) : Bool := ((re.find number).map fun m => decide (m.start = 0)).getD false

/-- `format.pattern().find(number).map(|m| m.start() == 0 && m.end() == number.len()).unwrap_or(false)`,
`/repo/src/formatter.rs:219-223`. -/
def patternMatches (number : Str) (re : Regex) : Bool :=
  ((re.find number).map fun m => decide (m.start = 0) && decide (m.stop = byteLen number)).getD false

/-- The condition of `formatter`, `/repo/src/formatter.rs:212-223`. `&&` binds tighter than `||`, so a format without leading
digits is taken whether or not its pattern matches. -/
def meantFor (number : Str) (f : Format) : Bool :=
  match f.leadingDigits.getLast? with
  | none => true
  | some last => leadingMatches number last && patternMatches number f.pattern

/-- `formatter`, `/repo/src/formatter.rs:208-230`. -/
def formatter (number : Str) : List Format → Option Format
  | [] => none
  | f :: fs => if meantFor number f then some f else formatter number fs

/-- The replacement template of `replace`, `/repo/src/formatter.rs:243-257`. -/
def template {ε : Type} (md : Metadata) (f : Format) (transform : Option Str) (carrier : Option Str) : Outcome ε Str :=
  match transform with
  | none => .ok f.format
  | some transform => do
    let c ← Outcome.unwrap (Consts.firstGroup.find f.format)
    let first ← Outcome.unwrap (c.get 1)
    let format := strReplace transform Consts.np (md.nationalPrefix.getD [])
    let format := strReplace format Consts.fg ('$' :: first)
    let format := strReplace format Consts.cc (carrier.getD [])
    .ok (Consts.firstGroup.replace f.format format)

/-- `replace`, `/repo/src/formatter.rs:232-260`. -/
def replace {ε : Type} (national : Str) (md : Metadata) (f : Format) (transform : Option Str) (carrier : Option Str) :
    Outcome ε Str := do
  let t ← template md f transform carrier
  pure (f.pattern.replace national t)

/-- `meta.preferred_extension_prefix().unwrap_or(" ext. ")` and the extension, `/repo/src/formatter.rs:138-145,174-181`. -/
def extSuffix (md : Metadata) : Option Str → Str
  | none => []
  | some ext => md.preferredExtensionPrefix.getD Consts.defaultExtnPrefix ++ ext

/-- The list of formats consulted, `/repo/src/formatter.rs:114-118`. -/
def candidates (md : Metadata) (mode : Mode) : List Format :=
  if md.internationalFormats = [] ∨ mode = .national then md.formats else md.internationalFormats

/-- The national part in international mode, `/repo/src/formatter.rs:130-134`. -/
def internationalPart (md : Metadata) (national : Str) : Option Format → Outcome FmtErr Str
  | some f => replace national md f none none
  | none => .ok national

/-- The national part in national mode with format `f`, `/repo/src/formatter.rs:148-170`. -/
def nationalWith (md : Metadata) (national : Str) (carrier : Option Str) (f : Format) : Outcome FmtErr Str :=
  match carrier.bind fun c => f.domesticCarrier.map fun r => (c, r) with
  | some (carrier, format) => replace national md f (some format) (some carrier)
  | none =>
    match f.nationalPrefix with
    | some pre => replace national md f (some pre) none
    | none => replace national md f none none

/-- The national part in national mode, `/repo/src/formatter.rs:147-173`. -/
def nationalPart (md : Metadata) (national : Str) (carrier : Option Str) : Option Format → Outcome FmtErr Str
  | some f => nationalWith md national carrier f
  | none => .ok national

/-- The national part in RFC 3966 mode, `/repo/src/formatter.rs:187-196`. -/
def rfcPart (md : Metadata) (national : Str) : Option Format → Outcome FmtErr Str
  | some f => (replace national md f none none) >>= fun r => .ok (Consts.separatorPattern.replaceAllLit r ['-'])
  | none => .ok national

/-- `;ext=` and the extension, `/repo/src/formatter.rs:198-200`. -/
def rfcSuffix : Option Str → Str
  | some ext => (str% ";ext=") ++ ext
  | none => []

/-- The body of `fmt` after the metadata has been found, `/repo/src/formatter.rs:110-205`. `custom` is the format set with
`Formatter::with`. -/
def body (md : Metadata) (number : PhoneNumber) (mode : Mode) (custom : Option Format) : Outcome FmtErr Str :=
  let code := decStr number.code.value
  let national := number.national.display
  let chosen := custom.orElse fun _ => formatter national (candidates md mode)
  match mode with
  | .e164 => .ok ('+' :: code ++ national)
  | .international =>
    internationalPart md national chosen >>= fun nat => .ok ('+' :: code ++ ' ' :: nat ++ extSuffix md number.extension)
  | .national =>
    nationalPart md national number.carrier chosen >>= fun nat => .ok (nat ++ extSuffix md number.extension)
  | .rfc3966 =>
    rfcPart md national chosen >>= fun nat => .ok ((str% "tel:+") ++ code ++ '-' :: nat ++ rfcSuffix number.extension)

/-- `Display for Formatter` (`fmt`), `/repo/src/formatter.rs:100-206`, with database `db`. `to_string()` panics exactly when this
returns an error. -/
def fmt (db : Database) (number : PhoneNumber) (mode : Mode) (custom : Option Format := none) : Outcome FmtErr Str :=
  match (db.byCode number.code.value).bind List.head? with
  | none => .err .error
  | some md => body md number mode custom

/-- `Display for PhoneNumber`, `/repo/src/phone_number.rs:150-154`, with database `db` (the code uses the built-in one). -/
def display (db : Database) (number : PhoneNumber) : Outcome FmtErr Str := fmt db number .e164

end
end Phone.Formatter
