import Verif.Model.Validator
import Verif.Regex.Replace
/-! # `/repo/src/parser/helper.rs` -/

namespace Phone.Helper

/-- nom error kinds that matter: a recoverable error makes `alt` try the next parser, a failure does not. -/
inductive NomErr where
  | error
  | failure
  deriving DecidableEq, Repr

/-- `trim`, `/repo/src/parser/helper.rs:386-395`: `&value[start..]` / `drain(..start)`. -/
def trim {ε : Type} (value : Str) (start : Nat) : Outcome ε Str := Outcome.slice (dropBytes value start)

/-- The zero digits of the scripts listed in `as_dec_digit`, `/repo/src/parser/helper.rs:416-445`; in each script the digits
0 to 9 are consecutive code points, and the match lists digit `d` of each script in the arm for `d`. -/
def digitZeros : List Nat :=
  [0x0660, 0x06F0, 0x07C0, 0x0966, 0x09E6, 0x0A66, 0x0AE6, 0x0B66, 0x0BE6, 0x0C66, 0x0CE6, 0x0D66, 0x0E50, 0x0ED0, 0xFF10]

/-- `as_dec_digit`, `/repo/src/parser/helper.rs:409-449`. -/
def asDecDigit (c : Char) : Option Char :=
  if isDigit c then some c
  else (digitZeros.find? fun z => z ≤ c.toNat && c.toNat ≤ z + 9).map fun z => digitChar (c.toNat - z)

/-- `FnvHashMap::get` on a character mapping. -/
def mapGet (mappings : List (Char × Char)) (c : Char) : Option Char :=
  (mappings.find? fun p => p.1 == c).map Prod.snd

/-- The conversion of one character in `normalize`, `/repo/src/parser/helper.rs:357-361,364-368`. -/
def normChar (mappings : List (Char × Char)) (c : Char) : Option Char :=
  (asDecDigit c).orElse fun _ => mapGet mappings c

/-- `act` of `normalize`, `/repo/src/parser/helper.rs:348-377`: the leading ASCII digits are kept as they are; from the first
other character on, each character is converted or dropped. -/
def act (mappings : List (Char × Char)) (value : Str) : Str :=
  value.takeWhile isDigit ++ (value.dropWhile isDigit).filterMap (normChar mappings)

/-- `normalize`, `/repo/src/parser/helper.rs:347-384`. -/
def normalize (n : Number) (mappings : List (Char × Char)) : Number :=
  { n with
    national := act mappings n.national
    pref := n.pref.map (act mappings)
    extension := n.extension.map (act mappings) }

section
variable [UnicodeTables]

/-- `if let Some(m) = re.find(s) { s = &s[..m.start()] }`, `/repo/src/parser/helper.rs:123-129`: cut before the first match. -/
def cutBefore (re : Regex) (s : Str) : Outcome NomErr Str :=
  match re.find s with
  | some m => Outcome.slice (takeBytes s m.start)
  | none => pure s

/-- `extract`, `/repo/src/parser/helper.rs:116-136`; returns only the extracted part (the remaining input is discarded by the
only caller), but the slice computing the remaining input is kept because it could panic. -/
def extract (value : Str) : Outcome NomErr Str :=
  match Consts.validStartChar.find value with
  | none => .err .error
  | some m => do
    let result ← Outcome.slice (dropBytes value m.start)
    let result ← cutBefore Consts.unwantedEndChars result
    let result ← cutBefore Consts.secondNumberStart result
    if result.isEmpty then .err .error
    else do
      let _ ← (Outcome.slice (dropBytes value (m.start + byteLen result)) : Outcome NomErr Str)
      pure result

/-- Does the regex match at the very start? (`re.find(s).map(|m| m.start() == 0).unwrap_or(false)`) -/
def matchesAtStart (re : Regex) (s : Str) : Bool := ((re.find s).map fun m => decide (m.start = 0)).getD false

/-- Last part of `international_prefix`, `/repo/src/parser/helper.rs:260-278`: strip a matching IDD. -/
def stripIdd {ε : Type} (idd : Option Regex) (n : Number) : Outcome ε Number :=
  match idd.bind (·.find n.national) with
  | none => .ok n
  | some m =>
    if m.start = 0 then do
      let rest ← Outcome.slice (dropBytes n.national m.stop)
      if startsWith rest ['0'] then .ok n
      else do
        let nat ← trim n.national m.stop
        .ok { n with country := if n.country = .plus then .plus else .idd, national := nat }
    else .ok n

/-- `international_prefix`, `/repo/src/parser/helper.rs:220-279`. `ignore_plus` (lines 102-104) recognises the longest
non-empty run of plus characters. -/
def internationalPrefix {ε : Type} (idd : Option Regex) (n : Number) : Outcome ε Number :=
  let mappings := if Consts.validAlphaPhone.isMatch n.national then Consts.alphaPhoneMappings else Consts.asciiMappings
  if n.pref.isSome then .ok (normalize { n with country := .plus } mappings)
  else
    let start := byteLen (n.national.takeWhile Valid.plus)
    if start ≠ 0 then do
      let nat ← trim n.national start
      let n := normalize { n with country := .plus, national := nat } mappings
      if !((idd.map fun re => matchesAtStart re n.national).getD false) then .ok n
      else stripIdd idd n
    else
      stripIdd idd (normalize { n with country := .default } mappings)

/-- The loop over calling code lengths in `country_code`, `/repo/src/parser/helper.rs:179-188`, for the given lengths. -/
def codeLoop (db : Database) (n : Number) : List Nat → Outcome ParseErr Number
  | [] => .err .invalidCountryCode
  | len :: more => do
    let pre ← Outcome.slice (takeBytes n.national len)
    let code ← Outcome.unwrap (parseUInt u16Bound pre)
    if (db.byCode code).isSome then do
      let nat ← trim n.national len
      .ok { n with national := nat, pref := some (decStr code) }
    else codeLoop db n more

/-- `country_code`, `/repo/src/parser/helper.rs:139-213`. -/
def countryCode (db : Database) (country : Option Id) (n : Number) : Outcome ParseErr Number := do
  let idd := (country.bind fun c => db.byId c.asRef).bind (·.internationalPrefix)
  let fallback := if country.isNone then some Consts.defaultIdd else none
  let n ← internationalPrefix (idd.or fallback) n
  match n.country with
  | .plus | .idd | .number =>
    if byteLen n.national ≤ Consts.minLengthForNsn then .err .tooShortNsn
    else
      match n.pref with
      | some p => do
        let code ← Outcome.okOr (.malformedInteger (intErr u16Bound p)) (parseUInt u16Bound p)
        if (db.byCode code).isNone then .err .invalidCountryCode else .ok n
      | none =>
        if startsWith n.national ['0'] then .err .invalidCountryCode
        else codeLoop db n ((List.range Consts.maxLengthForCountryCode).map (· + 1))
  | .default =>
    match country with
    | none => .err .invalidCountryCode
    | some c => do
      let md ← Outcome.unwrap (db.byId c.asRef)
      let code := decStr md.countryCode
      if startsWith n.national code &&
          (!md.descriptors.general.isMatch n.national || !(length md n.national .unknown).possible) then do
        let nat ← trim n.national (byteLen code)
        .ok { n with country := .number, national := nat, pref := some code }
      else .ok { n with pref := some code }

/-- `national_number`, `/repo/src/parser/helper.rs:282-340`. -/
def nationalNumber {ε : Type} (md : Metadata) (n : Number) : Outcome ε Number :=
  match md.nationalPrefixForParsing with
  | none =>
    match md.nationalPrefix with
    | some pre =>
      if startsWith n.national pre then do
        let nat ← trim n.national (byteLen pre)
        .ok { n with national := nat }
      else .ok n
    | none => .ok n
  | some parsing =>
    match parsing.find n.national with
    | none => .ok n
    | some m =>
      if m.start ≠ 0 then .ok n
      else
        let viable := md.descriptors.general.isMatch n.national
        let groups := parsing.ngroups + 1
        let first := m.get 1
        let last := m.get parsing.ngroups
        match md.nationalPrefixTransformRule, last with
        | some transform, some _ =>
          let transformed := parsing.replace n.national transform
          if viable && !md.descriptors.general.isMatch transformed then .ok n
          else do
            let f ← Outcome.unwrap first
            .ok { n with carrier := some f, national := transformed }
        | _, _ => do
          let again ← Outcome.slice (dropBytes n.national m.start)
          if viable && !md.descriptors.general.isMatch again then .ok n
          else do
            let nat ← trim n.national m.stop
            .ok { n with carrier := if groups > 0 then last else none, national := nat }

end
end Phone.Helper
