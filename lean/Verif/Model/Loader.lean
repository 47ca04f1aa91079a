import Verif.Model.Database
/-! # `/repo/src/metadata/loader.rs`

The XML reader of `quick_xml` is modelled as a finite list of events; after the last one it keeps returning `Eof`. -/

namespace Phone.Loader

/-- Raw bytes from the XML: valid UTF-8 text, or some other byte string (numbered, so equality is still meaningful). -/
inductive Raw where
  | utf8 (s : Str)
  | bad (n : Nat)
  deriving DecidableEq, Repr

/-- One attribute as yielded by `BytesStart::attributes()`. -/
inductive Attr where
  | ok (key value : Raw)
  /-- an `AttrError` (malformed or duplicate attribute) -/
  | bad
  deriving DecidableEq, Repr

/-- Events of `quick_xml::events::Event`, as far as the loader distinguishes them. -/
inductive Event where
  | text (s : Raw)
  | comment
  | docType
  | start (name : Raw) (attrs : List Attr)
  | empty (name : Raw) (attrs : List Attr)
  | stop (name : Raw)
  /-- any other event (`Decl`, `PI`, `CData`, `GeneralRef`) -/
  | other
  /-- the reader reports an error -/
  | error
  deriving DecidableEq, Repr

/-- `str::from_utf8(..)?` -/
def fromUtf8 : Raw → Outcome LoadErr Str
  | .utf8 s => .ok s
  | .bad _ => .err .utf8

/-- `return Err(MismatchedTag(str::from_utf8(name)?.into()).into())` -/
def mismatched {α : Type} (name : Raw) : Outcome LoadErr α := do
  let n ← fromUtf8 name
  .err (.metadata (.mismatchedTag n))

/-- `return Err(UnhandledElement { phase, name: str::from_utf8(name)?.into() }.into())` -/
def unhandledElement {α : Type} (phase : Str) (name : Raw) : Outcome LoadErr α := do
  let n ← fromUtf8 name
  .err (.metadata (.unhandledElement phase n))

/-- Is the name these (ASCII) bytes? -/
def isName (r : Raw) (s : Str) : Bool := r == .utf8 s

/-- `ignore`, `/repo/src/metadata/loader.rs:574-606`. -/
def ignore : Nat → Raw → List Event → Outcome LoadErr (Unit × List Event)
  | 0, _, _ => .err .outOfFuel
  | _ + 1, _, [] => .err (.metadata .unexpectedEof)
  | f + 1, name, e :: es =>
    match e with
    | .text _ | .comment | .empty _ _ => ignore f name es
    | .start n _ => do
      let (_, es) ← ignore f n es
      ignore f name es
    | .stop n => if n = name then .ok ((), es) else mismatched n
    | .docType | .other => .err (.metadata (.unhandledEvent (str% "ignore")))
    | .error => .err .xml

/-- `text`, `/repo/src/metadata/loader.rs:608-636`; `acc` is the text so far. -/
def text (name : Raw) (acc : Str) : List Event → Outcome LoadErr (Str × List Event)
  | [] => .err (.metadata .unexpectedEof)
  | e :: es =>
    match e with
    | .text s => do
      let s ← fromUtf8 s
      text name (acc ++ s) es
    | .stop n => if n = name then .ok (acc, es) else mismatched n
    | .error => .err .xml
    | _ => .err (.metadata (.unhandledEvent (str% "text")))

/-- `char::is_whitespace` (Unicode `White_Space`), for `str::trim`. -/
def isWhite (c : Char) : Bool :=
  (9 ≤ c.toNat && c.toNat ≤ 13) || c.toNat == 0x20 || c.toNat == 0x85 || c.toNat == 0xA0 || c.toNat == 0x1680 ||
  (0x2000 ≤ c.toNat && c.toNat ≤ 0x200A) || c.toNat == 0x2028 || c.toNat == 0x2029 || c.toNat == 0x202F ||
  c.toNat == 0x205F || c.toNat == 0x3000

/-- `str::trim`. -/
def trim (s : Str) : Str := ((s.dropWhile isWhite).reverse.dropWhile isWhite).reverse

/-- `str::split(sep)`; always at least one part. -/
def split (sep : Char) : Str → List Str
  | [] => [[]]
  | c :: cs =>
    if c = sep then [] :: split sep cs
    else
      match split sep cs with
      | [] => [[c]]
      | p :: ps => (c :: p) :: ps

/-- One part of `lengths`, `/repo/src/metadata/loader.rs:321-334`. -/
def lengthPart (part : Str) : Outcome LoadErr (List Nat) :=
  match part with
  | [] => .panic .index
  | c :: _ =>
    if c = '[' then
      match split '-' part with
      | start :: stop :: _ => do
        let s ← Outcome.slice (dropBytes start 1)
        let s ← Outcome.okOr .integer (parseUInt u16Bound s)
        if stop = [] then .panic .overflow
        else do
          let e ← Outcome.slice (takeBytes stop (byteLen stop - 1))
          let e ← Outcome.okOr .integer (parseUInt u16Bound e)
          if e + 1 = u16Bound then .panic .overflow
          else .ok (List.range' s (e + 1 - s))
      | _ => .ok []
    else do
      let v ← Outcome.okOr .integer (parseUInt u16Bound part)
      .ok [v]

/-- The loop of `lengths`, `/repo/src/metadata/loader.rs:320-335`. -/
def lengthParts : List Str → Outcome LoadErr (List Nat)
  | [] => .ok []
  | p :: ps => do
    let a ← lengthPart (trim p)
    let b ← lengthParts ps
    .ok (a ++ b)

/-- `lengths`, `/repo/src/metadata/loader.rs:317-338`. The addition `end + 1` overflows for 65535 (panic in builds with overflow
checks). -/
def lengths (value : Str) : Outcome LoadErr (List Nat) := lengthParts (split ',' value)

/-- `str::parse::<bool>()`. -/
def parseBool (s : Str) : Outcome LoadErr Bool :=
  if s = str% "true" then .ok true else if s = str% "false" then .ok false else .err .bool

/-- Key and value of an attribute as strings: `attr.map_err(..)?`, `str::from_utf8(key)?`, `str::from_utf8(&value)?`. -/
def attrStr : Attr → Outcome LoadErr (Str × Str)
  | .bad => .err .xml
  | .ok k v => do
    let k ← fromUtf8 k
    let v ← fromUtf8 v
    .ok (k, v)

/-- The attributes of `possibleLengths`, `/repo/src/metadata/loader.rs:362-382`. -/
def lengthAttrs (d : Descriptor) : List Attr → Outcome LoadErr Descriptor
  | [] => .ok d
  | a :: as => do
    let (k, v) ← attrStr a
    if k = str% "national" then do
      let l ← lengths v
      lengthAttrs { d with possibleLength := l } as
    else if k = str% "localOnly" then do
      let l ← lengths v
      lengthAttrs { d with possibleLocalLength := l } as
    else .err (.metadata (.unhandledAttribute (str% "descriptor::possibleLength") k v))

/-- `descriptor`, `/repo/src/metadata/loader.rs:309-414`. -/
def descriptor : Nat → Raw → Descriptor → List Event → Outcome LoadErr (Descriptor × List Event)
  | 0, _, _, _ => .err .outOfFuel
  | _ + 1, _, _, [] => .err (.metadata .unexpectedEof)
  | f + 1, name, d, e :: es =>
    match e with
    | .text _ | .comment => descriptor f name d es
    | .start n _ =>
      if isName n (str% "nationalNumberPattern") then do
        let (t, es) ← text n [] es
        descriptor f name { d with nationalNumber := some t } es
      else if isName n (str% "exampleNumber") then do
        let (t, es) ← text n [] es
        descriptor f name { d with example? := some t } es
      else unhandledElement (str% "descriptor") n
    | .empty n attrs =>
      if isName n (str% "possibleLengths") then do
        let d ← lengthAttrs d attrs
        descriptor f name d es
      else unhandledElement (str% "descriptor") n
    | .stop n => if n = name then .ok (d, es) else mismatched n
    | .docType | .other => .err (.metadata (.unhandledEvent (str% "descriptor")))
    | .error => .err .xml

/-- The attributes of `numberFormat`, `/repo/src/metadata/loader.rs:484-509`. -/
def formatAttrs (fm : Format) : List Attr → Outcome LoadErr Format
  | [] => .ok fm
  | a :: as => do
    let (k, v) ← attrStr a
    if k = str% "pattern" then formatAttrs { fm with pattern := some v } as
    else if k = str% "nationalPrefixFormattingRule" then
      formatAttrs { fm with nationalPrefixFormattingRule := some v } as
    else if k = str% "nationalPrefixOptionalWhenFormatting" then do
      let b ← parseBool v
      formatAttrs { fm with nationalPrefixOptionalWhenFormatting := b } as
    else if k = str% "carrierCodeFormattingRule" then formatAttrs { fm with domesticCarrier := some v } as
    else .err (.metadata (.unhandledAttribute (str% "format") k v))

/-- The element loop of `format`, `/repo/src/metadata/loader.rs:511-571`; `intl` is the variable `international`. -/
def formatLoop : Nat → Raw → Format → Option Str → List Event → Outcome LoadErr ((Format × Option Format) × List Event)
  | 0, _, _, _, _ => .err .outOfFuel
  | _ + 1, _, _, _, [] => .err (.metadata .unexpectedEof)
  | f + 1, name, fm, intl, e :: es =>
    match e with
    | .text _ | .comment => formatLoop f name fm intl es
    | .start n _ =>
      if isName n (str% "leadingDigits") then do
        let (t, es) ← text n [] es
        formatLoop f name { fm with leadingDigits := fm.leadingDigits ++ [t] } intl es
      else if isName n (str% "format") then do
        let (t, es) ← text n [] es
        formatLoop f name { fm with format := some t } (some t) es
      else if isName n (str% "intlFormat") then do
        let (t, es) ← text n [] es
        formatLoop f name fm (if t = str% "NA" then none else some t) es
      else unhandledElement (str% "format") n
    | .stop n =>
      if n = name then .ok ((fm, intl.map fun v => { fm with format := some v }), es) else mismatched n
    | .empty _ _ | .docType | .other => .err (.metadata (.unhandledEvent (str% "format")))
    | .error => .err .xml

/-- `format`, `/repo/src/metadata/loader.rs:473-572`. -/
def format (f : Nat) (md : Metadata) (name : Raw) (attrs : List Attr) (es : List Event) : Outcome LoadErr ((Format × Option Format) × List Event) := do
  let fm ← formatAttrs md.defaults.format attrs
  formatLoop f name fm none es

/-- `formats`, `/repo/src/metadata/loader.rs:416-471`. -/
def formats : Nat → Metadata → Raw → List Format → List Format → List Event → Outcome LoadErr ((List Format × List Format) × List Event)
  | 0, _, _, _, _, _ => .err .outOfFuel
  | _ + 1, _, _, _, _, [] => .err (.metadata .unexpectedEof)
  | f + 1, md, name, natl, intl, e :: es =>
    match e with
    | .text _ | .comment => formats f md name natl intl es
    | .start n attrs =>
      if isName n (str% "numberFormat") then do
        let ((a, b), es) ← format f md n attrs es
        formats f md name (natl ++ [a]) (intl ++ b.toList) es
      else unhandledElement (str% "formats") n
    | .stop n => if n = name then .ok ((natl, intl), es) else mismatched n
    | .empty _ _ | .docType | .other => .err (.metadata (.unhandledEvent (str% "formats")))
    | .error => .err .xml

/-- One attribute of `territory`, `/repo/src/metadata/loader.rs:177-231`. -/
def territoryAttr (m : Metadata) (k v : Str) : Outcome LoadErr Metadata :=
  if k = str% "id" then .ok { m with id := some v }
  else if k = str% "countryCode" then do
    let c ← Outcome.okOr .integer (parseUInt u16Bound v)
    .ok { m with countryCode := some c }
  else if k = str% "internationalPrefix" then .ok { m with internationalPrefix := some v }
  else if k = str% "preferredInternationalPrefix" then .ok { m with preferredInternationalPrefix := some v }
  else if k = str% "nationalPrefix" then .ok { m with nationalPrefix := some v }
  else if k = str% "preferredExtnPrefix" then .ok { m with preferredExtensionPrefix := some v }
  else if k = str% "nationalPrefixForParsing" then .ok { m with nationalPrefixForParsing := some v }
  else if k = str% "nationalPrefixTransformRule" then .ok { m with nationalPrefixTransformRule := some v }
  else if k = str% "mainCountryForCode" then do
    let b ← parseBool v
    .ok { m with mainCountryForCode := b }
  else if k = str% "leadingDigits" then .ok { m with leadingDigits := some v }
  else if k = str% "mobileNumberPortableRegion" then do
    let b ← parseBool v
    .ok { m with mobileNumberPortable := b }
  else if k = str% "nationalPrefixFormattingRule" then
    .ok { m with defaults.format.nationalPrefixFormattingRule := some v }
  else if k = str% "nationalPrefixOptionalWhenFormatting" then do
    let b ← parseBool v
    .ok { m with defaults.format.nationalPrefixOptionalWhenFormatting := b }
  else if k = str% "carrierCodeFormattingRule" then .ok { m with defaults.format.domesticCarrier := some v }
  else .err (.metadata (.unhandledAttribute (str% "format") k v))

/-- The loop over the attributes of `territory`, `/repo/src/metadata/loader.rs:177-232`. -/
def territoryAttrs (m : Metadata) : List Attr → Outcome LoadErr Metadata
  | [] => .ok m
  | a :: as => do
    let (k, v) ← attrStr a
    let m ← territoryAttr m k v
    territoryAttrs m as

/-- The descriptor elements of a territory and the field each one sets, `/repo/src/metadata/loader.rs:241-269`. -/
def setDescriptor (m : Metadata) (n : Raw) (d : Descriptor) : Option Metadata :=
  if isName n (str% "generalDesc") then some { m with general := some d }
  else if isName n (str% "fixedLine") then some { m with fixedLine := some d }
  else if isName n (str% "mobile") then some { m with mobile := some d }
  else if isName n (str% "tollFree") then some { m with tollFree := some d }
  else if isName n (str% "premiumRate") then some { m with premiumRate := some d }
  else if isName n (str% "sharedCost") then some { m with sharedCost := some d }
  else if isName n (str% "personalNumber") then some { m with personalNumber := some d }
  else if isName n (str% "voip") then some { m with voip := some d }
  else if isName n (str% "pager") then some { m with pager := some d }
  else if isName n (str% "uan") then some { m with uan := some d }
  else if isName n (str% "emergency") then some { m with emergency := some d }
  else if isName n (str% "voicemail") then some { m with voicemail := some d }
  else if isName n (str% "noInternationalDialling") then some { m with noInternational := some d }
  else none

/-- The element loop of `territory`, `/repo/src/metadata/loader.rs:234-306`. Whether `setDescriptor` accepts a name does not
depend on the descriptor, so it is asked first with an empty one. -/
def territoryLoop : Nat → Metadata → List Event → Outcome LoadErr (Metadata × List Event)
  | 0, _, _ => .err .outOfFuel
  | _ + 1, _, [] => .err (.metadata .unexpectedEof)
  | f + 1, m, e :: es =>
    match e with
    | .text _ | .comment => territoryLoop f m es
    | .start n _ =>
      if isName n (str% "references") || isName n (str% "areaCodeOptional") then do
        let (_, es) ← ignore f n es
        territoryLoop f m es
      else if (setDescriptor m n {}).isSome then do
        let (d, es) ← descriptor f n m.defaults.descriptor es
        territoryLoop f ((setDescriptor m n d).getD m) es
      else if isName n (str% "availableFormats") then do
        let ((a, b), es) ← formats f m n [] [] es
        territoryLoop f { m with formats := a, internationalFormats := b } es
      else unhandledElement (str% "territory") n
    | .stop n => if isName n (str% "territory") then .ok (m, es) else mismatched n
    | .empty _ _ | .docType | .other => .err (.metadata (.unhandledEvent (str% "territory")))
    | .error => .err .xml

/-- `territory`, `/repo/src/metadata/loader.rs:170-307`. -/
def territory (f : Nat) (attrs : List Attr) (es : List Event) : Outcome LoadErr (Metadata × List Event) := do
  let m ← territoryAttrs {} attrs
  territoryLoop f m es

/-- `territories`, `/repo/src/metadata/loader.rs:134-168`. -/
def territories : Nat → List Metadata → List Event → Outcome LoadErr ((List Metadata) × List Event)
  | 0, _, _ => .err .outOfFuel
  | _ + 1, _, [] => .err (.metadata .unexpectedEof)
  | f + 1, acc, e :: es =>
    match e with
    | .text _ | .comment => territories f acc es
    | .start n attrs =>
      if isName n (str% "territory") then do
        let (m, es) ← territory f attrs es
        territories f (acc ++ [m]) es
      else do
        let (_, es) ← ignore f n es
        territories f acc es
    | .stop n => if isName n (str% "territories") then .ok (acc, es) else mismatched n
    | .empty _ _ | .docType | .other => .err (.metadata (.unhandledEvent (str% "territories")))
    | .error => .err .xml

/-- `metadata`, `/repo/src/metadata/loader.rs:96-132`; the end of the input is an unhandled event here. -/
def metadata : Nat → List Metadata → List Event → Outcome LoadErr (List Metadata)
  | 0, _, _ => .err .outOfFuel
  | _ + 1, _, [] => .err (.metadata (.unhandledEvent (str% "metadata")))
  | f + 1, acc, e :: es =>
    match e with
    | .text _ | .comment | .docType => metadata f acc es
    | .start n _ =>
      if isName n (str% "phoneNumberMetadata") then metadata f acc es
      else if isName n (str% "territories") then do
        let (ms, es) ← territories f [] es
        metadata f (acc ++ ms) es
      else do
        let (_, es) ← ignore f n es
        metadata f acc es
    | .stop n => if isName n (str% "phoneNumberMetadata") then .ok acc else mismatched n
    | .empty _ _ | .other => .err (.metadata (.unhandledEvent (str% "metadata")))
    | .error => .err .xml

/-- `load`, `/repo/src/metadata/loader.rs:92-94`, on the events delivered by the XML reader. -/
def load (es : List Event) : Outcome LoadErr (List Metadata) := metadata (es.length + 1) [] es

end Phone.Loader
