import Verif.Model.Loader
/-! # What a metadata document says

Specification for the metadata loader: an XML document is a tree, `Node.events` is the sequence of events an XML reader
delivers for it, and the functions below say which documents are accepted and what each of them means, by looking up
attributes and elements by name. Nothing here follows the order in which the loader works.

The only Rust library function that occurs is `str::parse::<u16>` (`parseUInt u16Bound`). The meaning of a `possibleLengths`
text is a parameter `lens`; `LengthItem` below says what it is for proper texts. -/

namespace Phone.Xml

/-- A node of an XML document in UTF-8. -/
inductive Node where
  | text (s : Str)
  | comment
  | docType
  /-- anything else that is not an element: declaration, processing instruction, CDATA section, entity reference -/
  | misc
  /-- `<name key="value" .../>` -/
  | empty (name : Str) (attrs : List (Str × Str))
  /-- `<name key="value" ...> children </name>` -/
  | elem (name : Str) (attrs : List (Str × Str)) (children : List Node)

/-- The attributes of an element as the reader yields them. -/
def attrEvents (as : List (Str × Str)) : List Loader.Attr := as.map fun a => .ok (.utf8 a.1) (.utf8 a.2)

mutual
/-- The events of a node. -/
def Node.events : Node → List Loader.Event
  | .text s => [.text (.utf8 s)]
  | .comment => [.comment]
  | .docType => [.docType]
  | .misc => [.other]
  | .empty n as => [.empty (.utf8 n) (attrEvents as)]
  | .elem n as cs => .start (.utf8 n) (attrEvents as) :: (events cs ++ [.stop (.utf8 n)])
/-- The events of a sequence of nodes. -/
def events : List Node → List Loader.Event
  | [] => []
  | c :: cs => c.events ++ events cs
end

/-- The value of the attribute `k` (the last one, should there be several). -/
def attr (as : List (Str × Str)) (k : Str) : Option Str := (as.reverse.find? fun a => a.1 == k).map Prod.snd

/-- The attributes and children of the elements called `n` among `cs`, in order. -/
def elems (n : Str) (cs : List Node) : List (List (Str × Str) × List Node) :=
  cs.filterMap fun
    | .elem n' as cs' => if n' = n then some (as, cs') else none
    | _ => none

/-- The children of the last element called `n` among `cs`. -/
def lastElem (n : Str) (cs : List Node) : Option (List Node) := (elems n cs).getLast?.map Prod.snd

/-- The text of an element: its text nodes joined. -/
def textOf (cs : List Node) : Str := cs.flatMap fun
  | .text s => s
  | _ => []

/-- An element with nothing but text in it. -/
def TextOnly (cs : List Node) : Prop := ∀ c ∈ cs, ∃ s, c = .text s

mutual
/-- No document type, declaration, processing instruction, CDATA section or entity reference in the node, at any depth. -/
def Node.clean : Node → Bool
  | .text _ | .comment | .empty _ _ => true
  | .docType | .misc => false
  | .elem _ _ cs => clean cs
/-- All nodes are clean. -/
def clean : List Node → Bool
  | [] => true
  | c :: cs => c.clean && clean cs
end

/-- What the value of an attribute may be. -/
inductive Kind where
  /-- any text -/
  | text
  /-- a number below 65536 -/
  | number
  /-- `true` or `false` -/
  | flag
  /-- a text the parameter `lens` can read -/
  | lengths

section
variable (lens : Str → Option (List Nat))

/-- The value is of the kind. -/
def Kind.Fits : Kind → Str → Prop
  | .text, _ => True
  | .number, v => ∃ n, parseUInt u16Bound v = some n
  | .flag, v => v = str% "true" ∨ v = str% "false"
  | .lengths, v => ∃ l, lens v = some l

/-- Every attribute is one of the known ones and its value is of the right kind. -/
def AttrsFit (known : List (Str × Kind)) (as : List (Str × Str)) : Prop :=
  ∀ a ∈ as, ∃ kind, (a.1, kind) ∈ known ∧ kind.Fits lens a.2

/-- The attributes of a `territory`. -/
def territoryKeys : List (Str × Kind) :=
  [(str% "id", .text), (str% "countryCode", .number), (str% "internationalPrefix", .text),
   (str% "preferredInternationalPrefix", .text), (str% "nationalPrefix", .text), (str% "preferredExtnPrefix", .text),
   (str% "nationalPrefixForParsing", .text), (str% "nationalPrefixTransformRule", .text),
   (str% "mainCountryForCode", .flag), (str% "leadingDigits", .text), (str% "mobileNumberPortableRegion", .flag),
   (str% "nationalPrefixFormattingRule", .text), (str% "nationalPrefixOptionalWhenFormatting", .flag),
   (str% "carrierCodeFormattingRule", .text)]

/-- The attributes of a `numberFormat`. -/
def formatKeys : List (Str × Kind) :=
  [(str% "pattern", .text), (str% "nationalPrefixFormattingRule", .text),
   (str% "nationalPrefixOptionalWhenFormatting", .flag), (str% "carrierCodeFormattingRule", .text)]

/-- The attributes of a `possibleLengths`. -/
def lengthKeys : List (Str × Kind) := [(str% "national", .lengths), (str% "localOnly", .lengths)]

/-- The elements that describe one type of number. -/
def descriptorNames : List Str :=
  [str% "generalDesc", str% "fixedLine", str% "mobile", str% "tollFree", str% "premiumRate", str% "sharedCost",
   str% "personalNumber", str% "voip", str% "pager", str% "uan", str% "emergency", str% "voicemail",
   str% "noInternationalDialling"]

/-- Allowed inside a description of a type of number. -/
def DescriptorChild : Node → Prop
  | .text _ | .comment => True
  | .elem n _ cs => (n = str% "nationalNumberPattern" ∨ n = str% "exampleNumber") ∧ TextOnly cs
  | .empty n as => n = str% "possibleLengths" ∧ AttrsFit lens lengthKeys as
  | .docType | .misc => False

/-- Allowed inside a `numberFormat`. -/
def FormatChild : Node → Prop
  | .text _ | .comment => True
  | .elem n _ cs => (n = str% "leadingDigits" ∨ n = str% "format" ∨ n = str% "intlFormat") ∧ TextOnly cs
  | .empty _ _ | .docType | .misc => False

/-- Allowed inside `availableFormats`. -/
def FormatsChild : Node → Prop
  | .text _ | .comment => True
  | .elem n as cs => n = str% "numberFormat" ∧ AttrsFit lens formatKeys as ∧ ∀ c ∈ cs, FormatChild c
  | .empty _ _ | .docType | .misc => False

/-- Allowed inside a `territory`. -/
def TerritoryChild : Node → Prop
  | .text _ | .comment => True
  | .elem n _ cs =>
    ((n = str% "references" ∨ n = str% "areaCodeOptional") ∧ clean cs = true) ∨
    (n ∈ descriptorNames ∧ ∀ c ∈ cs, DescriptorChild lens c) ∨
    (n = str% "availableFormats" ∧ ∀ c ∈ cs, FormatsChild lens c)
  | .empty _ _ | .docType | .misc => False

/-- Allowed inside `territories`. -/
def TerritoriesChild : Node → Prop
  | .text _ | .comment => True
  | .elem n as cs =>
    if n = str% "territory" then AttrsFit lens territoryKeys as ∧ ∀ c ∈ cs, TerritoryChild lens c else clean cs = true
  | .empty _ _ | .docType | .misc => False

/-- Allowed inside the root element `phoneNumberMetadata`. -/
def RootChild : Node → Prop
  | .text _ | .comment | .docType => True
  | .elem n _ cs => if n = str% "territories" then ∀ c ∈ cs, TerritoriesChild lens c else clean cs = true
  | .empty _ _ | .misc => False

/-- All `possibleLengths` attributes among the children of a description. -/
def lengthAttrs (cs : List Node) : List (Str × Str) := cs.flatMap fun
  | .empty _ as => as
  | _ => []

/-- The meaning of a description of a type of number. -/
def descriptorOf (cs : List Node) : Loader.Descriptor where
  nationalNumber := (lastElem (str% "nationalNumberPattern") cs).map textOf
  example? := (lastElem (str% "exampleNumber") cs).map textOf
  possibleLength := ((attr (lengthAttrs cs) (str% "national")).bind lens).getD []
  possibleLocalLength := ((attr (lengthAttrs cs) (str% "localOnly")).bind lens).getD []

/-- A value of its own, or else the one of the territory. -/
def inherited (own territory : List (Str × Str)) (k : Str) : Option Str := (attr own k).or (attr territory k)

/-- The national format of a `numberFormat` with attributes `as` in a territory with attributes `ts`. -/
def formatOf (ts as : List (Str × Str)) (cs : List Node) : Loader.Format where
  pattern := attr as (str% "pattern")
  format := (lastElem (str% "format") cs).map textOf
  leadingDigits := (elems (str% "leadingDigits") cs).map fun e => textOf e.2
  nationalPrefixFormattingRule := inherited as ts (str% "nationalPrefixFormattingRule")
  nationalPrefixOptionalWhenFormatting := inherited as ts (str% "nationalPrefixOptionalWhenFormatting") = some (str% "true")
  domesticCarrier := inherited as ts (str% "carrierCodeFormattingRule")

/-- The texts of the elements `format` and `intlFormat`, in order; the text `NA` of an `intlFormat` stands for no format. -/
def formatTexts (cs : List Node) : List (Option Str) := cs.filterMap fun
  | .elem n _ cs' =>
    if n = str% "format" then some (some (textOf cs'))
    else if n = str% "intlFormat" then some (if textOf cs' = str% "NA" then none else some (textOf cs'))
    else none
  | _ => none

/-- The international format of a `numberFormat`, if it has one: like the national one, with the last text. -/
def intlFormatOf (ts as : List (Str × Str)) (cs : List Node) : Option Loader.Format :=
  (formatTexts cs).getLast?.join.map fun t => { formatOf ts as cs with format := some t }

/-- The `numberFormat` elements of the last `availableFormats` element of a territory. -/
def numberFormats (cs : List Node) : List (List (Str × Str) × List Node) :=
  elems (str% "numberFormat") ((lastElem (str% "availableFormats") cs).getD [])

/-- The meaning of a territory. -/
def territoryOf (as : List (Str × Str)) (cs : List Node) : Loader.Metadata where
  general := (lastElem (str% "generalDesc") cs).map (descriptorOf lens)
  fixedLine := (lastElem (str% "fixedLine") cs).map (descriptorOf lens)
  mobile := (lastElem (str% "mobile") cs).map (descriptorOf lens)
  tollFree := (lastElem (str% "tollFree") cs).map (descriptorOf lens)
  premiumRate := (lastElem (str% "premiumRate") cs).map (descriptorOf lens)
  sharedCost := (lastElem (str% "sharedCost") cs).map (descriptorOf lens)
  personalNumber := (lastElem (str% "personalNumber") cs).map (descriptorOf lens)
  voip := (lastElem (str% "voip") cs).map (descriptorOf lens)
  pager := (lastElem (str% "pager") cs).map (descriptorOf lens)
  uan := (lastElem (str% "uan") cs).map (descriptorOf lens)
  emergency := (lastElem (str% "emergency") cs).map (descriptorOf lens)
  voicemail := (lastElem (str% "voicemail") cs).map (descriptorOf lens)
  shortCode := none
  standardRate := none
  carrier := none
  noInternational := (lastElem (str% "noInternationalDialling") cs).map (descriptorOf lens)
  id := attr as (str% "id")
  countryCode := (attr as (str% "countryCode")).bind (parseUInt u16Bound)
  internationalPrefix := attr as (str% "internationalPrefix")
  preferredInternationalPrefix := attr as (str% "preferredInternationalPrefix")
  nationalPrefix := attr as (str% "nationalPrefix")
  preferredExtensionPrefix := attr as (str% "preferredExtnPrefix")
  nationalPrefixForParsing := attr as (str% "nationalPrefixForParsing")
  nationalPrefixTransformRule := attr as (str% "nationalPrefixTransformRule")
  formats := (numberFormats cs).map fun e => formatOf as e.1 e.2
  internationalFormats := (numberFormats cs).filterMap fun e => intlFormatOf as e.1 e.2
  mainCountryForCode := attr as (str% "mainCountryForCode") = some (str% "true")
  leadingDigits := attr as (str% "leadingDigits")
  mobileNumberPortable := attr as (str% "mobileNumberPortableRegion") = some (str% "true")
  defaults :=
    { format :=
        { nationalPrefixFormattingRule := attr as (str% "nationalPrefixFormattingRule")
          nationalPrefixOptionalWhenFormatting :=
            attr as (str% "nationalPrefixOptionalWhenFormatting") = some (str% "true")
          domesticCarrier := attr as (str% "carrierCodeFormattingRule") }
      descriptor := {} }

/-- The territories of a document, given the children of the root element: every `territory` in every `territories`, in
document order. -/
def territoriesOf (cs : List Node) : List Loader.Metadata :=
  (elems (str% "territories") cs).flatMap fun t =>
    (elems (str% "territory") t.2).map fun e => territoryOf lens e.1 e.2

end

/-- A description of a type of number contains an element or attribute that is not known. -/
def UnknownInDescriptor (cs : List Node) : Prop :=
  (∃ n as cs', .elem n as cs' ∈ cs ∧ n ≠ str% "nationalNumberPattern" ∧ n ≠ str% "exampleNumber") ∨
  (∃ n as, .empty n as ∈ cs ∧ (n ≠ str% "possibleLengths" ∨ ∃ a ∈ as, a.1 ≠ str% "national" ∧ a.1 ≠ str% "localOnly"))

/-- An `availableFormats` element contains an element or attribute that is not known. -/
def UnknownInFormats (cs : List Node) : Prop :=
  ∃ n as cs', .elem n as cs' ∈ cs ∧
    (n ≠ str% "numberFormat" ∨
     (∃ a ∈ as, a.1 ∉ [str% "pattern", str% "nationalPrefixFormattingRule", str% "nationalPrefixOptionalWhenFormatting",
       str% "carrierCodeFormattingRule"]) ∨
     (∃ n' as' cs'', .elem n' as' cs'' ∈ cs' ∧ n' ∉ [str% "leadingDigits", str% "format", str% "intlFormat"]))

/-- Some territory of the document has an attribute or contains an element that is not known. -/
def Unknown (cs : List Node) : Prop :=
  ∃ ts ∈ elems (str% "territories") cs, ∃ t ∈ elems (str% "territory") ts.2,
    (∃ a ∈ t.1, a.1 ∉ [str% "id", str% "countryCode", str% "internationalPrefix", str% "preferredInternationalPrefix",
      str% "nationalPrefix", str% "preferredExtnPrefix", str% "nationalPrefixForParsing", str% "nationalPrefixTransformRule",
      str% "mainCountryForCode", str% "leadingDigits", str% "mobileNumberPortableRegion", str% "nationalPrefixFormattingRule",
      str% "nationalPrefixOptionalWhenFormatting", str% "carrierCodeFormattingRule"]) ∨
    (∃ n as cs', .elem n as cs' ∈ t.2 ∧ n ∉ descriptorNames ∧
      n ∉ [str% "references", str% "areaCodeOptional", str% "availableFormats"]) ∨
    (∃ n ∈ descriptorNames, ∃ e ∈ elems n t.2, UnknownInDescriptor e.2) ∨
    (∃ e ∈ elems (str% "availableFormats") t.2, UnknownInFormats e.2)

mutual
/-- A declaration, processing instruction, CDATA section or entity reference occurs in the node, at any depth. -/
def Node.hasMisc : Node → Prop
  | .misc => True
  | .elem _ _ cs => hasMisc cs
  | _ => False
/-- One of the nodes has it. -/
def hasMisc : List Node → Prop
  | [] => False
  | c :: cs => c.hasMisc ∨ hasMisc cs
end

/-- Nodes that may stand before the root element. -/
def Prolog : Node → Prop
  | .text _ | .comment | .docType => True
  | _ => False

/-- One item of a `possibleLengths` list: a number, or a range. -/
inductive LengthItem where
  | single (n : Nat)
  | range (a b : Nat)

/-- The text of an item. -/
def LengthItem.show : LengthItem → Str
  | .single n => decStr n
  | .range a b => '[' :: decStr a ++ '-' :: decStr b ++ [']']

/-- The lengths an item stands for, in increasing order. -/
def LengthItem.values : LengthItem → List Nat
  | .single n => [n]
  | .range a b => (List.range (b + 1)).filter fun n => a ≤ n

/-- The numbers are not too large for the loader. -/
def LengthItem.Small : LengthItem → Prop
  | .single n => n < 65536
  | .range a b => a < 65536 ∧ b < 65535

/-- White space, in the sense of `char::is_whitespace`, without the ones beyond Latin-1. -/
def blank (c : Char) : Prop := c.toNat ∈ [9, 10, 11, 12, 13, 32, 0x85, 0xA0]

/-- Items joined by commas, each with white space before and after it. -/
def joinItems : List (Str × LengthItem × Str) → Str
  | [] => []
  | [(w, i, w')] => w ++ i.show ++ w'
  | (w, i, w') :: rest => w ++ i.show ++ w' ++ ',' :: joinItems rest

end Phone.Xml
