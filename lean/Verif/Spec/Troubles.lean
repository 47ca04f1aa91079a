import Verif.Spec.Loader
/-! # What is wrong with a metadata document

The troubles of a document in document order, and what each of them does to the attempt to load it. The kinds of attribute values and
the lists of known names are those of `Spec/Loader`. What is wrong with a `possibleLengths` text is a parameter `bad`. -/

namespace Phone.Xml

/-- What a trouble does. -/
inductive Trouble where
  | error (e : LoadErr)
  | crash (p : Panic)
  deriving DecidableEq, Repr

/-- The outcome of a call that meets the trouble. -/
def Trouble.effect {α : Type} : Trouble → Outcome LoadErr α
  | .error e => .err e
  | .crash p => .panic p

namespace Trouble

/-- Something that may not stand in a place: document type, declaration, processing instruction, CDATA section, entity reference, a
comment or element inside a text, an empty element. -/
def event (place : Str) : Trouble := .error (.metadata (.unhandledEvent place))
/-- An unknown element. -/
def element (place name : Str) : Trouble := .error (.metadata (.unhandledElement place name))
/-- An unknown attribute. -/
def attr (place key value : Str) : Trouble := .error (.metadata (.unhandledAttribute place key value))

end Trouble

mutual
/-- In an element that is skipped, at any depth. -/
def Node.ignoredTroubles : Node → List Trouble
  | .text _ | .comment | .empty _ _ => []
  | .docType | .misc => [.event (str% "ignore")]
  | .elem _ _ cs => ignoredTroubles cs
/-- In the content of an element that is skipped. -/
def ignoredTroubles : List Node → List Trouble
  | [] => []
  | c :: cs => c.ignoredTroubles ++ ignoredTroubles cs
end

/-- In an element that should contain text only. -/
def textTroubles (cs : List Node) : List Trouble := cs.flatMap fun
  | .text _ => []
  | _ => [.event (str% "text")]

section
variable (bad : Str → List Trouble)

/-- The value of an attribute of the given kind. -/
def Kind.troubles : Kind → Str → List Trouble
  | .text, _ => []
  | .number, v => if (parseUInt u16Bound v).isSome then [] else [.error .integer]
  | .flag, v => if v = str% "true" ∨ v = str% "false" then [] else [.error .bool]
  | .lengths, v => bad v

/-- An attribute. -/
def attrTroubles (place : Str) (known : List (Str × Kind)) (a : Str × Str) : List Trouble :=
  match known.find? fun k => k.1 == a.1 with
  | none => [.attr place a.1 a.2]
  | some k => k.2.troubles bad a.2

/-- Inside a description of a type of number. -/
def descriptorTroubles : Node → List Trouble
  | .text _ | .comment => []
  | .docType | .misc => [.event (str% "descriptor")]
  | .empty n as =>
    if n = str% "possibleLengths" then as.flatMap (attrTroubles bad (str% "descriptor::possibleLength") lengthKeys)
    else [.element (str% "descriptor") n]
  | .elem n _ cs =>
    if n = str% "nationalNumberPattern" ∨ n = str% "exampleNumber" then textTroubles cs else [.element (str% "descriptor") n]

/-- Inside a `numberFormat`. -/
def formatTroubles : Node → List Trouble
  | .text _ | .comment => []
  | .docType | .misc | .empty _ _ => [.event (str% "format")]
  | .elem n _ cs =>
    if n = str% "leadingDigits" ∨ n = str% "format" ∨ n = str% "intlFormat" then textTroubles cs
    else [.element (str% "format") n]

/-- Inside `availableFormats`. -/
def formatsTroubles : Node → List Trouble
  | .text _ | .comment => []
  | .docType | .misc | .empty _ _ => [.event (str% "formats")]
  | .elem n as cs =>
    if n = str% "numberFormat" then as.flatMap (attrTroubles bad (str% "format") formatKeys) ++ cs.flatMap formatTroubles
    else [.element (str% "formats") n]

/-- Inside a `territory`. -/
def territoryTroubles : Node → List Trouble
  | .text _ | .comment => []
  | .docType | .misc | .empty _ _ => [.event (str% "territory")]
  | .elem n _ cs =>
    if n = str% "references" ∨ n = str% "areaCodeOptional" then ignoredTroubles cs
    else if n ∈ descriptorNames then cs.flatMap (descriptorTroubles bad)
    else if n = str% "availableFormats" then cs.flatMap (formatsTroubles bad)
    else [.element (str% "territory") n]

/-- Inside `territories`. Unknown attributes of a territory are reported with the place `format`. -/
def territoriesTroubles : Node → List Trouble
  | .text _ | .comment => []
  | .docType | .misc | .empty _ _ => [.event (str% "territories")]
  | .elem n as cs =>
    if n = str% "territory" then
      as.flatMap (attrTroubles bad (str% "format") territoryKeys) ++ cs.flatMap (territoryTroubles bad)
    else ignoredTroubles cs

/-- Inside the root element. -/
def rootTroubles : Node → List Trouble
  | .text _ | .comment | .docType => []
  | .misc | .empty _ _ => [.event (str% "metadata")]
  | .elem n _ cs => if n = str% "territories" then cs.flatMap (territoriesTroubles bad) else ignoredTroubles cs

end

end Phone.Xml
