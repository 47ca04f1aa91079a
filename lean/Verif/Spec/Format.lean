import Verif.Model.Formatter
import Verif.Spec.Viable
import Verif.Regex.Captures
/-! # Specification of formatting -/

namespace Phone.Spec

/-- Separator characters: the punctuation of a viable number and the fullwidth full stop. -/
def isSep (c : Char) : Bool := isPunct c || c.toNat == 0xFF0E

/-- Worker of `hyphenate`; the flag says whether the previous character was a separator. -/
def hyphenateAux : Bool → Str → Str
  | _, [] => []
  | after, c :: cs =>
    if isSep c then (if after then hyphenateAux true cs else '-' :: hyphenateAux true cs) else c :: hyphenateAux false cs

/-- Every maximal run of separators becomes a single hyphen. -/
def hyphenate (s : Str) : Str := hyphenateAux false s

/-- The digits of a text, in order. -/
def digitsOf (s : Str) : Str := s.filter isDigit

/-- The template mentions a group: a dollar sign followed by a digit. -/
def MentionsGroup [UnicodeTables] (t : Str) : Prop := ∃ a d b, t = a ++ '$' :: d :: b ∧ isNd d = true

/-- The rule used in national format: the carrier rule if the number has a carrier and the format has such a rule, otherwise the
national prefix rule. -/
def ruleFor (f : Format) (carrier : Option Str) : Option Str :=
  match carrier, f.domesticCarrier with
  | some _, some r => some r
  | _, _ => f.nationalPrefix

/-- The format can be used in every mode: it has no rule, or its template mentions a group. -/
def Usable [UnicodeTables] (f : Format) : Prop := (f.nationalPrefix = none ∧ f.domesticCarrier = none) ∨ MentionsGroup f.format

/-- A format is meant for the number: it has no leading digits, or the last of them fits at the start of the number and the
pattern's match is the whole number. -/
def Applies [UnicodeTables] (f : Format) (v : Str) : Prop :=
  f.leadingDigits = [] ∨
  (∃ last, f.leadingDigits.getLast? = some last ∧ ∃ m, last.find v = some m ∧ m.pre = []) ∧
    ∃ m, f.pattern.find v = some m ∧ m.text = v

/-- `f` is the first format of the list meant for the number. -/
def FirstApplicable [UnicodeTables] (fs : List Format) (v : Str) (f : Format) : Prop :=
  ∃ before after, fs = before ++ f :: after ∧ Applies f v ∧ ∀ g ∈ before, ¬ Applies g v

/-- The formats consulted in a mode: the national ones in national mode or if there are no others. -/
def formatsFor (md : Metadata) (mode : Formatter.Mode) : List Format :=
  if md.internationalFormats = [] ∨ mode = .national then md.formats else md.internationalFormats

/-- `f` is the format used: the one set by the caller, or the first applicable one of the region. -/
def Chosen [UnicodeTables] (md : Metadata) (v : Str) (mode : Formatter.Mode) (custom : Option Format) (f : Format) : Prop :=
  custom = some f ∨ custom = none ∧ FirstApplicable (formatsFor md mode) v f

/-- No format is used: the caller set none and none of the region's is applicable. -/
def NoneChosen [UnicodeTables] (md : Metadata) (v : Str) (mode : Formatter.Mode) (custom : Option Format) : Prop :=
  custom = none ∧ ∀ f ∈ formatsFor md mode, ¬ Applies f v

/-- The metadata used for formatting a number: the first entry for its calling code. -/
def MetadataFor (db : Database) (n : PhoneNumber) (md : Metadata) : Prop :=
  ∃ l, db.byCode n.code.value = some (md :: l)

/-- What is written for the extension: nothing in E.164, `;ext=` and the extension in RFC 3966, else the region's extension prefix
(or ` ext. `) and the extension. -/
def extensionText (md : Metadata) : Formatter.Mode → Option Str → Str
  | .e164, _ => []
  | _, none => []
  | .rfc3966, some e => (str% ";ext=") ++ e
  | _, some e => md.preferredExtensionPrefix.getD (str% " ext. ") ++ e

/-- A part of a formatting rule. -/
inductive RulePart where
  /-- text without dollar signs -/
  | text (s : Str)
  /-- `$NP`, the national prefix -/
  | np
  /-- `$CC`, the carrier code -/
  | cc
  /-- `$FG`, the first group -/
  | fg
  /-- `$1`, the first group as well -/
  | one

/-- How the part is written. -/
def RulePart.source : RulePart → Str
  | .text s => s
  | .np => str% "$NP"
  | .cc => str% "$CC"
  | .fg => str% "$FG"
  | .one => str% "$1"

/-- What the part stands for, given the national prefix, the carrier code and the first group reference of the template. -/
def RulePart.meaning (np cc ref : Str) : RulePart → Str
  | .text s => s
  | .np => np
  | .cc => cc
  | .fg => ref
  | .one => ref

/-- The text of a rule. -/
def ruleSource (ps : List RulePart) : Str := ps.flatMap RulePart.source
/-- What a rule stands for. -/
def ruleMeaning (np cc ref : Str) (ps : List RulePart) : Str := ps.flatMap (RulePart.meaning np cc ref)

/-- No text part contains a dollar sign and no `$1` is directly followed by a letter, digit or underscore. -/
def PlainRule (np cc : Str) : List RulePart → Prop
  | [] => True
  | .text s :: ps => '$' ∉ s ∧ PlainRule np cc ps
  | .one :: ps => (∀ c t, ruleMeaning np cc ['$'] ps = c :: t → isNameChar c = false) ∧ PlainRule np cc ps
  | _ :: ps => PlainRule np cc ps

/-- No calling code of the database is an initial part of another one. -/
def PrefixFree (db : Database) : Prop :=
  ∀ c d, (db.byCode c).isSome → (db.byCode d).isSome → decStr c <+: decStr d → c = d

/-- A template that mentions the groups `k, k+1, …, n-1` once each, in this order, with no other digits. A group reference is not
followed by a letter, digit or underscore. -/
inductive RefsInOrder : Nat → Str → Nat → Prop where
  | nil {n} : RefsInOrder n [] n
  | text {k c s n} : isDigit c = false → c ≠ '$' → RefsInOrder k s n → RefsInOrder k (c :: s) n
  | ref {k d s n} : isDigit d = true → digitVal d = k → (∀ c t, s = c :: t → isNameChar c = false) → RefsInOrder (k + 1) s n →
      RefsInOrder k ('$' :: d :: s) n

/-- The format rearranges nothing: its pattern is a sequence of groups and its template mentions them in order. -/
def Faithful (f : Format) : Prop := ∃ n, GroupSeq 1 f.pattern.re n ∧ RefsInOrder 1 f.format n

end Phone.Spec
