import Verif.Spec.Normalize
import Verif.Spec.Viable
import Verif.Basic.Unicode
import Verif.Model.Types
/-! # Specification of reading a number out of a text

What a text that is not an RFC 3966 number means: which part of it is the number, and whether it ends in an extension. -/

namespace Phone.Spec

variable [UnicodeTables]

/-- A number begins with a decimal digit or a plus sign. -/
def startsNumber (c : Char) : Bool := isNd c || isPlus c

/-- A number ends with a letter, a number character or `#`. -/
def endsNumber (c : Char) : Bool := isN c || isL c || c == '#'

omit [UnicodeTables] in
/-- The beginning of a second number: a slash or backslash, spaces, and `x`. -/
def SecondNumber (s : Str) : Prop := ∃ c sp r, s = c :: (sp ++ 'x' :: r) ∧ (c = '/' ∨ c = '\\') ∧ ∀ d ∈ sp, d = ' '

/-- `x` is the part of the text `s` that is taken for the number: it begins at the first character of `s` that can begin a
number, and reaches to the last character of `s` that can end one, but not into a second number. -/
structure Candidate (s x : Str) : Prop where
  nonempty : x ≠ []
  split : ∃ junk body after rest, s = junk ++ body ++ after ∧ body = x ++ rest ∧
    (∀ c ∈ junk, startsNumber c = false) ∧
    (∃ c, (body ++ after).head? = some c ∧ startsNumber c = true) ∧
    (∀ c ∈ after, endsNumber c = false) ∧ (∀ c, body.getLast? = some c → endsNumber c = true) ∧
    (rest = [] ∨ SecondNumber rest) ∧ ∀ a b, body = a ++ b → a.length < x.length → ¬ SecondNumber b

omit [UnicodeTables] in
/-- Lower case of the letters that occur in the introductions of extensions (the long s counts as s). -/
def fold (c : Char) : Char :=
  if c.toNat = 0x17F then 's'
  else if c.toNat = 0xD3 then 'ó'
  else if 65 ≤ c.toNat ∧ c.toNat ≤ 90 ∨ 0xFF21 ≤ c.toNat ∧ c.toNat ≤ 0xFF3A then Char.ofNat (c.toNat + 32)
  else c

omit [UnicodeTables] in
/-- What may introduce an extension. -/
def extWords : List Str :=
  [str% "ext", str% "xt", str% "extn", str% "xtn",
   str% "extensio", str% "xtensio", str% "extension", str% "xtension",
   str% "extensio\u0301", str% "xtensio\u0301", str% "extensio\u0301n", str% "xtensio\u0301n",
   str% "extensi\u00F3", str% "xtensi\u00F3", str% "extensi\u00F3n", str% "xtensi\u00F3n",
   str% "ｅｘｔ", str% "ｘｔ", str% "ｅｘｔｎ", str% "ｘｔｎ",
   str% ",", str% ";", str% "x", str% "ｘ", str% "#", str% "＃", str% "~", str% "～",
   str% "int", str% "anexo", str% "ｉｎｔ"]

/-- `ExtText e o`: `e` is a way to write an extension; `o` are its digits if it is one of the forms from which the number reader
takes them. -/
inductive ExtText : Str → Option Str → Prop where
  /-- blanks or commas, a word, an optional colon or stop, blanks, commas or hyphens, up to seven digits, an optional `#` -/
  | word (sep1 w colon sep2 ds hash : Str) :
      (∀ c ∈ sep1, c ∈ [' ', '\u00A0', '\t', ',']) → w.map fold ∈ extWords →
      (colon = [] ∨ ∃ c ∈ [':', '.', '．'], colon = [c]) →
      (∀ c ∈ sep2, c ∈ [' ', '\u00A0', '\t', ',', '-']) → ds.length ≤ 7 → (∀ c ∈ ds, isNd c = true) →
      (hash = [] ∨ hash = ['#']) → ExtText (sep1 ++ (w ++ (colon ++ (sep2 ++ (ds ++ hash))))) (some ds)
  /-- `;ext=` and up to seven digits -/
  | rfc (p ds : Str) : p.map fold = (str% ";ext=") → ds.length ≤ 7 → (∀ c ∈ ds, isNd c = true) → ExtText (p ++ ds) none
  /-- hyphens or spaces, one to five digits and `#` -/
  | hash (sep ds : Str) : sep ≠ [] → (∀ c ∈ sep, c ∈ ['-', ' ']) → ds ≠ [] → ds.length ≤ 5 → (∀ c ∈ ds, isNd c = true) →
      ExtText (sep ++ (ds ++ ['#'])) none

/-- The text `x` ends in an extension that begins after `a`, and no longer end of `x` is one. -/
structure Extension (x a : Str) (o : Option Str) : Prop where
  split : ∃ e, x = a ++ e ∧ ExtText e o
  first : ∀ a' e' o', x = a' ++ e' → ExtText e' o' → a.length ≤ a'.length

/-- The text `x` does not end in an extension. -/
def NoExtension (x : Str) : Prop := ∀ a e o, x = a ++ e → ¬ ExtText e o

omit [UnicodeTables] in
/-- The characters outside ASCII that may introduce an extension. -/
def wideExt : Str :=
  str% "\u00A0\u00F3\u00D3\u0301\u017F．＃～ｅＥｘＸｔＴｎＮｉＩ"

/-- No character of the text that may introduce an extension is classed as a decimal digit. (In Unicode none is; the tables are
a parameter here. Every ASCII text has this property.) -/
def MarksNotDigits (s : Str) : Prop := ∀ c ∈ s, c ∈ wideExt → isNd c = false

omit [UnicodeTables] in
/-- A number with its extension set. -/
def withExtension (e : Str) (p : PhoneNumber) : PhoneNumber := { p with extension := some e }

end Phone.Spec
