import Verif.Regex.Match
/-! # Replacement templates of the `regex` crate

`Regex::replace` with a `&str` replacer: `$name`, `${name}` and `$$` are expanded, where `name` is the longest run of
`[0-9A-Za-z_]`; a name that is not a number of an existing group that took part expands to the empty string. -/

namespace Phone

/-- `[0-9A-Za-z_]` -/
def isNameChar (c : Char) : Bool := isDigit c || isAlpha c || c == '_'

/-- Value of a capture reference; named groups do not exist in this crate, so non-numeric names give "". -/
def capRef (m : Match) (name : Str) : Str :=
  if name ≠ [] ∧ name.all isDigit then (m.get (decVal name)).getD [] else []

/-- State of the template reader: what is being read. -/
inductive TMode where
  /-- plain text -/
  | text
  /-- just after a `$` -/
  | dollar
  /-- in an unbraced name, characters so far (in order) -/
  | name (acc : Str)
  /-- in a braced name, characters so far (in order) -/
  | brace (acc : Str)
  deriving DecidableEq, Repr

/-- Expand a replacement template. A `${` without closing brace is kept literally (its `$` is an ordinary character). -/
def expandAux (m : Match) : TMode → Str → Str
  | .text, [] => []
  | .dollar, [] => ['$']
  | .name acc, [] => capRef m acc
  | .brace acc, [] => '$' :: '{' :: acc
  | .text, c :: cs => if c = '$' then expandAux m .dollar cs else c :: expandAux m .text cs
  | .dollar, c :: cs =>
    if c = '$' then '$' :: expandAux m .text cs
    else if c = '{' then
      if containsChar cs '}' then expandAux m (.brace []) cs else '$' :: c :: expandAux m .text cs
    else if isNameChar c then expandAux m (.name [c]) cs
    else '$' :: c :: expandAux m .text cs
  | .name acc, c :: cs =>
    if isNameChar c then expandAux m (.name (acc ++ [c])) cs
    else if c = '$' then capRef m acc ++ expandAux m .dollar cs
    else capRef m acc ++ c :: expandAux m .text cs
  | .brace acc, c :: cs =>
    if c = '}' then capRef m acc ++ expandAux m .text cs
    else expandAux m (.brace (acc ++ [c])) cs

/-- Expand a replacement template for a match. -/
def expand (m : Match) (t : Str) : Str := expandAux m .text t

namespace Regex

/-- `Regex::replace(s, t)`: expand `t` in place of the first match. -/
def replace [UnicodeTables] (r : Regex) (s t : Str) : Str :=
  match r.find s with
  | none => s
  | some m => m.pre ++ expand m t ++ m.post

/-- Worker of `replaceAllLit`; `fuel > length` suffices. -/
def replaceAllAux [UnicodeTables] (r : Regex) (rep : Str) : Nat → Str → Str
  | 0, s => s
  | f + 1, s =>
    match r.find s with
    | none => s
    | some m => if m.text = [] then s else m.pre ++ rep ++ replaceAllAux r rep f m.post

/-- `Regex::replace_all(s, rep)` for a replacement without `$` and a pattern without anchors that never matches the empty
string (the only use in the crate is `SEPARATOR_PATTERN` with "-"). -/
def replaceAllLit [UnicodeTables] (r : Regex) (s rep : Str) : Str := replaceAllAux r rep (s.length + 1) s

end Regex
end Phone
