import Verif.Regex.Syntax
/-! # Reading regex source text

A reader for the part of the `regex` crate's syntax that the metadata uses: literals, `\d` and escaped characters, classes
of characters and ranges, `(...)`, `(?:...)`, `|`, `?`, `*`, `+`, `{n}`, `{n,}`, `{n,m}` (each optionally lazy), `^`, `$`.
With `ignore_whitespace(true)` (`/repo/src/metadata/database.rs:66`) white space in the source is skipped, also inside
classes. Anything else is rejected, which is stricter than the crate (all metadata patterns are accepted, see
`Verif/Data`). The `#`-comments of extended mode are rejected. -/

namespace Phone.RegexParser

/-- An open group: its capture number (`none` for `(?:`), finished alternatives and current items, latest first. -/
structure Frame where
  grp : Option Nat
  alts : List Re
  cur : List Re

/-- What the reader is in the middle of. -/
inductive Mode where
  | normal
  /-- after `(` -/
  | paren
  /-- after `(?` -/
  | parenQ
  /-- after `\` -/
  | esc
  /-- directly after `[` -/
  | clsStart
  /-- inside a class; items so far, latest first; a single character that may start a range -/
  | cls (neg : Bool) (items : List CItem) (last : Option Char)
  /-- inside a class after `c-` -/
  | clsRange (neg : Bool) (items : List CItem) (lo : Char)
  /-- inside a class after `\` -/
  | clsEsc (neg : Bool) (items : List CItem)
  /-- inside `{`: minimum so far, digits seen -/
  | lo (n : Nat) (seen : Bool)
  /-- inside `{n,`: minimum, maximum so far -/
  | hi (n : Nat) (m : Nat) (seen : Bool)
  /-- directly after a quantifier: the repeated item and a function from greediness to the result -/
  | quant (a : Re) (lo : Nat) (hi : Option Nat)

/-- Reader state: mode, groups opened so far, current frame, enclosing frames. -/
structure PState where
  mode : Mode
  count : Nat
  top : Frame
  stack : List Frame

/-- Concatenation of items given latest first. -/
def mkCat : List Re → Re
  | [] => .eps
  | r :: rs => rs.foldl (fun acc x => .cat x acc) r

/-- Alternation of alternatives given latest first. -/
def mkAlt : List Re → Re
  | [] => .eps
  | r :: rs => rs.foldl (fun acc x => .alt x acc) r

/-- Lazy or greedy option. -/
def optG (g : Bool) (a : Re) : Re := if g then .alt a .eps else .alt .eps a

/-- `a{0,n}` -/
def uptoG (g : Bool) (a : Re) : Nat → Re
  | 0 => .eps
  | 1 => optG g a
  | n + 1 => optG g (.cat a (uptoG g a n))

/-- Repetition of `a` between `lo` and `hi` times. -/
def mkRep (g : Bool) (a : Re) (lo : Nat) : Option Nat → Re
  | none => if lo = 0 then .star g a else .cat (Re.rep a lo) (.star g a)
  | some hi =>
    if hi = lo then Re.rep a lo
    else if lo = 0 then uptoG g a hi
    else .cat (Re.rep a lo) (uptoG g a (hi - lo))

/-- Push a finished item. -/
def push (st : PState) (r : Re) : PState := { st with mode := .normal, top := { st.top with cur := r :: st.top.cur } }

/-- The regular expression of a frame. -/
def Frame.close (f : Frame) : Re :=
  let body := mkAlt (mkCat f.cur :: f.alts)
  match f.grp with
  | none => body
  | some n => .grp n body

/-- Characters that need an escape to be literals. -/
def isMeta (c : Char) : Bool := containsChar (str% "\\.+*?()|[]{}^$#&-~") c

/-- White space of extended mode. -/
def isSpace (c : Char) : Bool := containsChar (str% " \t\n\r") c

/-- Start a quantifier on the last item. -/
def quantify (st : PState) (lo : Nat) (hi : Option Nat) : Option PState :=
  match st.top.cur with
  | [] => none
  | a :: rest => some { st with mode := .quant a lo hi, top := { st.top with cur := rest } }

/-- One character in normal mode. -/
def stepNormal (st : PState) (c : Char) : Option PState :=
  if c = '(' then some { st with mode := .paren }
  else if c = ')' then
    match st.stack with
    | [] => none
    | f :: fs => some { st with mode := .normal, top := { f with cur := st.top.close :: f.cur }, stack := fs }
  else if c = '|' then
    some { st with mode := .normal, top := { st.top with alts := mkCat st.top.cur :: st.top.alts, cur := [] } }
  else if c = '[' then some { st with mode := .clsStart }
  else if c = '\\' then some { st with mode := .esc }
  else if c = '?' then quantify st 0 (some 1)
  else if c = '*' then quantify st 0 none
  else if c = '+' then quantify st 1 none
  else if c = '{' then some { st with mode := .lo 0 false }
  else if c = '^' then some (push st .bos)
  else if c = '$' then some (push st .eos)
  else if isMeta c && c != '-' && c != '&' && c != '~' then none
  else some (push st (.chr c))

/-- Finish the class being read. -/
def endCls (st : PState) (neg : Bool) (items : List CItem) : Option PState :=
  if items = [] then none else some (push st (.cls ⟨neg, items.reverse⟩))

/-- Add the pending single character to the items. -/
def flush (items : List CItem) : Option Char → List CItem
  | none => items
  | some c => .range c c :: items

/-- One character of source text. -/
def step (ext : Bool) (st : PState) (c : Char) : Option PState :=
  if ext && isSpace c then some st
  else if ext && c = '#' then none
  else match st.mode with
  | .normal => stepNormal st c
  | .paren =>
    if c = '?' then some { st with mode := .parenQ }
    else
      let n := st.count + 1
      stepNormal { mode := .normal, count := n, top := ⟨some n, [], []⟩, stack := st.top :: st.stack } c
  | .parenQ =>
    if c = ':' then some { st with mode := .normal, top := ⟨none, [], []⟩, stack := st.top :: st.stack } else none
  | .esc =>
    if c = 'd' then some (push st (.set [.nd]))
    else if isMeta c || c = '/' then some (push st (.chr c)) else none
  | .clsStart =>
    if c = '^' then some { st with mode := .cls true [] none }
    else if c = ']' || c = '[' || c = '-' then none
    else if c = '\\' then some { st with mode := .clsEsc false [] }
    else some { st with mode := .cls false [] (some c) }
  | .cls neg items last =>
    if c = ']' then endCls st neg (flush items last)
    else if c = '-' then
      match last with
      | some lo => some { st with mode := .clsRange neg items lo }
      | none => none
    else if c = '[' || c = '&' then none
    else if c = '\\' then some { st with mode := .clsEsc neg (flush items last) }
    else some { st with mode := .cls neg (flush items last) (some c) }
  | .clsRange neg items lo =>
    if isMeta c || c.toNat < lo.toNat then none
    else some { st with mode := .cls neg (.range lo c :: items) none }
  | .clsEsc neg items =>
    if c = 'd' then some { st with mode := .cls neg (.nd :: items) none }
    else if isMeta c || c = '/' then some { st with mode := .cls neg items (some c) } else none
  | .lo n seen =>
    if isDigit c then some { st with mode := .lo (10 * n + digitVal c) true }
    else if !seen then none
    else if c = ',' then some { st with mode := .hi n 0 false }
    else if c = '}' then quantify st n (some n)
    else none
  | .hi n m seen =>
    if isDigit c then some { st with mode := .hi n (10 * m + digitVal c) true }
    else if c = '}' then
      if !seen then quantify st n none
      else if n ≤ m then quantify st n (some m) else none
    else none
  | .quant a lo hi =>
    if c = '?' then some (push st (mkRep false a lo hi))
    else if c = '*' || c = '+' || c = '{' then none
    else stepNormal (push st (mkRep true a lo hi)) c

/-- End of source text. -/
def finish (src : Str) (st : PState) : Option Regex :=
  match st.mode, st.stack with
  | .normal, [] => some ⟨src, st.top.close, st.count⟩
  | .quant a lo hi, [] => some ⟨src, (push st (mkRep true a lo hi)).top.close, st.count⟩
  | _, _ => none

/-- Initial state. -/
def start : PState := ⟨.normal, 0, ⟨none, [], []⟩, []⟩

/-- Read all characters. -/
def loop (ext : Bool) : Str → PState → Option PState
  | [], st => some st
  | c :: cs, st =>
    match step ext st c with
    | none => none
    | some st' => loop ext cs st'

/-- `RegexBuilder::new(src).ignore_whitespace(ext).build()`. -/
def compile (ext : Bool) (src : Str) : Option Regex := (loop ext src start).bind (finish src)

end Phone.RegexParser
