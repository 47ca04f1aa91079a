import Verif.Regex.Syntax
/-! # Leftmost-first matching

`run r s` lists every way `r` can match a prefix of the remaining input of `s`, in the priority order of a backtracking
(Perl-style) matcher; the `regex` crate returns the first one at the leftmost start position.
Simplification: an iteration of a star that consumes nothing is dropped. No pattern of the crate or of its metadata has a
star over a sub-expression that can match the empty string (checked in `Verif/Data`), so this never applies there. -/

namespace Phone

/-- One captured group: number, byte offset of its start, captured text. -/
structure Cap where
  idx : Nat
  start : Nat
  text : Str
  deriving DecidableEq, Repr

/-- Matcher state: byte position, remaining input, captures so far (latest first). -/
structure St where
  pos : Nat
  rest : Str
  caps : List Cap
  deriving DecidableEq, Repr

namespace St
/-- The part of the input consumed between `s` and a later state `s'`. -/
def consumed (s s' : St) : Str := s.rest.take (s.rest.length - s'.rest.length)
end St

/-- Iterate a one-step matcher for a star; `fuel ≥ remaining input length` suffices. -/
def starRun (f : St → List St) (greedy : Bool) : Nat → St → List St
  | 0, s => [s]
  | n + 1, s =>
    let more := (f s).flatMap fun s' =>
      if s'.rest.length < s.rest.length then starRun f greedy n s' else []
    if greedy then more ++ [s] else s :: more

/-- All matches of `r` starting in state `s`, best first. -/
def run [UnicodeTables] : Re → St → List St
  | .eps, s => [s]
  | .cls k, s =>
    match s.rest with
    | [] => []
    | c :: cs => if k.mem c then [{ pos := s.pos + c.utf8Size, rest := cs, caps := s.caps }] else []
  | .cat a b, s => (run a s).flatMap (run b)
  | .alt a b, s => run a s ++ run b s
  | .star g a, s => starRun (run a) g s.rest.length s
  | .grp n a, s =>
    (run a s).map fun s' => { s' with caps := ⟨n, s.pos, s.consumed s'⟩ :: s'.caps }
  | .bos, s => if s.pos = 0 then [s] else []
  | .eos, s => if s.rest = [] then [s] else []

/-- A successful match: text before, matched text, text after, captures. -/
structure Match where
  pre : Str
  text : Str
  post : Str
  caps : List Cap
  deriving DecidableEq, Repr

namespace Match
/-- `Match::start` -/
def start (m : Match) : Nat := byteLen m.pre
/-- `Match::end` -/
def stop (m : Match) : Nat := byteLen m.pre + byteLen m.text
/-- `Captures::get(n)`: text of group `n` if it took part in the match. -/
def get (m : Match) (n : Nat) : Option Str :=
  if n = 0 then some m.text else (m.caps.find? (·.idx == n)).map Cap.text
end Match

/-- A match starting exactly after `pre`, if any: the best one. -/
def matchAt [UnicodeTables] (r : Re) (pre rest : Str) : Option Match :=
  (run r ⟨byteLen pre, rest, []⟩).head?.map fun s' =>
    ⟨pre, rest.take (rest.length - s'.rest.length), s'.rest, s'.caps⟩

/-- Leftmost search; `pre` is the text already skipped. -/
def searchFrom [UnicodeTables] (r : Re) (pre : Str) : Str → Option Match
  | [] => matchAt r pre []
  | c :: cs =>
    match matchAt r pre (c :: cs) with
    | some m => some m
    | none => searchFrom r (pre ++ [c]) cs

namespace Regex

/-- `Regex::captures` / `Regex::find`: the leftmost-first match. -/
def find [UnicodeTables] (r : Regex) (s : Str) : Option Match := searchFrom r.re [] s

/-- `Regex::is_match`. -/
def isMatch [UnicodeTables] (r : Regex) (s : Str) : Bool := (r.find s).isSome

end Regex
end Phone
