import Verif.Basic.Unicode
/-! # Regular expressions of the `regex` crate

Only the constructs that occur in `/repo/src/consts.rs` and `/repo/assets/PhoneNumberMetadata.xml` are modelled:
literals, classes (with `\d`, `\p{Nd}`, `\p{N}`, `\p{L}`, ranges, negation), concatenation, alternation, greedy and lazy
repetition, numbered capture groups, `^` and `$` (without multi-line mode). Counted repetitions are expanded. -/

namespace Phone

/-- One item of a character class. -/
inductive CItem where
  /-- `a-b` (or a single character when both ends agree) -/
  | range (lo hi : Char)
  /-- `\d`, `\p{Nd}` -/
  | nd
  /-- `\p{N}` -/
  | n
  /-- `\p{L}` -/
  | l
  deriving DecidableEq, Repr

/-- A character class, possibly negated. -/
structure Cls where
  neg : Bool
  items : List CItem
  deriving DecidableEq, Repr

/-- Regular expression syntax. -/
inductive Re where
  | eps
  | cls (c : Cls)
  | cat (a b : Re)
  /-- ordered alternation, `a` is preferred -/
  | alt (a b : Re)
  /-- `a*` (`greedy = true`) or `a*?` -/
  | star (greedy : Bool) (a : Re)
  /-- capture group number `n` -/
  | grp (n : Nat) (a : Re)
  /-- `^` -/
  | bos
  /-- `$` -/
  | eos
  deriving DecidableEq, Repr

/-- A compiled regex: its source text (`Regex::as_str`), its syntax tree and its number of capture groups
(not counting group 0), so `captures_len() = ngroups + 1`. -/
structure Regex where
  src : Str
  re : Re
  ngroups : Nat
  deriving DecidableEq, Repr

/-- Does an item contain the character? -/
def CItem.mem [UnicodeTables] (c : Char) : CItem → Bool
  | range lo hi => lo.toNat ≤ c.toNat && c.toNat ≤ hi.toNat
  | nd => isNd c
  | n => isN c
  | l => isL c

/-- Does a class contain the character? -/
def Cls.mem [UnicodeTables] (k : Cls) (c : Char) : Bool := (k.items.any (CItem.mem c)) != k.neg

namespace Re

/-- literal character -/
def chr (c : Char) : Re := .cls ⟨false, [.range c c]⟩
/-- positive class -/
def set (is : List CItem) : Re := .cls ⟨false, is⟩
/-- `a?` -/
def opt (a : Re) : Re := .alt a .eps
/-- `a+` -/
def plus (a : Re) : Re := .cat a (.star true a)
/-- literal string -/
def lit : Str → Re
  | [] => .eps
  | [c] => chr c
  | c :: cs => .cat (chr c) (lit cs)
/-- `a{n}` -/
def rep (a : Re) : Nat → Re
  | 0 => .eps
  | 1 => a
  | n + 1 => .cat a (rep a n)
/-- `a{0,n}` greedy -/
def upto (a : Re) : Nat → Re
  | 0 => .eps
  | n + 1 => opt (.cat a (upto a n))
/-- `a{n,m}` greedy, `m` given as `n + k` -/
def repRange (a : Re) (n k : Nat) : Re := .cat (rep a n) (upto a k)

end Re
end Phone
