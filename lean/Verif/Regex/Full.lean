import Verif.Regex.Parser
import Verif.Regex.Match
/-! # Reading the regex source text of `/repo/src/consts.rs`

The patterns of `/repo/src/consts.rs` use more of the `regex` crate's syntax than the metadata: `.`, `\x{…}`, `\t`, `\D`,
`\p{…}` and `\P{…}`, classes with nested classes, `&&` and a leading or trailing `-`, and the case-insensitive flag. This
reader adds those to `Verif/Regex/Parser.lean`. Anything it does not know is rejected, which is stricter than the crate. -/

namespace Phone.FullParser
open Phone.RegexParser

/-- Value of a hexadecimal digit. -/
def hexVal (c : Char) : Option Nat :=
  if 48 ≤ c.toNat ∧ c.toNat ≤ 57 then some (c.toNat - 48)
  else if 65 ≤ c.toNat ∧ c.toNat ≤ 70 then some (c.toNat - 55)
  else if 97 ≤ c.toNat ∧ c.toNat ≤ 102 then some (c.toNat - 87)
  else none

/-- The digits of `\x{…}` up to the closing brace; at least one digit, and the number must be a Unicode scalar value. -/
def readHex : Nat → Bool → Str → Option (Char × Str)
  | _, _, [] => none
  | n, seen, c :: cs =>
    if c = '}' then
      if seen ∧ n.isValidChar then some (Char.ofNat n, cs) else none
    else match hexVal c with
      | some d => readHex (16 * n + d) true cs
      | none => none

/-- The classes `\p{…}` that are known: `Nd`, `N` and `L`. -/
def readProp (s : Str) : Option (CItem × Str) :=
  match s with
  | '{' :: 'N' :: 'd' :: '}' :: r => some (.nd, r)
  | '{' :: 'N' :: '}' :: r => some (.n, r)
  | '{' :: 'L' :: '}' :: r => some (.l, r)
  | _ => none

/-- What an escape denotes: a character or a class. -/
inductive Esc where
  | chr (c : Char)
  | cls (k : Cls)

/-- The escape sequence following a backslash. -/
def readEsc : Str → Option (Esc × Str)
  | [] => none
  | c :: cs =>
    if c = 'x' then
      match cs with
      | '{' :: r => (readHex 0 false r).map fun (d, r') => (.chr d, r')
      | _ => none
    else if c = 'p' then (readProp cs).map fun (i, r) => (.cls ⟨false, [i]⟩, r)
    else if c = 'P' then (readProp cs).map fun (i, r) => (.cls ⟨true, [i]⟩, r)
    else if c = 'd' then some (.cls ⟨false, [.nd]⟩, cs)
    else if c = 'D' then some (.cls ⟨true, [.nd]⟩, cs)
    else if c = 't' then some (.chr '\t', cs)
    else if isMeta c || c = '/' then some (.chr c, cs)
    else none

/-- The characters that are equal to `c` up to simple case folding, `c` first. Only ASCII, the wide Latin letters, `ó` and
the caseless characters that occur in `EXTN_PATTERN` are known. -/
def folded (c : Char) : Option (List Char) :=
  if c = 's' then some ['s', 'S', '\u017F']
  else if c = 'S' then some ['S', 's', '\u017F']
  else if c = 'k' then some ['k', 'K', '\u212A']
  else if c = 'K' then some ['K', 'k', '\u212A']
  else if 97 ≤ c.toNat ∧ c.toNat ≤ 122 then some [c, Char.ofNat (c.toNat - 32)]
  else if 65 ≤ c.toNat ∧ c.toNat ≤ 90 then some [c, Char.ofNat (c.toNat + 32)]
  else if c.toNat < 128 then some [c]
  else if c = '\u00F3' then some [c, '\u00D3']
  else if 0xFF41 ≤ c.toNat ∧ c.toNat ≤ 0xFF5A then some [c, Char.ofNat (c.toNat - 32)]
  else if containsChar ['\u00A0', '\u0301', '\uFF03', '\uFF0E', '\uFF5E'] c then some [c]
  else none

/-- The class items for one literal character. -/
def litItems (ci : Bool) (c : Char) : Option (List CItem) :=
  if ci then (folded c).map (·.map fun d => .range d d) else some [.range c c]

/-- Union of two classes, when it can be written without set operations. -/
def union (a b : Cls) : Option Cls :=
  if a = ⟨false, []⟩ then some b
  else if b = ⟨false, []⟩ then some a
  else if !a.neg && !b.neg then some ⟨false, a.items ++ b.items⟩
  else none

/-- Intersection of two classes, when it can be written without set operations. -/
def inter (a b : Cls) : Option Cls :=
  if a.neg && b.neg then some ⟨true, a.items ++ b.items⟩ else none

/-- One literal character of a class, or the range it begins: `c-d` (the `-` is literal when `]` follows; `--` is an
operator of the crate and rejected). Ranges are rejected in case-insensitive mode. -/
def readRange (ci : Bool) (c : Char) (s : Str) : Option (Cls × Str) :=
  let single := (litItems ci c).map fun is => ((⟨false, is⟩ : Cls), s)
  match s with
  | '-' :: ']' :: _ => single
  | '-' :: d :: r =>
    if ci then none
    else
      let hi : Option (Char × Str) :=
        if d = '\\' then
          match readEsc r with
          | some (.chr e, r') => some (e, r')
          | _ => none
        else if d = '-' || d = '[' then none
        else some (d, r)
      match hi with
      | some (e, r') => if c.toNat ≤ e.toNat then some (⟨false, [.range c e]⟩, r') else none
      | none => none
  | _ => single

mutual
/-- A class, read after its `[`. -/
def readClass (ci : Bool) : Nat → Str → Option (Cls × Str)
  | 0, _ => none
  | f + 1, s =>
    match s with
    | '^' :: r => (readDash ci f r).map fun (k, r') => (⟨!k.neg, k.items⟩, r')
    | _ => readDash ci f s
/-- The rest of a class, where a first `-` is literal. -/
def readDash (ci : Bool) : Nat → Str → Option (Cls × Str)
  | 0, _ => none
  | f + 1, s =>
    match s with
    | '-' :: r => readItems ci f ⟨false, [.range '-' '-']⟩ r
    | ']' :: _ => none
    | _ => readItems ci f ⟨false, []⟩ s
/-- The items of a class up to its `]`; `acc` is the union of those already read. -/
def readItems (ci : Bool) : Nat → Cls → Str → Option (Cls × Str)
  | 0, _, _ => none
  | _ + 1, _, [] => none
  | f + 1, acc, c :: cs =>
    if c = ']' then some (acc, cs)
    else if c = '[' then
      (readClass ci f cs).bind fun (k, r) => (union acc k).bind fun a => readItems ci f a r
    else if c = '&' && cs.head? = some '&' then
      (readItems ci f ⟨false, []⟩ (cs.drop 1)).bind fun (k, r) => (inter acc k).map fun a => (a, r)
    else if c = '-' && cs.head? != some ']' then none
    else if c = '~' && cs.head? = some '~' then none
    else if c = '\\' then
      match readEsc cs with
      | none => none
      | some (.chr d, r) =>
        (readRange ci d r).bind fun (k, r') => (union acc k).bind fun a => readItems ci f a r'
      | some (.cls k, r) => (union acc k).bind fun a => readItems ci f a r
    else (readRange ci c cs).bind fun (k, r) => (union acc k).bind fun a => readItems ci f a r
end

/-- At the beginning of an item: a pending quantifier is finished, a pending `(` opens a capture group. Nothing else may
be pending. -/
def settle (st : PState) : Option PState :=
  match st.mode with
  | .normal => some st
  | .paren => some { mode := .normal, count := st.count + 1, top := ⟨some (st.count + 1), [], []⟩, stack := st.top :: st.stack }
  | .quant a lo hi => some (push st (mkRep true a lo hi))
  | _ => none

/-- Characters with a meaning of their own outside classes. -/
def isSpecial (c : Char) : Bool := containsChar (str% "()|[]{}\\?*+^$.") c

/-- Does the next character begin an item? (Inside `{…}` and after `(?` it does not.) -/
def atItem (st : PState) : Bool :=
  match st.mode with
  | .normal | .paren | .quant .. => true
  | _ => false

/-- Read all characters. -/
def loop (ci : Bool) : Nat → Str → PState → Option PState
  | 0, _, _ => none
  | _ + 1, [], st => some st
  | f + 1, c :: cs, st =>
    if atItem st && c = '\\' then
      (settle st).bind fun st' =>
        match readEsc cs with
        | none => none
        | some (.chr d, r) => (litItems ci d).bind fun is => loop ci f r (push st' (.set is))
        | some (.cls k, r) => loop ci f r (push st' (.cls k))
    else if atItem st && c = '[' then
      (settle st).bind fun st' => (readClass ci f cs).bind fun (k, r) => loop ci f r (push st' (.cls k))
    else if atItem st && c = '.' then
      (settle st).bind fun st' => loop ci f cs (push st' (.cls ⟨true, [.range '\n' '\n']⟩))
    else if atItem st && !isSpecial c then
      (settle st).bind fun st' => (litItems ci c).bind fun is => loop ci f cs (push st' (.set is))
    else (step false st c).bind fun st' => loop ci f cs st'

/-- `RegexBuilder::new(src).case_insensitive(ci).build()`; `Regex::new(src)` when `ci` is false. -/
def compile (ci : Bool) (src : Str) : Option Regex := (loop ci (2 * src.length + 2) src start).bind (finish src)

/-! The set operations mean what they say. -/
section
variable [UnicodeTables]

theorem union_mem {a b k : Cls} (h : union a b = some k) (c : Char) : k.mem c = (a.mem c || b.mem c) := by
  unfold union at h
  split at h
  · cases h; subst_vars; simp [Cls.mem]
  · split at h
    · cases h; subst_vars; simp [Cls.mem]
    · split at h
      · rename_i hn
        cases h
        simp only [Bool.and_eq_true, Bool.not_eq_true'] at hn
        simp [Cls.mem, hn.1, hn.2]
      · cases h

theorem inter_mem {a b k : Cls} (h : inter a b = some k) (c : Char) : k.mem c = (a.mem c && b.mem c) := by
  unfold inter at h
  split at h
  · rename_i hn
    cases h
    simp only [Bool.and_eq_true] at hn
    simp [Cls.mem, hn.1, hn.2]
  · cases h

end
end Phone.FullParser
