import Verif.Model.ConstsText
import Verif.Basic.KernelRfl
/-! # C79: the constant regular expressions are what their source texts say

`Verif/Model/Consts.lean` gives the parser's and the formatter's constant regular expressions as syntax trees. Here every
pattern text of `/repo/src/consts.rs` is read, and the tree is shown to find the same match with the same captures in every
string. The two differ only in how concatenations are nested and in empty parts, so both are brought to a normal form that
has the same matches. -/

namespace Phone

/-- `a` followed by `b`, nested to the right and without empty parts. -/
def Re.followed : Re → Re → Re
  | .eps, b => b
  | .cat x y, b => .cat x (followed y b)
  | a, .eps => a
  | a, b => .cat a b

/-- `a` or else `b`, nested to the right. -/
def Re.orElse : Re → Re → Re
  | .alt x y, b => .alt x (orElse y b)
  | a, b => .alt a b

/-- The same expression with concatenations and alternatives nested to the right and without empty parts. -/
def Re.flat : Re → Re
  | .cat a b => followed a.flat b.flat
  | .alt a b => orElse a.flat b.flat
  | .star g a => .star g a.flat
  | .grp n a => .grp n a.flat
  | a => a

variable [UnicodeTables]

theorem run_followed (a b : Re) (s : St) : run (a.followed b) s = (run a s).flatMap (run b) := by
  induction a generalizing s with
  | eps => simp [Re.followed, run]
  | cat x y _ ihy =>
    have h : run (y.followed b) = fun t => (run y t).flatMap (run b) := funext ihy
    simp [Re.followed, run, h, List.flatMap_assoc]
  | _ => cases b <;> simp [Re.followed, run]

theorem run_orElse (a b : Re) (s : St) : run (a.orElse b) s = run a s ++ run b s := by
  induction a generalizing s with
  | alt x y _ ihy => simp [Re.orElse, run, ihy, List.append_assoc]
  | _ => simp [Re.orElse, run]

/-- The normal form matches what the expression matches. -/
theorem run_flat (a : Re) (s : St) : run a.flat s = run a s := by
  induction a generalizing s with
  | cat a b iha ihb =>
    have hb : run b.flat = run b := funext ihb
    simp [Re.flat, run_followed, run, iha, hb]
  | alt a b iha ihb => simp [Re.flat, run_orElse, run, iha, ihb]
  | star g a ih =>
    have h : run a.flat = run a := funext ih
    simp [Re.flat, run, h]
  | grp n a ih => simp [Re.flat, run, ih]
  | _ => rfl

theorem matchAt_congr {a b : Re} (h : run a = run b) (pre rest : Str) : matchAt a pre rest = matchAt b pre rest := by
  simp [matchAt, h]

theorem searchFrom_congr {a b : Re} (h : run a = run b) (pre rest : Str) :
    searchFrom a pre rest = searchFrom b pre rest := by
  induction rest generalizing pre with
  | nil => exact matchAt_congr h _ _
  | cons c cs ih => simp [searchFrom, matchAt_congr h, ih]

/-- Two expressions with the same normal form find the same match in every string. -/
theorem find_of_flat {r r' : Regex} (h : r.re.flat = r'.re.flat) (s : Str) : r.find s = r'.find s := by
  apply searchFrom_congr
  funext t
  rw [← run_flat r.re, ← run_flat r'.re, h]

namespace Spec

/-- The regular expression `r` is the one with source text `src` (`ci`: case-insensitive): the text compiles, to an
expression that finds the same match with the same captures in every string and has as many capture groups. -/
def CompiledFrom (ci : Bool) (src : Str) (r : Regex) : Prop :=
  ∃ q, FullParser.compile ci src = some q ∧ q.ngroups = r.ngroups ∧ ∀ s, q.find s = r.find s

end Spec

theorem compiled_of {ci : Bool} {src : Str} {r : Regex}
    (h : (FullParser.compile ci src).map (fun q => (q.ngroups, q.re.flat)) = some (r.ngroups, r.re.flat)) :
    Spec.CompiledFrom ci src r := by
  cases hq : FullParser.compile ci src with
  | none => simp [hq] at h
  | some q =>
    simp only [hq, Option.map_some, Option.some.injEq, Prod.mk.injEq] at h
    exact ⟨q, hq, h.1, find_of_flat h.2⟩

open Spec

/-- **C79** (parser). The regular expressions that the parser uses are those of the pattern texts in
`/repo/src/consts.rs`. -/
theorem C79_parser :
    CompiledFrom false ConstsText.defaultIdd Consts.defaultIdd ∧
    CompiledFrom false ConstsText.validStartChar Consts.validStartChar ∧
    CompiledFrom false ConstsText.secondNumberStart Consts.secondNumberStart ∧
    CompiledFrom false ConstsText.unwantedEndChars Consts.unwantedEndChars ∧
    CompiledFrom false ConstsText.validAlphaPhone Consts.validAlphaPhone ∧
    CompiledFrom true ConstsText.extnPattern Consts.extnPattern :=
  ⟨compiled_of (by kernel_rfl), compiled_of (by kernel_rfl), compiled_of (by kernel_rfl), compiled_of (by kernel_rfl),
   compiled_of (by kernel_rfl), compiled_of (by kernel_rfl)⟩

/-- **C79** (formatter). The regular expressions that the formatter uses are those of the pattern texts in
`/repo/src/consts.rs`. -/
theorem C79_formatter :
    CompiledFrom false ConstsText.separatorPattern Consts.separatorPattern ∧
    CompiledFrom false ConstsText.firstGroup Consts.firstGroup :=
  ⟨compiled_of (by kernel_rfl), compiled_of (by kernel_rfl)⟩

omit [UnicodeTables] in
/-- **C79** (no panic). Every pattern text of `/repo/src/consts.rs` compiles, also those the crate never uses: building a
`Lazy` regex never hits its `unwrap`. -/
theorem C79_compile :
    (∀ src ∈ [ConstsText.defaultIdd, ConstsText.uniqueInternationalPrefix, ConstsText.plusCharsPattern,
        ConstsText.separatorPattern, ConstsText.capturingDigit, ConstsText.validStartChar, ConstsText.secondNumberStart,
        ConstsText.unwantedEndChars, ConstsText.validAlphaPhone, ConstsText.nonDigits, ConstsText.firstGroup,
        ConstsText.firstGroupOnlyPrefix],
      (FullParser.compile false src).isSome = true) ∧
    (∀ src ∈ [ConstsText.extnPattern, ConstsText.validPhoneNumber], (FullParser.compile true src).isSome = true) := by
  refine ⟨fun src h => ?_, fun src h => ?_⟩
  · exact List.all_eq_true.mp (by kernel_rfl :
      ([ConstsText.defaultIdd, ConstsText.uniqueInternationalPrefix, ConstsText.plusCharsPattern,
        ConstsText.separatorPattern, ConstsText.capturingDigit, ConstsText.validStartChar, ConstsText.secondNumberStart,
        ConstsText.unwantedEndChars, ConstsText.validAlphaPhone, ConstsText.nonDigits, ConstsText.firstGroup,
        ConstsText.firstGroupOnlyPrefix].all fun src => (FullParser.compile false src).isSome) = true) src h
  · exact List.all_eq_true.mp (by kernel_rfl :
      ([ConstsText.extnPattern, ConstsText.validPhoneNumber].all fun src => (FullParser.compile true src).isSome) = true)
      src h

/-! A text the reader gets right in detail: case-insensitive matching of `s` includes U+017F, intersections of classes are
taken, a trailing `-` is literal; texts that do not compile are rejected. -/
omit [UnicodeTables] in
example : (FullParser.compile true (str% "s")).map (·.re) =
    some (.cls ⟨false, [.range 's' 's', .range 'S' 'S', .range '\u017F' '\u017F']⟩) := by decide +kernel
omit [UnicodeTables] in
example : (FullParser.compile false (str% "[^a-c\\d-]")).map (·.re) =
    some (.cls ⟨true, [.range 'a' 'c', .nd, .range '-' '-']⟩) := by decide +kernel
omit [UnicodeTables] in
example : (FullParser.compile false (str% "[\\P{N}&&[^#]]")).map (·.re) =
    some (.cls ⟨true, [.n, .range '#' '#']⟩) := by decide +kernel
omit [UnicodeTables] in
example : FullParser.compile false (str% "(a") = none ∧ FullParser.compile false (str% "a)") = none ∧
    FullParser.compile false (str% "[b-a]") = none ∧ FullParser.compile false (str% "*") = none := by decide +kernel

end Phone
