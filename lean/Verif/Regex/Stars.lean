import Verif.Regex.Lang
/-! # Stars whose body never matches the empty string

The matcher `run` drops iterations of a star that consume nothing. For expressions passing `starsOk` this changes nothing: `run`
agrees with `runFull`, which has no such rule. -/

namespace Phone

/-- May match the empty string. -/
def Re.nullable : Re → Bool
  | .eps | .bos | .eos | .star _ _ => true
  | .cls _ => false
  | .cat a b => a.nullable && b.nullable
  | .alt a b => a.nullable || b.nullable
  | .grp _ a => a.nullable

/-- No star has a body that may match the empty string. -/
def Re.starsOk : Re → Bool
  | .star _ a => !a.nullable && a.starsOk
  | .cat a b | .alt a b => a.starsOk && b.starsOk
  | .grp _ a => a.starsOk
  | _ => true

variable [UnicodeTables]

theorem nullable_of_lang {r : Re} {p : Nat} {w q : Str} (h : Lang r p w q) (hw : w = []) : r.nullable = true := by
  induction h <;> simp_all [Re.nullable]

/-- Iterate a one-step matcher; an iteration may consume nothing. -/
def starRunFull (f : St → List St) (greedy : Bool) : Nat → St → List St
  | 0, s => [s]
  | n + 1, s =>
    let more := (f s).flatMap (starRunFull f greedy n)
    if greedy then more ++ [s] else s :: more

/-- All matches, best first, as a backtracking matcher without special treatment of empty iterations lists them. -/
def runFull : Re → St → List St
  | .eps, s => [s]
  | .cls k, s =>
    match s.rest with
    | [] => []
    | c :: cs => if k.mem c then [{ pos := s.pos + c.utf8Size, rest := cs, caps := s.caps }] else []
  | .cat a b, s => (runFull a s).flatMap (runFull b)
  | .alt a b, s => runFull a s ++ runFull b s
  | .star g a, s => starRunFull (runFull a) g s.rest.length s
  | .grp n a, s =>
    (runFull a s).map fun s' => { s' with caps := ⟨n, s.pos, s.consumed s'⟩ :: s'.caps }
  | .bos, s => if s.pos = 0 then [s] else []
  | .eos, s => if s.rest = [] then [s] else []

omit [UnicodeTables] in
theorem flatMap_congr' {α β : Type} {l : List α} {f g : α → List β} (h : ∀ a ∈ l, f a = g a) : l.flatMap f = l.flatMap g := by
  induction l with
  | nil => rfl
  | cons a l ih => simp only [List.flatMap_cons]; rw [h a (by simp), ih fun a ha => h a (by simp [ha])]

omit [UnicodeTables] in
theorem starRun_eq_full {f : St → List St} {g : Bool} (hf : ∀ s s', s' ∈ f s → s'.rest.length < s.rest.length) (n : Nat) :
    ∀ s, starRun f g n s = starRunFull f g n s := by
  induction n with
  | zero => intro s; rfl
  | succ n ih =>
    intro s
    simp only [starRun, starRunFull]
    have : ((f s).flatMap fun s' => if s'.rest.length < s.rest.length then starRun f g n s' else []) =
        (f s).flatMap (starRunFull f g n) := flatMap_congr' fun s' hs => by rw [if_pos (hf s s' hs), ih]
    rw [this]

/-- For expressions without nullable star bodies the simplification of the matcher has no effect. -/
theorem run_eq_runFull {r : Re} (h : r.starsOk = true) : run r = runFull r := by
  induction r with
  | cat a b iha ihb =>
    simp only [Re.starsOk, Bool.and_eq_true] at h
    funext s; simp only [run, runFull, iha h.1, ihb h.2]
  | alt a b iha ihb =>
    simp only [Re.starsOk, Bool.and_eq_true] at h
    funext s; simp only [run, runFull, iha h.1, ihb h.2]
  | grp n a ih => funext s; simp only [run, runFull, ih h]
  | star g a ih =>
    simp only [Re.starsOk, Bool.and_eq_true, Bool.not_eq_true'] at h
    funext s
    have e : run a = runFull a := ih h.2
    have : ∀ s s', s' ∈ run a s → s'.rest.length < s.rest.length := by
      intro s s' hs
      obtain ⟨w, hst, hl⟩ := run_sound a s s' hs
      have hw : w ≠ [] := by
        intro hw
        have := nullable_of_lang hl hw
        rw [h.1] at this; cases this
      have := List.length_pos_iff.2 hw
      rw [hst.rest, List.length_append]; omega
    simp only [run, runFull]
    rw [starRun_eq_full this, e]
  | _ => rfl

end Phone
