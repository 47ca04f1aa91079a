import Verif.Model.Lazy
/-
What programs that use lazily initialised statics should do, said without any shared state.
-/
namespace Phone.Lazy

/-- The result of a computation on its own, in a world where every use of a static computes it anew: `some v` is the value,
`none` a panic. -/
inductive Eval {κ V : Type} (init : κ → Prog κ V) : Prog κ V → Option V → Prop where
  | ret (v) : Eval init (.ret v) (some v)
  | panic : Eval init .panic none
  | force {c v k r} : Eval init (init c) (some v) → Eval init (k v) r → Eval init (.force c k) r
  | forcePanic {c k} : Eval init (init c) none → Eval init (.force c k) none

/-- The computation dereferences the static in some course of events. -/
inductive Uses {κ V : Type} : Prog κ V → κ → Prop where
  | here {c k} : Uses (.force c k) c
  | later {c k v c'} : Uses (k v) c' → Uses (.force c k) c'

/-- No initialiser needs its own static, however indirectly: the statics can be ranked so that every initialiser uses only
statics of lower rank. -/
def Acyclic {κ V : Type} (init : κ → Prog κ V) : Prop :=
  ∃ rank : κ → Nat, ∀ c c', Uses (init c) c' → rank c' < rank c

/-- There are only finitely many of them. -/
def Finite (α : Type) : Prop := ∃ l : List α, ∀ a, a ∈ l

end Phone.Lazy
