/-! # Outcomes of Rust functions

A Rust function that returns `Result<T, E>` and may panic is modelled by `Outcome E T`. -/

namespace Phone

/-- The places where the modelled code can panic. Each constructor names one kind of site. -/
inductive Panic where
  /-- slicing or draining a string at an index that is out of range or not a character boundary -/
  | slice
  /-- `Option::unwrap` on `None` or `Result::unwrap` on `Err` -/
  | unwrap
  /-- indexing a slice or vector out of bounds -/
  | index
  /-- arithmetic overflow (in builds with overflow checks) -/
  | overflow
  deriving DecidableEq, Repr

/-- Result of running a modelled Rust function. -/
inductive Outcome (ε : Type) (α : Type) where
  | ok (a : α)
  | err (e : ε)
  | panic (p : Panic)
  deriving DecidableEq, Repr

namespace Outcome

/-- The `?` operator / sequencing: errors and panics propagate. -/
def bind {ε α β : Type} : Outcome ε α → (α → Outcome ε β) → Outcome ε β
  | ok a, f => f a
  | err e, _ => err e
  | panic p, _ => panic p

instance {ε : Type} : Monad (Outcome ε) where
  pure := ok
  bind := bind

/-- `Option::unwrap` (`None` panics). -/
def unwrap {ε α : Type} : Option α → Outcome ε α
  | some a => ok a
  | none => panic .unwrap

/-- A slice operation that may be out of range. -/
def slice {ε α : Type} : Option α → Outcome ε α
  | some a => ok a
  | none => panic .slice

/-- `ok_or`. -/
def okOr {ε α : Type} (e : ε) : Option α → Outcome ε α
  | some a => ok a
  | none => err e

/-- The outcome is a panic. -/
def IsPanic {ε α : Type} : Outcome ε α → Prop
  | panic _ => True
  | _ => False

instance {ε α : Type} (o : Outcome ε α) : Decidable o.IsPanic := by
  cases o <;> simp only [IsPanic] <;> infer_instance

/-- The outcome is `Ok`. -/
def IsOk {ε α : Type} : Outcome ε α → Prop
  | ok _ => True
  | _ => False

section Lemmas
variable {ε α β : Type}

@[simp] theorem pure_eq (a : α) : (pure a : Outcome ε α) = ok a := rfl
@[simp] theorem bind_ok (a : α) (f : α → Outcome ε β) : (ok a >>= f) = f a := rfl
@[simp] theorem bind_err (e : ε) (f : α → Outcome ε β) : (err e >>= f) = err e := rfl
@[simp] theorem bind_panic (p : Panic) (f : α → Outcome ε β) : (panic p >>= f) = panic p := rfl
@[simp] theorem unwrap_some (a : α) : (unwrap (some a) : Outcome ε α) = ok a := rfl
@[simp] theorem unwrap_none : (unwrap (none : Option α) : Outcome ε α) = panic .unwrap := rfl
@[simp] theorem slice_some (a : α) : (slice (some a) : Outcome ε α) = ok a := rfl
@[simp] theorem slice_none : (slice (none : Option α) : Outcome ε α) = panic .slice := rfl
@[simp] theorem okOr_some (e : ε) (a : α) : okOr e (some a) = ok a := rfl
@[simp] theorem okOr_none (e : ε) : okOr e (none : Option α) = err e := rfl
@[simp] theorem not_isPanic_ok (a : α) : ¬ (ok a : Outcome ε α).IsPanic := fun h => h
@[simp] theorem not_isPanic_err (e : ε) : ¬ (err e : Outcome ε α).IsPanic := fun h => h
@[simp] theorem isPanic_panic (p : Panic) : (panic p : Outcome ε α).IsPanic := trivial

theorem bind_eq_ok {x : Outcome ε α} {f : α → Outcome ε β} {b : β} :
    (x >>= f) = ok b ↔ ∃ a, x = ok a ∧ f a = ok b := by
  cases x <;> simp

theorem bind_eq_err {x : Outcome ε α} {f : α → Outcome ε β} {e : ε} :
    (x >>= f) = err e ↔ x = err e ∨ ∃ a, x = ok a ∧ f a = err e := by
  cases x <;> simp

theorem unwrap_eq_ok {x : Option α} {a : α} : (unwrap x : Outcome ε α) = ok a ↔ x = some a := by
  cases x <;> simp

theorem slice_eq_ok {x : Option α} {a : α} : (slice x : Outcome ε α) = ok a ↔ x = some a := by
  cases x <;> simp

theorem okOr_eq_ok {e : ε} {x : Option α} {a : α} : okOr e x = ok a ↔ x = some a := by
  cases x <;> simp

theorem not_isPanic_bind {x : Outcome ε α} {f : α → Outcome ε β} (hx : ¬ x.IsPanic)
    (hf : ∀ a, x = ok a → ¬ (f a).IsPanic) : ¬ (x >>= f).IsPanic := by
  cases x with
  | ok a => exact hf a rfl
  | err e => simp
  | panic p => simp at hx

end Lemmas
end Outcome
end Phone
