import Verif.Spec.WellTyped

/-!
# Specification: equal programs

What it means that a sequence of calls can be replaced by another one, and how callables are composed. Used to state the laws of the
monadic operations.
-/

namespace Verif.Spec
open Verif.Model
variable {V G α : Type}

/-- A callable that takes the payload by reference to const. -/
def reads (f : V → G → Except Exn α × G) (v : V) (s : G) : Except Exn α × V × G := ((f v s).1, v, (f v s).2)

/-- `f`, then `g` for its value if it has one. -/
def kleisli (f g : V → G → Except Exn (Option V) × G) (v : V) (s : G) : Except Exn (Option V) × G :=
  match f v s with
  | (.ok (some u), s') => g u s'
  | (.ok none, s') => (.ok none, s')
  | (.error e, s') => (.error e, s')

/-- `g(f(v))` -/
def compose (f g : V → G → Except Exn V × G) (v : V) (s : G) : Except Exn V × G :=
  match f v s with
  | (.ok u, s') => g u s'
  | (.error e, s') => (.error e, s')

/-- `f(v)` as an optional with a value. -/
def wrap (f : V → G → Except Exn V × G) (v : V) (s : G) : Except Exn (Option V) × G :=
  match f v s with
  | (.ok u, s') => (.ok (some u), s')
  | (.error e, s') => (.error e, s')

/-- `f()`, or `g()` if that is empty. -/
def orThen (f g : G → Except Exn (Option V) × G) (s : G) : Except Exn (Option V) × G :=
  match f s with
  | (.ok none, s') => g s'
  | r => r

/-- The payload type makes equal values when it copies and moves, without effects, and what remains of a moved value is not reserved. -/
structure Plain (T : Ty V G) : Prop where
  copy : ∀ v s, T.ops.copyCtor v s = (.ok v, s)
  move : ∀ v s, ∃ v', T.ops.moveCtor v s = (.ok v, v', s) ∧ (T.cfg.Storable v → T.cfg.Storable v')

/-- A callable does not throw, if `n`. -/
def NoThrow (n : Bool) (f : V → G → Except Exn α × G) : Prop := n = true → ∀ v s e, (f v s).1 ≠ .error e

/-- The caller cannot tell `z` in `w` from `z` in `w'`. -/
def Alike (Γ : Env V G) (z : Nat) (w w' : World V G) : Prop :=
  (Absent z w ↔ Absent z w') ∧ (IsEmpty Γ z w ↔ IsEmpty Γ z w') ∧ ∀ v, Holds Γ z v w ↔ Holds Γ z v w'

/-- The ends of two executions: nothing went wrong, the same exception or none, the same effects, and the same optionals except for the
temporaries `ts`. -/
def SameExcept (Γ : Env V G) (ts : List Nat) (r r' : Res α × World V G) : Prop :=
  (∀ a, r.1 ≠ .abort a) ∧ r.1 = r'.1 ∧ r.2.user = r'.2.user ∧ ∀ z, z ∉ ts → Alike Γ z r.2 r'.2

/-- Calls one after the other; an exception leaves the block. -/
def block (Γ : Env V G) : List (Op V G) → M V G Unit
  | [] => pure ()
  | op :: rest => do
    let _ ← execOp Γ op
    block Γ rest

end Verif.Spec
