import Verif.Spec.History

/-!
# Specification: where values come from

`P x` is the set of values that the user wants to see in variable `x`. User code keeps these sets if it makes values of them from
values of them. Nothing here runs a program: the conditions concern each function of the user separately.
-/

namespace Verif.Spec
variable {V G : Type}

/-- Copying a value of a source with values in `S` to a destination with values in `D`. -/
structure KeepsCopy (o : Ops V G) (D S : V → Prop) : Prop where
  ctor : ∀ v g a, S v → (o.copyCtor v g).1 = .ok a → D a
  assign : ∀ d s g, D d → S s → D (o.copyAssign d s g).2.1
  self : ∀ v g, D v → D (o.selfCopyAssign v g).2.1

/-- Moving; the source afterwards has a value in `S` again. -/
structure KeepsMove (o : Ops V G) (D S : V → Prop) : Prop where
  ctor : ∀ v g a, S v → (o.moveCtor v g).1 = .ok a → D a
  movedFrom : ∀ v g, S v → S (o.moveCtor v g).2.1
  assign : ∀ d s g, D d → S s → D (o.moveAssign d s g).2.1 ∧ S (o.moveAssign d s g).2.2.1
  self : ∀ v g, D v → D (o.selfMoveAssign v g).2.1

/-- Swapping, which moves if only one of the optionals has a value. -/
structure KeepsSwap (o : Ops V G) (D S : V → Prop) : Prop where
  swap : ∀ a b g, D a → S b → D (o.swap a b g).2.1 ∧ S (o.swap a b g).2.2.1
  self : ∀ v g, D v → D (o.selfSwap v g).2.1
  there : KeepsMove o D S
  back : KeepsMove o S D

/-- A constructor or another function of the user without arguments that matter makes values of `D`. -/
def Makes (D : V → Prop) (c : G → Except Exn V × G) : Prop := ∀ g a, (c g).1 = .ok a → D a

/-- Constructor arguments for the payload of `x`, whose type has the operations `o`. -/
def ArgKeeps (P : Nat → V → Prop) (o : Ops V G) (x : Nat) : Arg V G → Prop
  | .ext _ c => Makes (P x) c
  | .copyOf y => KeepsCopy o (P x) (P y)
  | .moveOf y => KeepsMove o (P x) (P y)

/-- Right hand sides of assignments to `x`. -/
def AArgKeeps (P : Nat → V → Prop) (o : Ops V G) (x : Nat) : AArg V G → Prop
  | .ext f _ c => (∀ v g, P x v → P x (f v g).2.1) ∧ Makes (P x) c
  | .copyOf y => KeepsCopy o (P x) (P y)
  | .moveOf y => KeepsMove o (P x) (P y)

/-- All user code that takes part in a call keeps the sets. -/
def OpKeeps (ops : Nat → Ops V G) (P : Nat → V → Prop) : Op V G → Prop
  | .ctorInPlace x a => ArgKeeps P (ops x) x a
  | .ctorCopy x y => KeepsCopy (ops x) (P x) (P y)
  | .ctorMove x y => KeepsMove (ops x) (P x) (P y)
  | .assignVal x a => AArgKeeps P (ops x) x a
  | .assignScalar x tmp a => ArgKeeps P (ops tmp) tmp a ∧ KeepsMove (ops x) (P x) (P tmp)
  | .assignCopy x y => KeepsCopy (ops x) (P x) (P y)
  | .assignMove x y => KeepsMove (ops x) (P x) (P y)
  | .emplace x a => ArgKeeps P (ops x) x a
  | .swap x y => KeepsSwap (ops x) (P x) (P y)
  | .valueOr rv x _ => rv = true → ∀ v g, P x v → P x ((ops x).moveCtor v g).2.1
  | .modify x f => ∀ v g, P x v → P x (f v g).2.1
  | .andThen x dst f => ∀ v g, P x v → P x (f v g).2.1 ∧ ∀ u, (f v g).1 = .ok (some u) → P dst u
  | .transform _ x dst f => ∀ v g, P x v → P x (f v g).2.1 ∧ ∀ u, (f v g).1 = .ok u → P dst u
  | .orElse rv x dst f => (if rv then KeepsMove (ops x) (P dst) (P x) else KeepsCopy (ops x) (P dst) (P x)) ∧ ∀ g u, (f g).1 = .ok (some u) → P dst u
  | _ => True

/-- The user code in a call that is not an operation of the payload type makes values of `D` from values of `D`. -/
def UserKeeps (D : V → Prop) : Op V G → Prop
  | .ctorInPlace _ (.ext _ c) | .assignScalar _ _ (.ext _ c) | .emplace _ (.ext _ c) => Makes D c
  | .assignVal _ (.ext f _ c) => (∀ v g, D v → D (f v g).2.1) ∧ Makes D c
  | .modify _ f => ∀ v g, D v → D (f v g).2.1
  | .andThen _ _ f => ∀ v g, D v → D (f v g).2.1 ∧ ∀ u, (f v g).1 = .ok (some u) → D u
  | .transform _ _ _ f => ∀ v g, D v → D (f v g).2.1 ∧ ∀ u, (f v g).1 = .ok u → D u
  | .orElse _ _ _ f => ∀ g u, (f g).1 = .ok (some u) → D u
  | _ => True

/-- All values in variables, now and at any earlier time, are in the sets. -/
def AllIn (P : Nat → V → Prop) (w : SWorld V G) : Prop :=
  (∀ x v, w.vars x = some (some v) → P x v) ∧ ∀ p ∈ w.trace, P p.1 p.2

end Verif.Spec
