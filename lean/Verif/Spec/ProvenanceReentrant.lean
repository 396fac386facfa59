import Verif.Spec.Provenance
import Verif.Spec.Reentrant

/-!
# Specification: where values come from, with user code that calls the library

As in `Spec/Provenance.lean`, `P x` is the set of values that the user wants to see in variable `x`. The condition on a program is read
off its text, one piece of user code after the other; nothing is run.
-/

namespace Verif
open Spec
variable {V G : Type}

/-- What a program may rely on when it goes on with the result of a call: a value that is read from `x` is in the set of `x`;
`value_or` returns a converted argument, or a copy of a value in the set. -/
def Spec.ResultIn (ops : Nat → Ops V G) (P : Nat → V → Prop) : Op V G → Except Exn (Obs V) → Prop
  | .deref x, r | .value x, r | .emplace x _, r => ∀ v, r = .ok (.val v) → P x v
  | .valueOr rv x d, r => ∀ v, r = .ok (.val v) → (∃ g, (d g).1 = .ok v) ∨
    ∃ u g, P x u ∧ (if rv then ((ops x).moveCtor u g).1 else ((ops x).copyCtor u g).1) = .ok v
  | _, _ => True

/-- The program returns results with the property `Q`, and all user code that it might run makes values of the sets from values of the sets:
payload constructors return values of the set of the optional that they initialise, destructors and comparison operators can rely on being
given values of the sets. -/
def Prog.Keeps (ops : Nat → Ops V G) (P : Nat → V → Prop) : {α : Type} → Prog V G α → (α → Prop) → Prop
  | _, .ret r, Q => ∀ a, r = .ok a → Q a
  | _, .user _ k, Q => ∀ g, (k g).Keeps ops P Q
  | _, .call op k, Q => OpKeeps ops P op ∧ ∀ r, ResultIn ops P op r → (k r).Keeps ops P Q
  | _, .construct x _ ctor k, Q => ctor.Keeps ops P (P x) ∧ ∀ r, (k r).Keeps ops P Q
  | _, .transfer _ x _ ctor k, Q => ctor.Keeps ops P (P x) ∧ ∀ r, (k r).Keeps ops P Q
  | _, .destroy x dtor k, Q => (∀ v, P x v → (dtor v).Keeps ops P fun _ => True) ∧ ∀ r, (k r).Keeps ops P Q
  | _, .reset x dtor k, Q => (∀ v, P x v → (dtor v).Keeps ops P fun _ => True) ∧ ∀ r, (k r).Keeps ops P Q
  | _, .assign x _ asg ctor k, Q => asg.Keeps ops P (fun _ => True) ∧ ctor.Keeps ops P (P x) ∧ ∀ r, (k r).Keeps ops P Q
  | _, .assignFrom _ x _ asg ctor dtor k, Q =>
    asg.Keeps ops P (fun _ => True) ∧ ctor.Keeps ops P (P x) ∧ (∀ v, P x v → (dtor v).Keeps ops P fun _ => True) ∧ ∀ r, (k r).Keeps ops P Q
  | _, .emplace x _ dtor ctor k, Q =>
    (∀ v, P x v → (dtor v).Keeps ops P fun _ => True) ∧ ctor.Keeps ops P (P x) ∧ ∀ r, (∀ v, r = .ok v → P x v) → (k r).Keeps ops P Q
  | _, .swap x y swp ctor dtor k, Q =>
    swp.Keeps ops P (fun _ => True) ∧ (ctor x).Keeps ops P (P y) ∧ (ctor y).Keeps ops P (P x) ∧
      (∀ v, P x v ∨ P y v → (dtor v).Keeps ops P fun _ => True) ∧ ∀ r, (k r).Keeps ops P Q
  | _, .valueOr _ ctor conv k, Q =>
    ∃ S : V → Prop, ctor.Keeps ops P S ∧ conv.Keeps ops P S ∧ ∀ r, (∀ v, r = .ok v → S v) → (k r).Keeps ops P Q
  | _, .andThen _ dst f ctor k, Q =>
    ∃ T : Nat → Prop, f.Keeps ops P (Returned.To T) ∧ (∀ y, T y → (ctor y).Keeps ops P (P dst)) ∧ ∀ r, (k r).Keeps ops P Q
  | _, .transform _ _ dst f k, Q => f.Keeps ops P (P dst) ∧ ∀ r, (k r).Keeps ops P Q
  | _, .orElse _ x dst f ctor k, Q =>
    ∃ T : Nat → Prop, T x ∧ f.Keeps ops P (Returned.To T) ∧ (∀ y, T y → (ctor y).Keeps ops P (P dst)) ∧ ∀ r, (k r).Keeps ops P Q
  | _, .compare _ x y cmp k, Q => (∀ a b, P x a → P y b → (cmp a b).Keeps ops P fun _ => True) ∧ ∀ r, (k r).Keeps ops P Q
  | _, .inspect _ x f k, Q => (∀ v, P x v → (f v).Keeps ops P fun _ => True) ∧ ∀ r, (k r).Keeps ops P Q

end Verif
