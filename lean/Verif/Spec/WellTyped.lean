import Verif.Model.History
import Verif.Spec.Reserved

/-!
# Vocabulary of the theorem statements

Which histories are meaningful C++, and what a caller can observe of an optional.
-/

namespace Verif.Model
open Verif.Spec (SM SWorld SRes)
variable {V G : Type}

/-- An argument whose construction is declared nothrow does not throw. -/
def ArgLawful : Arg V G → Prop
  | .ext nt c => nt = true → ∀ g, ∃ v, (c g).1 = .ok v
  | _ => True

def AArgLawful : AArg V G → Prop
  | .ext _ nt c => nt = true → ∀ g, ∃ v, (c g).1 = .ok v
  | _ => True

alsoAny
/-- Well formed type environments: every variable has a well formed storage configuration and a lawful payload type. -/
structure EnvWF (Γ : Env V G) : Prop where
  cfg : ∀ z, (Γ z).cfg.WF
  ops : ∀ z, (Γ z).ops.Lawful

alsoAny
/-- The call type-checks: copies, moves, swaps and `or_else` are between optionals of the same type, and constructions that
are declared noexcept do not throw. -/
def OpOK (Γ : Env V G) : Op V G → Prop
  | .ctorInPlace _ a => ArgLawful a
  | .ctorCopy x y => Γ x = Γ y
  | .ctorMove x y => Γ x = Γ y
  | .assignVal _ a => AArgLawful a
  | .assignScalar x tmp a => Γ x = Γ tmp ∧ ArgLawful a
  | .assignCopy x y => Γ x = Γ y
  | .assignMove x y => Γ x = Γ y
  | .emplace _ a => ArgLawful a
  | .swap x y => Γ x = Γ y
  | .orElse _ x dst _ => Γ x = Γ dst
  | _ => True

alsoAny
/-- No value in the trace is reserved for the empty state of the variable that takes it. -/
def NoReserved (Γ : Env V G) (tr : List (Nat × V)) : Prop := ∀ p ∈ tr, (Γ p.1).cfg.Storable p.2

/-- Specification outcomes as machine outcomes. -/
def SResToRes {α : Type} : SRes α → Res α
  | .ok a => .ok a
  | .throw e => .throw e
  | .undef => .abort (.ub .illTyped)

/-- The one case in which the library is known to deviate from `std::optional` (finding 1 of DESIGN.md, C17): the callable
of a `transform` throws and the payload of the result is nothrow constructible from the results of the callable. `r` is the outcome of the
call. -/
def StepOK (op : Op V G) (r : SRes (Obs V)) : Prop :=
  match op with
  | .transform nt _ _ _ => nt = true → ∀ e, r ≠ .throw e
  | _ => True

alsoAny
/-- `h` is a legal history from program start with user state `g`: it type-checks, `std::optional` gives it a meaning
(results `rs`, final state `sw`), it never stores a reserved value, and no call is the exceptional case `StepOK`. -/
def Legal (Γ : Env V G) (g : G) (h : List (Op V G)) (rs : List (SRes (Obs V))) (sw : SWorld V G) : Prop :=
  (∀ op ∈ h, OpOK Γ op) ∧ Spec.specRun (fun x => (Γ x).ops) h (.init g) = some (rs, sw) ∧ NoReserved Γ sw.trace ∧
  ∀ p ∈ h.zip rs, StepOK p.1 p.2

alsoAny
/-- The optional `x` does not exist. -/
def Absent (x : Nat) (w : World V G) : Prop := w.mem x = none

alsoAny
/-- The caller sees an empty optional: `has_value()` returns false. -/
def IsEmpty (Γ : Env V G) (x : Nat) (w : World V G) : Prop := hasValue Γ x w = (.ok false, w)

alsoAny
/-- The caller sees `v`: `has_value()` returns true and `*x` is `v`. -/
def Holds (Γ : Env V G) (x : Nat) (v : V) (w : World V G) : Prop :=
  hasValue Γ x w = (.ok true, w) ∧ deref Γ x w = (.ok v, w)

alsoAny
/-- The caller of the library sees, in world `w`, the `std::optional` state `sw`. -/
def Sees (Γ : Env V G) (w : World V G) (sw : SWorld V G) : Prop :=
  w.user = sw.user ∧
  ∀ x, (Absent x w ↔ sw.vars x = none) ∧ (IsEmpty Γ x w ↔ sw.vars x = some none) ∧
    ∀ v, Holds Γ x v w ↔ sw.vars x = some (some v)

end Verif.Model
