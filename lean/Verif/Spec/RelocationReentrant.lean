import Verif.Spec.Relocation
import Verif.Model.Reentrant

/-! Programs whose user code calls the library, between which the bytes of optionals are copied to other places. -/

namespace Verif.Spec
open Verif.Model
open Verif.Props (extent)

section
variable {V G : Type}

/-- A program, or `n` bytes from the beginning of optional `x` are copied to address `a`, and `x` is used there from now on. -/
inductive Ride (V G : Type) where
  | program (p : Prog V G (Obs V))
  | relocate (x a n : Nat)

/-- The outcomes of the programs, where the optionals are at the end, and the memory. Nothing happens after undefined behaviour or the end of
the program. -/
def ride (Γ : Env V G) : List (Ride V G) → Placement → FlatWorld V G → List (Res (Obs V)) × Placement × FlatWorld V G
  | [], pos, f => ([], pos, f)
  | .program p :: l, pos, f =>
    match (Steps.runProg Γ p).flat Γ pos (ShareByte Γ pos) f with
    | (.abort k, f') => ([.abort k], pos, f')
    | (r, f') => (r :: (ride Γ l pos f').1, (ride Γ l pos f').2)
  | .relocate x a n :: l, pos, f => ride Γ l (moved pos x a) (memmove f a (pos x) n)

/-- The same programs without relocations, with separate memories. -/
def ridePrograms (Γ : Env V G) : List (Ride V G) → World V G → List (Res (Obs V)) × World V G
  | [], w => ([], w)
  | .program p :: l, w =>
    match runProg Γ p w with
    | (.abort k, w') => ([.abort k], w')
    | (r, w') => (r :: (ridePrograms Γ l w').1, (ridePrograms Γ l w').2)
  | .relocate .. :: l, w => ridePrograms Γ l w

/-- There is always room, in terms of the same programs with separate memories: the optionals that a program, or user code in it, creates or
changes have no byte in common with each other and with the others; at least the bytes of the optional are copied, to a place where no
other optional is. -/
def RideRoom (Γ : Env V G) : List (Ride V G) → Placement → World V G → Prop
  | [], _, _ => True
  | .program p :: l, pos, w =>
    (∃ R W : Nat → Prop, p.Within R W ∧ ∀ x y, W x → (W y ∨ (w.mem y).isSome) → x ≠ y → ¬ ShareByte Γ pos x y) ∧
      RideRoom Γ l pos (runProg Γ p w).2
  | .relocate x a n :: l, pos, w =>
    extent (Γ x).cfg ≤ n ∧ (∀ y, y ≠ x → (w.mem y).isSome → ∀ b, a ≤ b ∧ b < a + n → ¬ OwnByte Γ pos y b) ∧ RideRoom Γ l (moved pos x a) w

end
end Verif.Spec
