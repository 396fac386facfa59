import Verif.Spec.FlatMemory
import Verif.Model.History

/-! Programs that use optionals and, between two calls, copy the bytes of one to another place and use it there. -/

namespace Verif.Spec
open Verif.Model
open Verif.Props (extent)

section
variable {V G : Type}

/-- `std::memmove(dst, src, n)`. -/
def memmove (f : FlatWorld V G) (dst src n : Nat) : FlatWorld V G :=
  { f with bytes := fun a => if dst ≤ a ∧ a < dst + n then f.bytes (src + (a - dst)) else f.bytes a }

/-- From now on optional `x` is at address `a`. -/
def moved (pos : Placement) (x a : Nat) : Placement := fun z => if z = x then a else pos z

/-- A call, or `n` bytes from the beginning of optional `x` are copied to address `a`, and `x` is used there from now on. -/
inductive Act (V G : Type) where
  | call (op : Op V G)
  | relocate (x a n : Nat)

/-- The calls. -/
def calls : List (Act V G) → List (Op V G)
  | [] => []
  | .call op :: l => op :: calls l
  | .relocate .. :: l => calls l

/-- The outcomes of the calls, where the optionals are at the end, and the memory. Nothing happens after undefined behaviour or the end of the
program. -/
def perform (Γ : Env V G) : List (Act V G) → Placement → FlatWorld V G → List (Res (Obs V)) × Placement × FlatWorld V G
  | [], pos, f => ([], pos, f)
  | .call op :: l, pos, f =>
    match (Steps.execCall Γ (.op op)).flat Γ pos (ShareByte Γ pos) f with
    | (.abort k, f') => ([.abort k], pos, f')
    | (r, f') => (r :: (perform Γ l pos f').1, (perform Γ l pos f').2)
  | .relocate x a n :: l, pos, f => perform Γ l (moved pos x a) (memmove f a (pos x) n)

/-- There is always room, in terms of the same calls with separate memories: the optionals that a call creates or changes have no byte in
common with the others; at least the bytes of the optional are copied, to a place where no other optional is. -/
def Room (Γ : Env V G) : List (Act V G) → Placement → World V G → Prop
  | [], _, _ => True
  | .call op :: l, pos, w =>
    (∀ x y, x ∈ op.writes → (y ∈ op.writes ∨ (w.mem y).isSome) → x ≠ y → ¬ ShareByte Γ pos x y) ∧ Room Γ l pos (execOp Γ op w).2
  | .relocate x a n :: l, pos, w =>
    extent (Γ x).cfg ≤ n ∧ (∀ y, y ≠ x → (w.mem y).isSome → ∀ b, a ≤ b ∧ b < a + n → ¬ OwnByte Γ pos y b) ∧ Room Γ l (moved pos x a) w

end
end Verif.Spec
