import Verif.Model.FlatMemory
import Verif.Props.Access

/-! What it means that optionals in one memory are the same as optionals in memories of their own. -/

namespace Verif.Spec
open Verif.Model
open Verif.Props (extent)

section
variable {V G : Type}

/-- Address `a` belongs to optional `x`: it is a byte of the payload or of the separate flag (not of the padding). -/
def OwnByte (Γ : Env V G) (pos : Placement) (x a : Nat) : Prop := pos x ≤ a ∧ a < pos x + extent (Γ x).cfg

/-- `x` and `y` have a byte in common, and therefore must not exist at the same time. -/
def ShareByte (Γ : Env V G) (pos : Placement) (x y : Nat) : Prop := ∃ a, OwnByte Γ pos x a ∧ OwnByte Γ pos y a

/-- The optionals in the one memory `f` have the bytes and objects of those in `w`, and share no byte. -/
structure Agrees (Γ : Env V G) (pos : Placement) (f : FlatWorld V G) (w : World V G) : Prop where
  objs : ∀ x, f.objs x = (w.mem x).map fun s => (s.payload, s.flag)
  bytes : ∀ x s, w.mem x = some s → ∀ j, j < extent (Γ x).cfg → f.bytes (pos x + j) = s.bytes j
  apart : ∀ x y, x ≠ y → (w.mem x).isSome → (w.mem y).isSome → ¬ ShareByte Γ pos x y
  nextObj : f.nextObj = w.nextObj
  log : f.log = w.log
  user : f.user = w.user

end
end Verif.Spec
