import Verif.Model.Weak
import Verif.Spec.Handover

/-! # Weak memory: what is required -/

namespace Verif.Spec
open Verif.Model
variable {T V G α : Type} {P : Type u}

/-- What may happen: as for `Permitted`; in addition, only what the section of a thread may modify is published, everything of it
before the section ends; what a thread sees of the optionals that its section uses does not change by itself. -/
def WPermitted (Within : (Nat → Prop) → (Nat → Prop) → P → Prop) (S : Weak T V G α) : WTurn T V G P → Prop
  | .turn (.leave t) => ∀ s, S.busy t = some s → ∀ x, s.W x → S.mem x = S.cache t x
  | .turn e => Permitted Within S.toSharing e
  | .publish t x => ∃ s, S.busy t = some s ∧ s.W x
  | .stale t x _ => ∀ s, S.busy t = some s → ¬s.R x ∧ ¬s.W x

/-- Every turn is permitted when it happens. -/
def WDisciplined [DecidableEq T] (Within : (Nat → Prop) → (Nat → Prop) → P → Prop) (code : P → Steps.M V G α) :
    Weak T V G α → List (WTurn T V G P) → Prop
  | _, [] => True
  | S, e :: es => WPermitted Within S e ∧ WDisciplined Within code (S.turn code e) es

/-- The turns without those that only concern the memory. -/
def visible : List (WTurn T V G P) → List (Turn T G P)
  | [] => []
  | .turn e :: es => e :: visible es
  | .publish _ _ :: es => visible es
  | .stale _ _ _ :: es => visible es

end Verif.Spec
