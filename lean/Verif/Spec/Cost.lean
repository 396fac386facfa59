import Verif.Spec.Threads

/-!
# How long a call may take

One step is one access to the memory of one optional, one call of user code, or one object that comes into existence or ends
(`Model/Steps`). The numbers are upper bounds that are independent of the values, of the contents of the memory and of the types.
-/

namespace Verif
open Verif.Model
variable {V G α : Type}

/-- Numbers of steps, in total and of those that run user code. -/
structure Budget where
  steps : Nat
  user : Nat

/-- User code: the operations of the payload, and the functions and arguments that are passed. -/
def Op.budget : Op V G → Budget
  | .ctorDefault _ => ⟨7, 0⟩
  | .ctorInPlace _ _ => ⟨29, 2⟩
  | .ctorCopy _ _ => ⟨38, 3⟩
  | .ctorMove _ _ => ⟨38, 3⟩
  | .dtor _ => ⟨9, 1⟩
  | .reset _ => ⟨10, 1⟩
  | .assignNullopt _ => ⟨10, 1⟩
  | .assignVal _ _ => ⟨21, 2⟩
  | .assignScalar _ _ _ => ⟨71, 6⟩
  | .assignCopy _ _ => ⟨24, 2⟩
  | .assignMove _ _ => ⟨24, 2⟩
  | .emplace _ _ => ⟨31, 3⟩
  | .swap _ _ => ⟨31, 3⟩
  | .hasValue _ => ⟨1, 0⟩
  | .deref _ => ⟨2, 0⟩
  | .value _ => ⟨2, 0⟩
  | .valueOr _ _ _ => ⟨5, 1⟩
  | .modify _ _ => ⟨5, 1⟩
  | .andThen _ _ _ => ⟨35, 3⟩
  | .transform _ _ _ _ => ⟨31, 2⟩
  | .orElse _ _ _ _ => ⟨39, 3⟩

def _root_.Verif.Model.LibCall.budget : LibCall V G α → Budget
  | .op o => o.budget
  | .andThenConst _ _ _ => ⟨33, 3⟩
  | .transformConst _ _ _ _ => ⟨31, 2⟩
  | .freeSwap _ _ _ .tiny => ⟨31, 3⟩
  | .freeSwap _ _ _ .generic => ⟨104, 9⟩
  | .rel _ _ _ _ => ⟨7, 1⟩
  | .spaceship _ _ _ => ⟨7, 1⟩
  | .relStd _ _ _ _ => ⟨4, 1⟩
  | .stdRel _ _ _ _ => ⟨4, 1⟩
  | .spaceshipStd _ _ _ => ⟨4, 1⟩
  | .relNullopt _ _ => ⟨1, 0⟩
  | .nulloptRel _ _ => ⟨1, 0⟩
  | .spaceshipNullopt _ => ⟨1, 0⟩
  | .relValue _ _ _ _ => ⟨4, 1⟩
  | .valueRel _ _ _ _ => ⟨4, 1⟩
  | .spaceshipValue _ _ _ => ⟨4, 1⟩
  | .hash _ _ => ⟨4, 1⟩

theorem _root_.Verif.Model.LibCall.budget_le (c : LibCall V G α) : c.budget.steps ≤ 104 ∧ c.budget.user ≤ 9 := by
  cases c with
  | op o => cases o <;> simp [LibCall.budget, Op.budget]
  | freeSwap x y t f => cases f <;> simp [LibCall.budget]
  | _ => simp [LibCall.budget]

/-- What is left of a program after steps in these worlds: between the steps, others may change everything. -/
def _root_.Verif.Model.Steps.M.disturbed (p : Steps.M V G α) : List (World V G) → Steps.M V G α
  | [] => p
  | w :: ws => ((p.step w).1).disturbed ws

/-- The next step runs user code. -/
def _root_.Verif.Model.Steps.M.runsUser : Steps.M V G α → Bool
  | .user _ _ => true
  | _ => false

/-- How many of the steps in these worlds run user code. -/
def _root_.Verif.Model.Steps.M.userRuns (p : Steps.M V G α) : List (World V G) → Nat
  | [] => 0
  | w :: ws => p.runsUser.toNat + ((p.step w).1).userRuns ws

/-- On every path, the program makes at most `n` calls and computations of its own. -/
def _root_.Verif.Model.TProg.AtMost : TProg V G α → Nat → Prop
  | .ret _, _ => True
  | .call _ k, n => 0 < n ∧ ∀ r, (k r).AtMost (n - 1)
  | .own _ k, n => 0 < n ∧ ∀ b, (k b).AtMost (n - 1)

end Verif
