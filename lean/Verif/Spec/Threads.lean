import Verif.Model.Threads
import Verif.Spec.Writes

/-!
# Which optionals a call reads, and when threads may run concurrently

The rule of the standard library ([res.on.data.races]): a function does not modify what it gets by reference to const, and does not
access objects that it does not get at all.
-/

namespace Verif
open Verif.Model
variable {V G : Type}

def Arg.reads : Arg V G → List Nat
  | .copyOf y => [y]
  | _ => []

def AArg.reads : AArg V G → List Nat
  | .copyOf y => [y]
  | _ => []

/-- The optionals that a call gets without the right to modify them. -/
def Op.reads : Op V G → List Nat
  | .ctorInPlace _ a => a.reads
  | .ctorCopy _ y => [y]
  | .assignVal _ a => a.reads
  | .assignScalar _ _ a => a.reads
  | .assignCopy _ y => [y]
  | .emplace _ a => a.reads
  | .hasValue x => [x]
  | .deref x => [x]
  | .value x => [x]
  | .valueOr rv x _ => if rv then [] else [x]
  | .orElse rv x _ _ => if rv then [] else [x]
  | _ => []

/-- The optionals that a call gets without the right to modify them. -/
def _root_.Verif.Model.LibCall.reads {α : Type} : LibCall V G α → List Nat
  | .op o => o.reads
  | .andThenConst x _ _ => [x]
  | .transformConst _ x _ _ => [x]
  | .freeSwap _ _ _ _ => []
  | .rel x y _ _ => [x, y]
  | .spaceship x y _ => [x, y]
  | .relStd x _ _ _ => [x]
  | .stdRel x _ _ _ => [x]
  | .spaceshipStd x _ _ => [x]
  | .relNullopt x _ => [x]
  | .nulloptRel x _ => [x]
  | .spaceshipNullopt x => [x]
  | .relValue x _ _ _ => [x]
  | .valueRel x _ _ _ => [x]
  | .spaceshipValue x _ _ => [x]
  | .hash x _ => [x]

/-- The optionals that a call may modify or whose lifetime it begins or ends. -/
def _root_.Verif.Model.LibCall.writes {α : Type} : LibCall V G α → List Nat
  | .op o => o.writes
  | .andThenConst _ dst _ => [dst]
  | .transformConst _ _ dst _ => [dst]
  | .freeSwap x y tmp _ => [x, y, tmp]
  | _ => []

/-- All calls of a program use optionals in `R` at most for reading, those in `W` for anything, and no others. -/
def _root_.Verif.Model.TProg.Within {α : Type} (R W : Nat → Prop) : TProg V G α → Prop
  | .ret _ => True
  | .call c k => (∀ x ∈ c.reads, R x ∨ W x) ∧ (∀ x ∈ c.writes, W x) ∧ ∀ r, (k r).Within R W
  | .own _ k => ∀ b, (k b).Within R W

/-- No thread modifies what another one uses. -/
def Compatible {T : Type} (R W : T → Nat → Prop) : Prop := ∀ t u, t ≠ u → ∀ x, W t x → ¬R u x ∧ ¬W u x

/-- [intro.races]: two threads are about to access the same optional, one of them for writing. -/
def Race {T α : Type} (S : Threads T V G α) : Prop :=
  ∃ t u x, t ≠ u ∧ (S.prog t).writes = some x ∧ ((S.prog u).reads = some x ∨ (S.prog u).writes = some x)

/-- `q` is what is left of `p` after some steps, while other threads may have changed everything else in any way. -/
inductive Later {α : Type} (p : Steps.M V G α) : Steps.M V G α → Prop where
  | start : Later p p
  | step {q : Steps.M V G α} (h : Later p q) (w : World V G) : Later p (q.step w).1

/-- The thread that executes a history, catching exceptions, and returns the outcomes of the calls. -/
def ofHistory : List (Op V G) → List (Res (Obs V)) → TProg V G (List (Res (Obs V)))
  | [], rs => .ret rs
  | op :: rest, rs => .call (.op op) fun r =>
    ofHistory rest (rs ++ [match r with
      | .ok a => .ok a
      | .error e => .throw e])

/-- The optionals that a history uses. -/
def HistoryUses (h : List (Op V G)) (x : Nat) : Prop := ∃ op ∈ h, x ∈ op.reads ∨ x ∈ op.writes

end Verif
