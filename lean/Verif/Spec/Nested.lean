import Verif.Spec.History
import Verif.Spec.WellTyped
import Verif.Model.Nested

/-!
# Specification: `std::optional` as payload of `std::optional`, programs on `std::optional`s
-/

namespace Verif.Spec
variable {V G : Type}

/-- A state in which only the operands of one operation exist, as variables 0 and 1. -/
def scratch (g : G) (a b : Option (Option V)) : SWorld V G :=
  ⟨fun z => if z = 0 then a else if z = 1 then b else none, g, []⟩

def SWorld.at (w : SWorld V G) (x : Nat) (c : Option V) : Option V := (w.vars x).getD c

def SRes.exn {α : Type} : SRes α → Option Exn
  | .throw e => some e
  | _ => none

def ctorResult (x : Nat) (c : Option V) (r : SRes Unit × SWorld V G) : Except Exn (Option V) :=
  match r.1.exn with
  | some e => .error e
  | none => .ok (r.2.at x c)

/-- The payload operations of `std::optional<std::optional<T>>`: the functions of `std::optional<T>`. `std::swap` for optionals calls the
member ([optional.specalg]). The exception specifications ([optional.ctor], [optional.assign], [optional.swap]) are not used by the
specification. -/
def nestedOps (o : Ops V G) : Ops (Option V) G where
  copyCtor c g := let r := ctorCopy o 1 0 (scratch g (some c) none); (ctorResult 1 c r, r.2.user)
  moveCtor c g := let r := ctorMove o 1 0 (scratch g (some c) none); (ctorResult 1 c r, r.2.at 0 c, r.2.user)
  copyAssign d c g := let r := assignCopy o 0 1 (scratch g (some d) (some c)); (r.1.exn, r.2.at 0 d, r.2.user)
  moveAssign d c g := let r := assignMove o 0 1 (scratch g (some d) (some c)); (r.1.exn, r.2.at 0 d, r.2.at 1 c, r.2.user)
  selfCopyAssign c g := let r := assignCopy o 0 0 (scratch g (some c) none); (r.1.exn, r.2.at 0 c, r.2.user)
  selfMoveAssign c g := let r := assignMove o 0 0 (scratch g (some c) none); (r.1.exn, r.2.at 0 c, r.2.user)
  swap a b g := let r := Spec.swap o 0 1 (scratch g (some a) (some b)); (r.1.exn, r.2.at 0 a, r.2.at 1 b, r.2.user)
  selfSwap a g := let r := Spec.swap o 0 0 (scratch g (some a) none); (r.1.exn, r.2.at 0 a, r.2.user)
  dtor c g := (Spec.dtor o 0 (scratch g (some c) none)).2.user
  nothrowCopyCtor := false
  nothrowMoveCtor := o.nothrowMoveCtor
  nothrowMoveAssign := o.nothrowMoveAssign && o.nothrowMoveCtor
  nothrowSwap := o.nothrowMoveCtor && o.nothrowSwap

def innerCall (o : Ops V G) (op : Op V G) (c : Option V) (g : G) : Option Exn × Option V × G :=
  let r := specOp (fun _ => o) op (scratch g (some c) none)
  (r.1.exn, r.2.at 0 c, r.2.user)

def innerCreate (o : Ops V G) (op : Op V G) (g : G) : Except Exn (Option V) × G :=
  let r := specOp (fun _ => o) op (scratch g none none)
  (match r.1.exn with
    | some e => .error e
    | none => .ok (r.2.at 0 none), r.2.user)

/-- All values that the payload operations produce from values with property `P` have property `P` as well. -/
structure _root_.Verif.Ops.Keeps (o : Ops V G) (P : V → Prop) : Prop where
  copyCtor : ∀ v g v', P v → (o.copyCtor v g).1 = .ok v' → P v'
  moveCtor : ∀ v g v', P v → (o.moveCtor v g).1 = .ok v' → P v'
  movedFrom : ∀ v g, P v → P (o.moveCtor v g).2.1
  copyAssign : ∀ d s g, P d → P s → P (o.copyAssign d s g).2.1
  moveAssign : ∀ d s g, P d → P s → P (o.moveAssign d s g).2.1 ∧ P (o.moveAssign d s g).2.2.1
  selfCopyAssign : ∀ v g, P v → P (o.selfCopyAssign v g).2.1
  selfMoveAssign : ∀ v g, P v → P (o.selfMoveAssign v g).2.1
  swap : ∀ a b g, P a → P b → P (o.swap a b g).2.1 ∧ P (o.swap a b g).2.2.1
  selfSwap : ∀ v g, P v → P (o.selfSwap v g).2.1

/-- A program executed with `std::optional`. -/
def _root_.Verif.Model.UserProg.spec {α : Type} (ops : Nat → Ops V G) : Model.UserProg V G α → SWorld V G → SRes α × SWorld V G
  | .ret (.ok a), w => (.ok a, w)
  | .ret (.error e), w => (.throw e, w)
  | .call op k, w =>
    match specOp ops op w with
    | (.ok o, w') => (k (.ok o)).spec ops w'
    | (.throw e, w') => (k (.error e)).spec ops w'
    | (.undef, w') => (.undef, w')

end Verif.Spec
