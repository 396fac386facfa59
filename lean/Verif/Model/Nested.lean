import Verif.Model.History
import Verif.Model.FreeSwap

/-!
# Optionals as payloads of optionals, and user code that uses optionals

The outer optional only uses the special members, the destructor and `swap` of its payload (optional.h:978-1143, 1179-1364, 1656-1678).
If the payload is a tiny optional, then these are the functions of `Model/Optional.lean`.
-/

namespace Verif.Model
open Verif.Spec (SM SWorld SRes)
variable {V G : Type}

/-- A memory in which only the operands of one operation exist, as optionals 0 and 1. (for the calls of an inner optional's functions,
e.g. optional.h:1062, 1121) -/
def scratch (g : G) (a b : Option (Storage V)) : World V G :=
  ⟨fun z => if z = 0 then a else if z = 1 then b else none, 0, [], g⟩

/-- Optional `x` after an operation. `s` is only a filler: `x` exists. (for the calls of an inner optional's functions, e.g.
optional.h:1062, 1121) -/
def World.at (w : World V G) (x : Nat) (s : Storage V) : Storage V := (w.mem x).getD s

/-- The exception that leaves an operation. After an abort nothing is executed any more; C58 shows that there is none. (of an inner
optional's functions, called e.g. in optional.h:1121) -/
def Res.exn {α : Type} : Res α → Option Exn
  | .throw e => some e
  | _ => none

/-- Result of a constructor call that creates optional `x`. (the inner optional's constructors, optional.h:1441-1499, called in 1062-1068)
-/
def ctorResult (x : Nat) (s : Storage V) (r : Res Unit × World V G) : Except Exn (Storage V) :=
  match r.1.exn with
  | some e => .error e
  | none => .ok (r.2.at x s)

/-- The payload operations of an optional whose payload is a tiny optional of type `T`: copy and move constructor (optional.h:1236-1248,
1179-1194), copy and move assignment (1353-1364, 1293-1308), destructor (978-983), and the function that `swap(a, b)` selects in line 1664
(`k`, see `selectSwap`). The flags are the exception specifications of these functions (1179, 1236, 1293-1294, 1656-1657, [utility.swap]).
The operands live in a memory of their own; the ghost log of inner object lifetimes is not kept (calls of the innermost payload operations
are visible in `G`). -/
def nestedOps (k : SwapFn) (T : Ty V G) : Ops (Storage V) G where
  copyCtor s g := let r := copyCtor (fun _ => T) 1 0 (scratch g (some s) none); (ctorResult 1 s r, r.2.user)
  moveCtor s g := let r := moveCtor (fun _ => T) 1 0 (scratch g (some s) none); (ctorResult 1 s r, r.2.at 0 s, r.2.user)
  copyAssign d s g := let r := copyAssign (fun _ => T) 0 1 (scratch g (some d) (some s)); (r.1.exn, r.2.at 0 d, r.2.user)
  moveAssign d s g := let r := moveAssign (fun _ => T) 0 1 (scratch g (some d) (some s)); (r.1.exn, r.2.at 0 d, r.2.at 1 s, r.2.user)
  selfCopyAssign s g := let r := copyAssign (fun _ => T) 0 0 (scratch g (some s) none); (r.1.exn, r.2.at 0 s, r.2.user)
  selfMoveAssign s g := let r := moveAssign (fun _ => T) 0 0 (scratch g (some s) none); (r.1.exn, r.2.at 0 s, r.2.user)
  swap a b g := let r := freeSwap (fun _ => T) 0 1 2 k (scratch g (some a) (some b)); (r.1.exn, r.2.at 0 a, r.2.at 1 b, r.2.user)
  selfSwap a g := let r := freeSwap (fun _ => T) 0 0 2 k (scratch g (some a) none); (r.1.exn, r.2.at 0 a, r.2.user)
  dtor s g := (dtor (fun _ => T) 0 (scratch g (some s) none)).2.user
  nothrowCopyCtor := false
  nothrowMoveCtor := T.ops.nothrowMoveCtor
  nothrowMoveAssign := T.ops.nothrowMoveAssign && T.ops.nothrowMoveCtor
  nothrowSwap := match k with
    | .tiny => T.ops.nothrowMoveCtor && T.ops.nothrowSwap
    | .generic => T.ops.nothrowMoveCtor && (T.ops.nothrowMoveAssign && T.ops.nothrowMoveCtor)

/-- User code that reaches the inner optional through a reference: `(*o).reset()`, `o->emplace(args)`, … (`op` on optional 0). (through
optional.h:1560-1628) -/
def innerCall (T : Ty V G) (op : Op V G) (s : Storage V) (g : G) : Option Exn × Storage V × G :=
  let r := execOp (fun _ => T) op (scratch g (some s) none)
  (r.1.exn, r.2.at 0 s, r.2.user)

/-- User code that creates an inner optional: `inner(args)` (`op` creates optional 0). (the argument of optional.h:1062-1068) -/
def innerCreate (T : Ty V G) (op : Op V G) (g : G) : Except Exn (Storage V) × G :=
  let r := execOp (fun _ => T) op (scratch g none none)
  (match r.1.exn with
    | some e => .error e
    | none => .ok (r.2.at 0 .raw), r.2.user)

/-- Programs of calls: the next call depends on the results so far; exceptions are visible as results. (calls of optional.h:1391-1855) -/
inductive UserProg (V G α : Type) where
  | ret (r : Except Exn α)
  | call (op : Op V G) (k : Except Exn (Obs V) → UserProg V G α)

/-- A program executed by the library. An abort ends it. (calls of optional.h:1391-1855) -/
def UserProg.exec {α : Type} (Γ : Env V G) : UserProg V G α → World V G → Res α × World V G
  | .ret (.ok a), w => (.ok a, w)
  | .ret (.error e), w => (.throw e, w)
  | .call op k, w =>
    match execOp Γ op w with
    | (.ok o, w') => (k (.ok o)).exec Γ w'
    | (.throw e, w') => (k (.error e)).exec Γ w'
    | (.abort a, w') => (.abort a, w')

end Verif.Model
