import Verif.Model.Machine
import Verif.Model.Compile

/-!
# The machine in single steps

A program of `M` (`Model/Machine`) is a function from worlds to worlds: it does not show which memory was accessed on the way. For
several threads this matters. Programs of `Steps.M` are sequences of single accesses, between which other threads can run.

The library code is written down once and compiled for both machines (`Model/Compile`): `f` is its meaning on `M`, `Steps.f` its
meaning on `Steps.M`, where every name in it that exists in the namespace `Steps` refers to `Steps`.
-/

namespace Verif.Model

namespace Steps

/-- Programs in single steps. (function bodies of optional.h:915-1855) -/
inductive M (V G α : Type) : Type where
  /-- the program ends -/
  | done (r : Res α)
  /-- look at the memory of optional `x` (`none`: it does not exist) -/
  | read (x : Nat) (k : Option (Storage V) → M V G α)
  /-- change the memory of optional `x`, including beginning or end of its existence -/
  | write (x : Nat) (c : Option (Storage V)) (k : M V G α)
  /-- get an id for a new object -/
  | fresh (k : Nat → M V G α)
  /-- record the begin or end of a lifetime -/
  | event (e : Event) (k : M V G α)
  /-- run user code, which changes the user state -/
  | user (f : G → G) (k : G → M V G α)

section
variable {V G α β : Type}

/-- Continue with the result, whatever it is. (statement sequences, e.g. optional.h:1018-1022) -/
def M.andThen (p : M V G α) (f : Res α → M V G β) : M V G β :=
  match p with
  | .done r => f r
  | .read x k => .read x fun c => (k c).andThen f
  | .write x c k => .write x c (k.andThen f)
  | .fresh k => .fresh fun n => (k n).andThen f
  | .event e k => .event e (k.andThen f)
  | .user h k => .user h fun g => (k g).andThen f

/-- A `return` statement. (e.g. optional.h:995) -/
def M.pure (a : α) : M V G α := .done (.ok a)

/-- Sequencing; exceptions and aborts skip the rest. (statement sequences, e.g. optional.h:1018-1022) -/
def M.bind (p : M V G α) (f : α → M V G β) : M V G β :=
  p.andThen fun r =>
    match r with
    | .ok a => f a
    | .throw e => .done (.throw e)
    | .abort a => .done (.abort a)

/-- `do` notation for function bodies. (optional.h:915-1855) -/
instance : Monad (M V G) where
  pure := M.pure
  bind := M.bind

/-- Like `Model.throwE`. (optional.h:1598-1628) -/
def throwE (e : Exn) : M V G α := .done (.throw e)
/-- Like `Model.abortM`. (e.g. optional.h:958, 1018) -/
def abortM (a : Abort) : M V G α := .done (.abort a)
/-- Like `Model.ubM`. (e.g. optional.h:1574-1577 without value) -/
def ubM (k : UB) : M V G α := .done (.abort (.ub k))

/-- Like `Model.onThrow`. (optional.h:1024-1041) -/
def onThrow (m : M V G α) (h : M V G Unit) : M V G α :=
  m.andThen fun r =>
    match r with
    | .throw e => h.andThen fun r' =>
      match r' with
      | .ok _ => .done (.throw e)
      | .throw _ => .done (.abort .terminate)
      | .abort a => .done (.abort a)
    | r => .done r

/-- Like `Model.noexceptIf`. (e.g. optional.h:1044) -/
def noexceptIf (b : Bool) (m : M V G α) : M V G α :=
  m.andThen fun r =>
    match r with
    | .throw e => if b then .done (.abort .terminate) else .done (.throw e)
    | r => .done r

/-- Like `Model.assertM`. (e.g. optional.h:958) -/
def assertM (ndebug : Bool) (c : M V G Bool) : M V G Unit :=
  if ndebug then M.pure ()
  else M.bind c fun b => if b then M.pure () else abortM .assertFail

/-- Like `Model.liftE`. (e.g. optional.h:1062) -/
def liftE (r : Except UB α) : M V G α :=
  match r with
  | .ok a => M.pure a
  | .error k => ubM k

/-- Like `Model.userCall`. Simplification: user code runs in one step, after the payloads that it gets by reference were read and
before they are written; `C61` shows that no other thread could interfere in between. (e.g. optional.h:1062, 1121) -/
def userCall (f : G → Except Exn α × G) : M V G α :=
  .user (fun g => (f g).2) fun g =>
    match (f g).1 with
    | .ok a => .done (.ok a)
    | .error e => .done (.throw e)

/-- Like `Model.userPure`. (optional.h:1018-1022) -/
def userPure (f : G → α × G) : M V G α := .user (fun g => (f g).2) fun g => .done (.ok (f g).1)

/-- Like `Model.emit`. (for the lifetimes in optional.h:1018-1115) -/
def emit (e : Event) : M V G Unit := .event e (.done (.ok ()))

/-- Like `Model.readStorage`. (`mStorage`, optional.h:1147) -/
def readStorage (x : Nat) : M V G (Storage V) :=
  .read x fun c =>
    match c with
    | some s => .done (.ok s)
    | none => .done (.abort (.ub .noOptional))

/-- Like `Model.writeStorage`. (`mStorage`, optional.h:1147) -/
def writeStorage (x : Nat) (s : Storage V) : M V G Unit := .write x (some s) (.done (.ok ()))

/-- Like `Model.freshId`. (optional.h:1062-1068, 1096-1102) -/
def freshId : M V G Nat := .fresh fun n => .done (.ok n)

/-- Like `Model.allocate`. (optional.h:955-975) -/
def allocate (x : Nat) : M V G Unit :=
  .read x fun c =>
    match c with
    | none => .write x (some .raw) (.done (.ok ()))
    | some _ => .done (.abort (.ub .optionalExists))

/-- Like `Model.release`. (optional.h:978-983) -/
def release (x : Nat) : M V G Unit :=
  .read x fun c =>
    match c with
    | none => .done (.abort (.ub .noOptional))
    | some s =>
      .write x none
        (match s.payload, s.flag with
        | some p, some f => .event (.payloadLeak p.id) (.event (.flagAbandon f.id) (.done (.ok ())))
        | some p, none => .event (.payloadLeak p.id) (.done (.ok ()))
        | none, some f => .event (.flagAbandon f.id) (.done (.ok ()))
        | none, none => .done (.ok ()))

/-- One step in world `w`: what is left to do, and the new world. (of the functions of optional.h:915-1855) -/
def M.step (p : M V G α) (w : World V G) : M V G α × World V G :=
  match p with
  | .done r => (.done r, w)
  | .read x k => (k (w.mem x), w)
  | .write x c k => (k, { w with mem := fun z => if z = x then c else w.mem z })
  | .fresh k => (k w.nextObj, { w with nextObj := w.nextObj + 1 })
  | .event e k => (k, { w with log := w.log ++ [e] })
  | .user f k => (k w.user, { w with user := f w.user })

/-- The program without interruption. (of the functions of optional.h:915-1855) -/
def M.exec (p : M V G α) (w : World V G) : Res α × World V G :=
  match p with
  | .done r => (r, w)
  | .read x k => (k (w.mem x)).exec w
  | .write x c k => k.exec { w with mem := fun z => if z = x then c else w.mem z }
  | .fresh k => (k w.nextObj).exec { w with nextObj := w.nextObj + 1 }
  | .event e k => k.exec { w with log := w.log ++ [e] }
  | .user f k => (k w.user).exec { w with user := f w.user }

/-- The optional whose memory the next step reads. (accesses to `mStorage`, optional.h:1147) -/
def M.reads : M V G α → Option Nat
  | .read x _ => some x
  | _ => none

/-- The optional whose memory the next step changes. (accesses to `mStorage`, optional.h:1147) -/
def M.writes : M V G α → Option Nat
  | .write x _ _ => some x
  | _ => none

end
end Steps
end Verif.Model
