import Verif.Spec.Base

/-!
# The abstract machine

Memory, object lifetimes and control flow on which the library code is executed.
-/

namespace Verif.Model

/-- A byte of memory. (the storage in optional.h:516-544) -/
abbrev Byte := BitVec 8

/-- Kinds of undefined behaviour that the model distinguishes. (of the accesses in optional.h:516-1148) -/
inductive UB where
  /-- the optional object itself does not exist (never constructed, or already destroyed) -/
  | noOptional
  /-- an optional is constructed on top of an existing one -/
  | optionalExists
  /-- access to, or destruction of, a payload/flag object that is not alive -/
  | noObject
  /-- placement new / memcpy of an object on top of a live one -/
  | overLive
  /-- a byte with indeterminate value is read -/
  | indeterminate
  /-- a `bool` whose byte is neither 0 nor 1, or a raw memcpy'd flag, is read as a value -/
  | trapValue
  /-- access outside of the storage of the optional -/
  | outOfBounds
  /-- a member of a live payload is destroyed on its own -/
  | memberDestroyed
  /-- decomposition and manipulator do not fit together (such C++ would not compile) -/
  | illTyped
deriving DecidableEq, Repr

/-- Ways in which a program stops. (`assert`, e.g. optional.h:958; `noexcept`, e.g. 1018) -/
inductive Abort where
  | assertFail
  | terminate
  | ub (k : UB)
deriving DecidableEq, Repr

/-- The outcome of a function. (optional.h:915-1855) -/
inductive Res (α : Type) where
  | ok (a : α)
  | throw (e : Exn)
  | abort (a : Abort)
deriving DecidableEq, Repr

/-- A live payload object (`GetPayload()`, optional.h:1008). `id` identifies the object, not its address. -/
structure PObj (V : Type) where
  id : Nat
  val : V

/-- A live flag object that is not part of a live payload: created by `init_empty_flag` in place of the payload.
`val = none`: the object was created by `memcpy` of a bit pattern (optional.h:739-749). -/
structure FObj (V : Type) where
  id : Nat
  val : Option V

/-- `mStorage` of an optional (optional.h:1147), i.e. `SeparateFlagStorage` (516-528) or `InplaceStorage` (532-544).
`bytes` is the memory (`none` = indeterminate value); in the separate case byte number `sizeof(payload)` is
`isEmptyFlag`. Simplification: the separate bool directly follows the payload bytes; padding after it is not
represented. -/
structure Storage (V : Type) where
  bytes : Nat → Option Byte
  payload : Option (PObj V)
  flag : Option (FObj V)

/-- Memory before anything was written: `SeparateFlagStorage() { }` / `InplaceStorage() { }`, optional.h:526, 542. -/
def Storage.raw {V : Type} : Storage V := ⟨fun _ => none, none, none⟩

/-- Ghost events for counting object lifetimes. (the calls of the payload's constructors and destructor, optional.h:1020, 1062-1068,
1096-1102) -/
inductive Event where
  | payloadCtor (id : Nat)
  | payloadDtor (id : Nat)
  /-- storage of an optional was released while a payload was alive in it -/
  | payloadLeak (id : Nat)
  /-- a flag object was created by `init_empty_flag` -/
  | flagInit (id : Nat)
  /-- a flag object was destroyed by `invalidate_empty_flag` -/
  | flagInval (id : Nat)
  /-- storage of an optional was released while a flag object was alive in it -/
  | flagAbandon (id : Nat)
deriving DecidableEq, Repr

/-- The state of a program. (the stored objects are those of optional.h:516-544) -/
structure World (V G : Type) where
  mem : Nat → Option (Storage V)
  nextObj : Nat
  log : List Event
  user : G

/-- Program start: no optionals exist. (no code of the library runs before, cf. the first constructor, optional.h:955) -/
def World.init {V G : Type} (g : G) : World V G := ⟨fun _ => none, 0, [], g⟩

/-- Programs of the machine. (function bodies of optional.h:915-1855) -/
def M (V G α : Type) : Type := World V G → Res α × World V G

section monad
variable {V G α β : Type}

/-- A `return` statement. (e.g. optional.h:995) -/
def M.pure (a : α) : M V G α := fun w => (.ok a, w)

/-- Sequencing; exceptions and aborts skip the rest. (statement sequences, e.g. optional.h:1018-1022) -/
def M.bind (m : M V G α) (f : α → M V G β) : M V G β := fun w =>
  match m w with
  | (.ok a, w') => f a w'
  | (.throw e, w') => (.throw e, w')
  | (.abort a, w') => (.abort a, w')

/-- `do` notation for function bodies. (optional.h:915-1855) -/
instance : Monad (M V G) where
  pure := M.pure
  bind := M.bind

/-- Throw. (e.g. optional.h:1598-1628) -/
def throwE (e : Exn) : M V G α := fun w => (.throw e, w)
/-- End the program. (the asserts and exception specifications, e.g. optional.h:958, 1018) -/
def abortM (a : Abort) : M V G α := fun w => (.abort a, w)
/-- Undefined behaviour. (e.g. optional.h:1574-1577 without value) -/
def ubM (k : UB) : M V G α := fun w => (.abort (.ub k), w)

/-- Run `m`; if it throws, run the cleanup `h` during stack unwinding and re-throw. (the destructor that runs during unwinding,
optional.h:1024-1041) -/
def onThrow (m : M V G α) (h : M V G Unit) : M V G α := fun w =>
  match m w with
  | (.throw e, w') =>
    match h w' with
    | (.ok _, w'') => (.throw e, w'')
    | (.throw _, w'') => (.abort .terminate, w'')   -- exception during unwinding
    | (.abort a, w'') => (.abort a, w'')
  | r => r

/-- A function with exception specification `noexcept(b)`: an escaping exception calls `std::terminate`. (e.g. optional.h:1044) -/
def noexceptIf (b : Bool) (m : M V G α) : M V G α := fun w =>
  match m w with
  | (.throw e, w') => if b then (.abort .terminate, w') else (.throw e, w')
  | r => r

/-- `assert(c)`: evaluated only if `NDEBUG` is not defined. (e.g. optional.h:958) -/
def assertM (ndebug : Bool) (c : M V G Bool) : M V G Unit :=
  if ndebug then M.pure ()
  else M.bind c fun b => if b then M.pure () else abortM .assertFail

/-- Return or throw. (e.g. optional.h:1062) -/
def liftE (r : Except UB α) : M V G α :=
  match r with
  | .ok a => M.pure a
  | .error k => ubM k

/-- Call user code. (the payload's functions, e.g. optional.h:1062, 1121) -/
def userCall (f : G → Except Exn α × G) : M V G α := fun w =>
  match f w.user with
  | (.ok a, g) => (.ok a, { w with user := g })
  | (.error e, g) => (.throw e, { w with user := g })

/-- Call user code that cannot throw. (the payload's destructor, optional.h:1018-1022) -/
def userPure (f : G → α × G) : M V G α := fun w =>
  let (a, g) := f w.user
  (.ok a, { w with user := g })

/-- Record an event. (for the lifetimes in optional.h:1018-1115) -/
def emit (e : Event) : M V G Unit := fun w => (.ok (), { w with log := w.log ++ [e] })

/-- The storage of the existing optional `x`. (`mStorage`, optional.h:1147) -/
def readStorage (x : Nat) : M V G (Storage V) := fun w =>
  match w.mem x with
  | some s => (.ok s, w)
  | none => (.abort (.ub .noOptional), w)

/-- Overwrite the storage of the existing optional `x`. (`mStorage`, optional.h:1147) -/
def writeStorage (x : Nat) (s : Storage V) : M V G Unit := fun w =>
  (.ok (), { w with mem := fun z => if z = x then some s else w.mem z })

/-- An identity for a new object. (optional.h:1062-1068, 1096-1102) -/
def freshId : M V G Nat := fun w => (.ok w.nextObj, { w with nextObj := w.nextObj + 1 })

/-- Allocate the storage of a new optional `x` (the caller of a constructor provides memory). (a complete object before its constructor,
optional.h:955-975) -/
def allocate (x : Nat) : M V G Unit := fun w =>
  match w.mem x with
  | none => (.ok (), { w with mem := fun z => if z = x then some .raw else w.mem z })
  | some _ => (.abort (.ub .optionalExists), w)

/-- The storage of the optional is gone. `~SeparateFlagStorage() { }` and `~InplaceStorage() { }` (optional.h:527, 543)
do nothing, so objects that are still alive inside are leaked. -/
def release (x : Nat) : M V G Unit := fun w =>
  match w.mem x with
  | none => (.abort (.ub .noOptional), w)
  | some s =>
    (.ok (), { w with
      mem := fun z => if z = x then none else w.mem z,
      log := w.log ++ (match s.payload with | some p => [.payloadLeak p.id] | none => [])
                   ++ (match s.flag with | some f => [.flagAbandon f.id] | none => []) })

end monad

/-- Overwrite bytes `[off, off+n)`. (`memcpy` in optional.h:739-748, objects in 516-544) -/
def fill (b : Nat → Option Byte) (off n : Nat) (f : Nat → Option Byte) : Nat → Option Byte :=
  fun i => if off ≤ i ∧ i < off + n then f (i - off) else b i

/-- `std::memcmp(p, sentinel, n) == 0` (optional.h:732-736). Reading an indeterminate byte is UB. -/
def memcmpEq (b : Nat → Option Byte) (off : Nat) : List Byte → Except UB Bool
  | [] => .ok true
  | c :: cs =>
    match b off with
    | none => .error .indeterminate
    | some x =>
      match memcmpEq b (off + 1) cs with
      | .error k => .error k
      | .ok r => .ok (x == c && r)

/-- Read a `bool` object stored in one byte. (optional.h:682-685) -/
def readBool : Option Byte → Except UB Bool
  | none => .error .indeterminate
  | some b => if b = 0#8 then .ok false else if b = 1#8 then .ok true else .error .trapValue

end Verif.Model
