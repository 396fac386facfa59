import Verif.Model.Machine
import Verif.Spec.Manipulator

/-!
# The machine with arbitrary flag manipulators

`Model/Flag` describes the manipulators of the library and one simple form of user supplied manipulators. Here manipulators are
unknown code: `init_empty_flag` and `invalidate_empty_flag` are only recorded in the list of calls, and the answers of `is_empty` are
an arbitrary function of everything that happened before (`Spec.Manipulator.IsEmpty`). This covers manipulators that look at the
memory in any way, have global state, or keep book in tables. Simplification: manipulators do not throw (they must be noexcept,
README:423, optional.h:939-953) and do not change the state `G` of the user program; user code sees payloads only.

The library code itself is compiled for this machine from the same text as for `Model.M`, see `Model/Compile`.
-/

namespace Verif.Model.Any
open Verif.Spec.Manipulator (Act Call Phase)

/-- What a manipulator brings along, and whether `NDEBUG` is defined. (optional.h:915-921; `NDEBUG` switches the asserts, e.g. 958) -/
structure Config (V G : Type) where
  test : Spec.Manipulator.IsEmpty V G
  ndebug : Bool

/-- A type of the library with its payload operations. (optional.h:915-921) -/
structure Ty (V G : Type) where
  cfg : Config V G
  ops : Ops V G

/-- The types of the optionals of a program. (optional.h:1390-1391) -/
abbrev Env (V G : Type) := Nat → Ty V G

/-- `mem` is what is in the memory of every optional, `calls` everything that was done to it (most recent first). (the stored object,
optional.h:516-544) -/
structure World (V G : Type) where
  mem : Nat → Option (Phase V)
  calls : List (Call V)
  user : G

/-- Program start: no optionals exist. (no code of the library runs before, cf. the first constructor, optional.h:955) -/
def World.init {V G : Type} (g : G) : World V G := ⟨fun _ => none, [], g⟩

/-- Programs of the machine. (function bodies of optional.h:915-1855) -/
def M (V G α : Type) : Type := World V G → Res α × World V G

section
variable {V G α β : Type}

/-- A `return` statement. (e.g. optional.h:995) -/
def M.pure (a : α) : M V G α := fun w => (.ok a, w)

/-- Like `Model.M.bind`. (statement sequences, e.g. optional.h:1018-1022) -/
def M.bind (m : M V G α) (f : α → M V G β) : M V G β := fun w =>
  match m w with
  | (.ok a, w') => f a w'
  | (.throw e, w') => (.throw e, w')
  | (.abort a, w') => (.abort a, w')

/-- `do` notation for function bodies. (optional.h:915-1855) -/
instance : Monad (M V G) where
  pure := M.pure
  bind := M.bind

/-- Like `Model.throwE`. (optional.h:1598-1628) -/
def throwE (e : Exn) : M V G α := fun w => (.throw e, w)
/-- Like `Model.abortM`. (the asserts and exception specifications, e.g. optional.h:958, 1018) -/
def abortM (a : Abort) : M V G α := fun w => (.abort a, w)
/-- Like `Model.ubM`. (e.g. optional.h:1574-1577 without value) -/
def ubM (k : UB) : M V G α := fun w => (.abort (.ub k), w)

/-- Like `Model.onThrow`. (the destructor that runs during unwinding, optional.h:1024-1041) -/
def onThrow (m : M V G α) (h : M V G Unit) : M V G α := fun w =>
  match m w with
  | (.throw e, w') =>
    match h w' with
    | (.ok _, w'') => (.throw e, w'')
    | (.throw _, w'') => (.abort .terminate, w'')
    | (.abort a, w'') => (.abort a, w'')
  | r => r

/-- Like `Model.noexceptIf`. (e.g. optional.h:1044) -/
def noexceptIf (b : Bool) (m : M V G α) : M V G α := fun w =>
  match m w with
  | (.throw e, w') => if b then (.abort .terminate, w') else (.throw e, w')
  | r => r

/-- Like `Model.assertM`. (e.g. optional.h:958) -/
def assertM (ndebug : Bool) (c : M V G Bool) : M V G Unit :=
  if ndebug then M.pure ()
  else M.bind c fun b => if b then M.pure () else abortM .assertFail

/-- Like `Model.liftE`. (e.g. optional.h:1062) -/
def liftE (r : Except UB α) : M V G α :=
  match r with
  | .ok a => M.pure a
  | .error k => ubM k

/-- Like `Model.userCall`. (the payload's functions, e.g. optional.h:1062, 1121) -/
def userCall (f : G → Except Exn α × G) : M V G α := fun w =>
  match f w.user with
  | (.ok a, g) => (.ok a, { w with user := g })
  | (.error e, g) => (.throw e, { w with user := g })

/-- Like `Model.userPure`. (the payload's destructor, optional.h:1018-1022) -/
def userPure (f : G → α × G) : M V G α := fun w =>
  let (a, g) := f w.user
  (.ok a, { w with user := g })

/-- The given action is performed on optional `x`, in whose memory there is `p` afterwards. (the calls in optional.h:955-1148) -/
def act (x : Nat) (a : Act V) (p : Option (Phase V)) : M V G Unit := fun w =>
  (.ok (), { w with mem := fun z => if z = x then p else w.mem z, calls := (x, a) :: w.calls })

/-- What `is_empty` is called with, together with everything that its answer can depend on. (optional.h:993-996) -/
structure Snapshot (V G : Type) where
  calls : List (Call V)
  addr : Nat
  user : G

/-- The reference that `GetIsEmptyFlag()` gives to `is_empty` (optional.h:993-996). There must be something in the memory. -/
def readStorage (x : Nat) : M V G (Snapshot V G) := fun w =>
  match w.mem x with
  | none => (.abort (.ub .noOptional), w)
  | some .raw => (.abort (.ub .noObject), w)
  | some .prepared => (.abort (.ub .noObject), w)
  | some _ => (.ok ⟨w.calls, x, w.user⟩, w)

/-- `FlagManipulator::is_empty`. (the call in optional.h:995) -/
def Config.isEmpty (c : Config V G) (s : Snapshot V G) : Except UB Bool := .ok (c.test s.calls s.addr s.user)

/-- Like `Model.allocate`. (a complete object before its constructor, optional.h:955-975) -/
def allocate (x : Nat) : M V G Unit := fun w =>
  match w.mem x with
  | none => act x .create (some .raw) w
  | some _ => (.abort (.ub .optionalExists), w)

/-- Like `Model.release`, but it is an error if there is still a payload, or the flag was invalidated in vain. (after the destructor,
optional.h:978-983) -/
def release (x : Nat) : M V G Unit := fun w =>
  match w.mem x with
  | none => (.abort (.ub .noOptional), w)
  | some (.engaged _) => (.abort (.ub .noObject), w)
  | some .prepared => (.abort (.ub .noObject), w)
  | some _ => act x .release none w

/-- `FlagManipulator::init_empty_flag(GetIsEmptyFlag())`. It is an error if the memory is not raw. (the calls in optional.h:957, 965, 973,
1034, 1140) -/
def initEmptyFlag (_ : Config V G) (x : Nat) : M V G Unit := fun w =>
  match w.mem x with
  | none => (.abort (.ub .noOptional), w)
  | some .raw => act x .init (some .empty) w
  | some .prepared => act x .init (some .empty) w
  | some _ => (.abort (.ub .overLive), w)

/-- `FlagManipulator::invalidate_empty_flag(GetIsEmptyFlag())`. It is an error if the optional is not empty. (the calls in
optional.h:1053, 1088) -/
def invalidateEmptyFlag (_ : Config V G) (_ : V → G → G) (x : Nat) : M V G Unit := fun w =>
  match w.mem x with
  | none => (.abort (.ub .noOptional), w)
  | some .empty => act x .invalidate (some .prepared) w
  | some _ => (.abort (.ub .noObject), w)

/-- Like `Model.newPayload`. It is an error if `invalidate_empty_flag` was not called before. (optional.h:1062-1063, 1067-1068, 1096-1097,
1101-1102) -/
def newPayload (_ : Config V G) (x : Nat) (v : V) : M V G Unit := fun w =>
  match w.mem x with
  | none => (.abort (.ub .noOptional), w)
  | some .prepared => act x (.construct v) (some (.engaged v)) w
  | some _ => (.abort (.ub .overLive), w)

/-- Like `Model.destroyPayload`. (optional.h:1018-1022) -/
def destroyPayload (_ : Config V G) (dtor : V → G → G) (x : Nat) : M V G Unit := fun w =>
  match w.mem x with
  | none => (.abort (.ub .noOptional), w)
  | some (.engaged v) => M.bind (userPure fun g => ((), dtor v g)) (fun _ => act x .destroy (some .raw)) w
  | some _ => (.abort (.ub .noObject), w)

/-- Like `Model.getPayload`. (optional.h:1008-1016) -/
def getPayload (x : Nat) : M V G V := fun w =>
  match w.mem x with
  | none => (.abort (.ub .noOptional), w)
  | some (.engaged v) => (.ok v, w)
  | some _ => (.abort (.ub .noObject), w)

/-- Like `Model.setPayload`. (the payload's assignment, e.g. optional.h:1121) -/
def setPayload (_ : Config V G) (x : Nat) (v : V) : M V G Unit := fun w =>
  match w.mem x with
  | none => (.abort (.ub .noOptional), w)
  | some (.engaged _) => act x (.change v) (some (.engaged v)) w
  | some _ => (.abort (.ub .noObject), w)

end
end Verif.Model.Any
