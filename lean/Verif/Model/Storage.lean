import Verif.Model.Flag
import Verif.Model.Any

/-!
# `StorageBase` (optional.h:916-1148)

`Γ` assigns every optional variable its type: storage configuration and payload operations.
-/

namespace Verif.Model

/-- A type of the library with its payload operations. (optional.h:915-921) -/
structure Ty (V G : Type) where
  cfg : Config V
  ops : Ops V G

/-- The types of the optionals of a program. (optional.h:1390-1391) -/
abbrev Env (V G : Type) := Nat → Ty V G

section
variable {V G : Type} (Γ : Env V G)

thrice
/-- `has_value()`, optional.h:993-996. -/
def hasValue (x : Nat) : M V G Bool := do
  let s ← readStorage x
  let e ← liftE ((Γ x).cfg.isEmpty s)
  pure (!e)

thrice
/-- `assert(has_value())` / `assert(!has_value())`. (optional.h:958, 1052, 1077-1079, 1087, 1111-1113, 1130-1132, 1141) -/
def assertHas (x : Nat) (b : Bool) : M V G Unit :=
  assertM (Γ x).cfg.ndebug (do
    let h ← hasValue Γ x
    pure (h == b))

thrice
/-- Evaluate the constructor arguments and run the payload's constructor, up to the point where the value is known. (optional.h:1063,
1068) -/
def evalArg (o : Ops V G) : Arg V G → M V G V
  | .ext _ c => userCall c
  | .copyOf y => do
    let v ← getPayload y
    userCall (o.copyCtor v)
  | .moveOf y => do
    let v ← getPayload y
    let (r, v') ← userPure (fun g => let (r, v', g') := o.moveCtor v g; ((r, v'), g'))
    setPayload (Γ y).cfg y v'
    match r with
    | .ok a => pure a
    | .error e => throwE e

/-- `std::is_nothrow_constructible_v<PayloadType, ArgsT...>`. (optional.h:1044, 1059) -/
def nothrowArg (o : Ops V G) : Arg V G → Bool
  | .ext nt _ => nt
  | .copyOf _ => o.nothrowCopyCtor
  | .moveOf _ => o.nothrowMoveCtor

thrice
/-- The part common to `ConstructPayload` (optional.h:1043-1080) and `ConstructPayloadFromFunction` (1083-1114): they are
the same code with `nt` the respective `is_nothrow_constructible_v` and `mk` the initialiser of the placement new. -/
def constructWith (x : Nat) (nt : Bool) (mk : M V G V) : M V G Unit :=
  noexceptIf nt (do
    assertHas Γ x false                                             -- 1052 / 1087
    invalidateEmptyFlag (Γ x).cfg (Γ x).ops.dtor x                  -- 1053 / 1088
    if nt then do
      let v ← mk                                                    -- 1062 / 1096
      newPayload (Γ x).cfg x v
    else
      -- InitializeIsEmptyFlagScope, 1024-1040, 1066 / 1100
      onThrow (do
        let v ← mk                                                  -- 1067 / 1101
        newPayload (Γ x).cfg x v)
        (initEmptyFlag (Γ x).cfg x)                                 -- 1034
    assertHas Γ x true)                                             -- 1077 / 1111

thrice
/-- `ConstructPayload(args...)`, optional.h:1043-1080. -/
def constructPayload (x : Nat) (a : Arg V G) : M V G Unit :=
  constructWith Γ x (nothrowArg (Γ x).ops a) (evalArg Γ (Γ x).ops a)

thrice
/-- `ConstructPayloadFromFunction(func, arg)`, optional.h:1083-1114. `call` is `std::invoke(func, arg)` and `nt` is
`is_nothrow_constructible_v<PayloadType, invoke_result_t<FuncT, ArgT>>` (`resultNothrow` for the results of `transform`); the
placement new is initialised directly from the call (guaranteed elision). -/
def constructPayloadFromFunction (x : Nat) (nt : Bool) (call : M V G V) : M V G Unit :=
  constructWith Γ x nt call

thrice
/-- `DestroyPayload()`, optional.h:1018-1021. -/
def destroyPayloadOf (x : Nat) : M V G Unit :=
  destroyPayload (Γ x).cfg (Γ x).ops.dtor x

thrice
/-- `reset()`, optional.h:1136-1143. -/
def reset (x : Nat) : M V G Unit :=
  noexceptIf true (do
    if ← hasValue Γ x then do
      destroyPayloadOf Γ x
      initEmptyFlag (Γ x).cfg x
      assertHas Γ x false
    else pure ())

thrice
/-- Raise the error of an in-place user operation, if any. (the assignment in optional.h:1121) -/
def checkE : Option Exn → M V G Unit
  | none => pure ()
  | some e => throwE e

thrice
/-- `GetPayload() = std::forward<T>(v)` (optional.h:1121). -/
def payloadAssign (x : Nat) : AArg V G → M V G Unit
  | .ext f _ _ => do
    let v ← getPayload x
    let (e, v') ← userPure (fun g => let (e, v', g') := f v g; ((e, v'), g'))
    setPayload (Γ x).cfg x v'
    checkE e
  | .copyOf y => do
    let v ← getPayload x
    let s ← getPayload y
    let (e, v') ← userPure (fun g =>
      let (e, v', g') := if x = y then (Γ x).ops.selfCopyAssign v g else (Γ x).ops.copyAssign v s g
      ((e, v'), g'))
    setPayload (Γ x).cfg x v'
    checkE e
  | .moveOf y => do
    let v ← getPayload x
    let s ← getPayload y
    if x = y then do
      let (e, v') ← userPure (fun g => let (e, v', g') := (Γ x).ops.selfMoveAssign v g; ((e, v'), g'))
      setPayload (Γ x).cfg x v'
      checkE e
    else do
      let (e, v', s') ← userPure (fun g => let (e, v', s', g') := (Γ x).ops.moveAssign v s g; ((e, v', s'), g'))
      setPayload (Γ x).cfg x v'
      setPayload (Γ y).cfg y s'
      checkE e

thrice
/-- `AssignValue(v)`, optional.h:1117-1133. -/
def assignValue (x : Nat) (a : AArg V G) : M V G Unit := do
  if ← hasValue Γ x then
    payloadAssign Γ x a
  else
    constructPayload Γ x a.toArg
  assertHas Γ x true

thrice
/-- `StorageBase()`, optional.h:955-959. -/
def storageDefaultCtor (x : Nat) : M V G Unit :=
  noexceptIf true (do
    allocate x
    initEmptyFlag (Γ x).cfg x
    assertHas Γ x false)

thrice
/-- `StorageBase(std::in_place_t, args...)`, optional.h:961-967. If it throws, the object never came into existence: its
storage is released, `~StorageBase` does not run. -/
def storageInPlaceCtor (x : Nat) (a : Arg V G) : M V G Unit := do
  allocate x
  onThrow (do
    initEmptyFlag (Γ x).cfg x
    constructPayload Γ x a)
    (release x)

thrice
/-- `StorageBase(DirectInitializationFromFunctionTag, func, arg)`, optional.h:969-975. -/
def storageFunctionCtor (x : Nat) (nt : Bool) (call : M V G V) : M V G Unit := do
  allocate x
  onThrow (do
    initEmptyFlag (Γ x).cfg x
    constructPayloadFromFunction Γ x nt call)
    (release x)

thrice
/-- `~StorageBase()`, optional.h:978-983 (implicitly noexcept), and the release of the memory. -/
def storageDtor (x : Nat) : M V G Unit :=
  noexceptIf true (do
    if ← hasValue Γ x then destroyPayloadOf Γ x else pure ()
    release x)

end

end Verif.Model
