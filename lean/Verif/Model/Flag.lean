import Verif.Model.Steps

/-!
# Decompositions and flag manipulators (optional.h:230-247, 516-850)

A `Config` is what a template instantiation of `TinyOptionalImpl<StoredTypeDecomposition, FlagManipulator>` fixes at
compile time, together with the layout of the payload and whether `NDEBUG` is defined.
-/

namespace Verif.Model

/-- A location inside the payload: result of `GetIsEmptyFlag` for the in-place decompositions.
`repr` is the object representation of the flag type, `proj` maps a payload value to the value of that member. (optional.h:599-602,
637-640) -/
structure FlagLoc (V : Type) where
  off : Nat
  size : Nat
  repr : V → Nat → Option Byte
  proj : V → V

/-- The three `StoredTypeDecomposition`s. (optional.h:572-646) -/
inductive Decomp (V : Type) where
  /-- `DecompositionForSeparateFlag`, optional.h:572-587 -/
  | separate
  /-- `InplaceStoredTypeDecomposition`, optional.h:593-608 -/
  | inplace
  /-- `InplaceDecompositionViaMemPtr`, optional.h:623-646. The library's own reliance on UB (member access into a
  payload that does not exist) is modelled as address arithmetic. -/
  | viaMember (loc : FlagLoc V)

/-- The `FlagManipulator`s. (optional.h:230-247, 680-850) -/
inductive Manip (V : Type) where
  /-- `SeparateFlagManipulator`, optional.h:680-701 -/
  | separate
  /-- `MemcpyAndCmpFlagManipulator`, optional.h:709-759, with the bytes of `SentinelValue::value` -/
  | memcpy (sentinel : List Byte)
  /-- `AssignmentFlagManipulator`, optional.h:765-850, with `valueToIndicateEmpty` and the flag type's `operator==`
  (first argument: the flag) -/
  | assign (sentinel : V) (eq : V → V → Bool)
  /-- A user supplied manipulator (specialisation of `optional_flag_manipulator` or argument of `optional_inplace`;
  this includes `sentinel_flag_manipulator`, optional.h:230-247). Simplification: `init_empty_flag` creates a flag
  object with value `emptyVal`, `invalidate_empty_flag` destroys the flag object, `is_empty` is a pure predicate. -/
  | custom (isEmpty : V → Bool) (emptyVal : V)

/-- A decomposition with a flag manipulator. (optional.h:915-921) -/
structure Config (V : Type) where
  /-- `sizeof(PayloadType)` -/
  size : Nat
  /-- object representation of the payload (`none`: padding or unspecified) -/
  repr : V → Nat → Option Byte
  decomp : Decomp V
  manip : Manip V
  /-- `NDEBUG` defined: asserts are disabled -/
  ndebug : Bool

/-- `sentinel_flag_manipulator<Payload, Sentinel>`, optional.h:230-247: `is_empty` is `payload == Sentinel`,
`init_empty_flag` placement-news a copy of the sentinel, `invalidate_empty_flag` runs the destructor. -/
def sentinelFlagManipulator {V : Type} (sentinel : V) (eq : V → V → Bool) : Manip V :=
  .custom (fun v => eq v sentinel) sentinel

namespace Config
variable {V : Type}

/-- `GetIsEmptyFlag` for the in-place decompositions (optional.h:599-602, 637-640). Not used for `separate`. -/
def loc (c : Config V) : FlagLoc V :=
  match c.decomp with
  | .viaMember l => l
  | _ => ⟨0, c.size, c.repr, id⟩

/-- Read the flag object through `FlagType const &`: either the flag object made by `init_empty_flag`, or the
corresponding part of the live payload. (the parameters of `is_empty`, optional.h:233, 682, 729, 818) -/
def readFlag (c : Config V) (s : Storage V) : Except UB V :=
  match s.flag with
  | some f => match f.val with
    | some v => .ok v
    | none => .error .trapValue
  | none => match s.payload with
    | some p => .ok (c.loc.proj p.val)
    | none => .error .noObject

/-- `FlagManipulator::is_empty(GetIsEmptyFlag())`: optional.h:682-685, 729-737, 818-830, 233-236. -/
def isEmpty (c : Config V) (s : Storage V) : Except UB Bool :=
  match c.manip with
  | .separate => readBool (s.bytes c.size)
  | .memcpy sent =>
    if c.loc.off + sent.length ≤ c.size then memcmpEq s.bytes c.loc.off sent else .error .outOfBounds
  | .assign sv eq => match c.readFlag s with
    | .ok v => .ok (eq v sv)
    | .error k => .error k
  | .custom p _ => match c.readFlag s with
    | .ok v => .ok (p v)
    | .error k => .error k

/-- Effect of `init_empty_flag` on the storage; `id` names the created flag object.
optional.h:687-693 (separate), 739-749 (memcpy), 832-842 (assignment: placement new of `valueToIndicateEmpty`), 238-241
(custom). The second component says whether a flag object was created (not for the separate bool, whose lifetime is
that of the storage). -/
def initFlag (c : Config V) (id : Nat) (s : Storage V) : Except UB (Storage V × Bool) :=
  let create (fo : FObj V) (n : Nat) (f : Nat → Option Byte) : Except UB (Storage V × Bool) :=
    if s.payload.isSome ∨ s.flag.isSome then .error .overLive
    else if c.size < c.loc.off + n then .error .outOfBounds
    else .ok ({ s with bytes := fill s.bytes c.loc.off n f, flag := some fo }, true)
  match c.manip with
  | .separate => .ok ({ s with bytes := fill s.bytes c.size 1 (fun _ => some 1#8) }, false)
  | .memcpy sent => create ⟨id, none⟩ sent.length (fun i => sent[i]?)
  | .assign sv _ => create ⟨id, some sv⟩ c.loc.size (c.loc.repr sv)
  | .custom _ ev => create ⟨id, some ev⟩ c.loc.size (c.loc.repr ev)

end Config

section
variable {V G : Type}

twice
/-- `FlagManipulator::init_empty_flag(GetIsEmptyFlag())` of optional `x`. (optional.h:238-241, 687-692, 739-748, 832-842) -/
def initEmptyFlag (c : Config V) (x : Nat) : M V G Unit := do
  let s ← readStorage x
  let id ← freshId
  let (s', created) ← liftE (c.initFlag id s)
  writeStorage x s'
  if created then emit (.flagInit id) else pure ()

twice
/-- End the lifetime of the payload object: `payload.~PayloadType()` (optional.h:1020). Its bytes become indeterminate.
-/
def destroyPayload (c : Config V) (dtor : V → G → G) (x : Nat) : M V G Unit := do
  let s ← readStorage x
  match s.payload with
  | none => ubM .noObject
  | some p =>
    userPure (fun g => ((), dtor p.val g))
    writeStorage x { s with payload := none, bytes := fill s.bytes 0 c.size (fun _ => none) }
    emit (.payloadDtor p.id)

twice
/-- `FlagManipulator::invalidate_empty_flag(GetIsEmptyFlag())` of optional `x`: optional.h:695-700 (separate), 751-758,
844-849, 243-246 (in place: `isEmptyFlag.~FlagType()`). If the optional holds a live payload instead of a flag object
(only possible if a reserved value was stored), the destructor call ends the payload's lifetime for the whole-payload
decomposition and is UB for the member decomposition. -/
def invalidateEmptyFlag (c : Config V) (dtor : V → G → G) (x : Nat) : M V G Unit := do
  let s ← readStorage x
  match c.manip with
  | .separate => writeStorage x { s with bytes := fill s.bytes c.size 1 (fun _ => some 0#8) }
  | _ =>
    match s.flag with
    | some f =>
      writeStorage x { s with flag := none, bytes := fill s.bytes c.loc.off c.loc.size (fun _ => none) }
      emit (.flagInval f.id)
    | none =>
      match s.payload, c.decomp with
      | some _, .inplace => destroyPayload c dtor x
      | some _, _ => ubM .memberDestroyed
      | none, _ => ubM .noObject

twice
/-- Placement new of a payload with value `v` (optional.h:1062-1063, 1067-1068, 1096-1097, 1101-1102), after its
constructor has computed `v`. -/
def newPayload (c : Config V) (x : Nat) (v : V) : M V G Unit := do
  let s ← readStorage x
  if s.payload.isSome ∨ s.flag.isSome then ubM .overLive
  else do
    let id ← freshId
    writeStorage x { s with payload := some ⟨id, v⟩, bytes := fill s.bytes 0 c.size (c.repr v) }
    emit (.payloadCtor id)

twice
/-- `GetPayload()` used for reading (optional.h:1008-1016). -/
def getPayload (x : Nat) : M V G V := do
  let s ← readStorage x
  match s.payload with
  | some p => pure p.val
  | none => ubM .noObject

twice
/-- The live payload changes its value (assignment, being moved from, modification through a reference). (e.g. optional.h:1121, 1574-1577)
-/
def setPayload (c : Config V) (x : Nat) (v : V) : M V G Unit := do
  let s ← readStorage x
  match s.payload with
  | some p => writeStorage x { s with payload := some ⟨p.id, v⟩, bytes := fill s.bytes 0 c.size (c.repr v) }
  | none => ubM .noObject

end

end Verif.Model
