import Verif.Spec.Qualified
import Verif.Model.Select

/-!
# Qualifiers of the payload and of the flag in the storage and in the flag manipulators

For every instantiation of the library (`Inst`, as selected by `Model/Select.lean`): the qualifiers of the types in `SeparateFlagStorage`,
`InplaceStorage`, the decompositions, `StorageBase` and the flag manipulators; the places where a reference is bound; the read of the flag.
Simplifications: flags of class type are compared by a function of the user, whose accesses are not modelled; a manipulator of the user is known by
the qualifiers of the parameter of its functions.
-/

namespace Verif.Model.Qualified
open Verif Verif.Model Verif.Spec.Qualified

/-- The qualifiers of a type. (of the types in optional.h:510-1148) -/
def quals (t : QTy) : Quals := ⟨t.cv.c, t.cv.v⟩

/-- `std::remove_const_t<PayloadType>`, the type of the data member for the payload. (optional.h:521, 539) -/
def member (i : Inst) : Quals := ⟨false, (quals i.payload).volatile⟩

/-- `StorageBase::FlagType`: the type of the lvalue returned by `GetIsEmptyFlag(StoredType &)`. (optional.h:578-581, 599-602, 637-640, 920-921;
the `bool`: 524) -/
def flagType (i : Inst) : Quals :=
  match i.decomp with
  | .separate => .none
  | .inplace => member i
  | .viaMember p => (member i).union (quals p.var)

/-- The template argument `FlagType` of `MemcpyAndCmpFlagManipulator` and `AssignmentFlagManipulator`: the payload type, or the type of the member.
(optional.h:883-889, 1930, 1951, 1965, 1989, 2054, 2083; the `remove_cv_t` in 888 concerns the sentinel only) -/
def manipType (i : Inst) : Quals :=
  match i.decomp with
  | .separate => .none
  | .inplace => quals i.payload
  | .viaMember p => quals p.var

/-- The functions of a flag manipulator. (optional.h:651-669) -/
inductive Fn where
  | isEmpty
  | initEmptyFlag
  | invalidateEmptyFlag
deriving DecidableEq, Repr

/-- The parameter of a function of the manipulator: a reference to a type with these qualifiers, or (`none`) a value.
`SeparateFlagManipulator` (optional.h:682, 687, 695), `MemcpyAndCmpFlagManipulator` (729, 739, 751), `AssignmentFlagManipulator` (818, 832, 844),
manipulators of the user (for example 233-246) with the qualifiers `user` in `init_empty_flag` and `invalidate_empty_flag`. -/
def param (user : Nat → Quals) (i : Inst) (f : Fn) : Option Quals :=
  match i.manip, f with
  | .separate, .isEmpty => Option.none
  | .separate, _ => some .none
  | .bits _, .isEmpty | .assign _ _, .isEmpty => some (manipType i).addConst
  | .bits _, _ | .assign _ _, _ => some (manipType i)
  | .user id, .isEmpty => some (user id).addConst
  | .user id, _ => some (user id)

/-- The lvalue that `StorageBase` passes to it: `GetIsEmptyFlag()`, in `has_value() const` the overload that returns `FlagType const &`.
(optional.h:957, 965, 973, 995, 998-1006, 1034, 1053, 1088, 1140) -/
def argument (i : Inst) : Fn → Quals
  | .isEmpty => (flagType i).addConst
  | .initEmptyFlag | .invalidateEmptyFlag => flagType i

/-- The references bound in the decomposition and in `StorageBase`: `GetPayload(StoredType &)` returns `PayloadType &` for the data member (optional.h:583-586,
604-607, 642-645), `GetIsEmptyFlag` and `GetPayload` of `StorageBase` and their `const` overloads (998-1016). -/
def accessors (i : Inst) : List Binding :=
  [⟨member i, quals i.payload⟩, ⟨flagType i, flagType i⟩, ⟨flagType i, (flagType i).addConst⟩,
   ⟨quals i.payload, quals i.payload⟩, ⟨quals i.payload, (quals i.payload).addConst⟩]

/-- The references bound by calls of the manipulator. (optional.h:935-943 and the calls listed at `argument`) -/
def calls (user : Nat → Quals) (i : Inst) : List Binding :=
  [Fn.isEmpty, .initEmptyFlag, .invalidateEmptyFlag].filterMap fun f => (param user i f).map fun q => ⟨argument i f, q⟩

/-- All references bound in the storage layer. (optional.h:578-645, 680-850, 935-1148) -/
def bindings (user : Nat → Quals) (i : Inst) : List Binding := accessors i ++ calls user i

/-- The payload object: `::new (…) PayloadType(…)`. (optional.h:1062-1063, 1067-1068, 1096-1097, 1101-1102) -/
def payloadObject (i : Inst) : Quals := quals i.payload

/-- The object that the flag of an optional with a value is: the separate `bool` (optional.h:524), the payload (601), or the member of the
payload (639). -/
def flagOfValue (i : Inst) : Quals :=
  match i.decomp with
  | .separate => .none
  | .inplace => payloadObject i
  | .viaMember p => (payloadObject i).union (quals p.var)

/-- The object that the flag of an empty optional is, if an expression of the library creates it with a type: the separate `bool` (optional.h:524),
`::new (…) FlagType(…)` (840-841). The object that `memcpy` creates (745-748) has no type of its own, manipulators of the user are not known. -/
def flagOfEmpty (i : Inst) : Option Quals :=
  match i.manip with
  | .separate => some .none
  | .assign _ _ => some (manipType i)
  | .bits _ | .user _ => Option.none

/-- The glvalue through which `is_empty` reads the flag: its parameter, a `bool`, initialised from the argument (optional.h:682-685); `memcmp` reads bytes of
the type `unsigned char` behind a pointer whose qualifiers are cast away (729-737); `isEmptyFlag == valueToIndicateEmpty` (818-830). -/
def isEmptyReads (i : Inst) : Option Quals :=
  match i.manip with
  | .separate => some (argument i .isEmpty)
  | .bits _ => some .none
  | .assign _ _ => some (manipType i).addConst
  | .user _ => Option.none

/-- The read of the flag in `has_value()` for an optional with a value, or without. (optional.h:993-996) -/
def hasValueReads (i : Inst) (full : Bool) : Option Read :=
  match isEmptyReads i, (if full then some (flagOfValue i) else flagOfEmpty i) with
  | some via, some object => some ⟨object, via⟩
  | _, _ => Option.none

/-- What happens to the storage of an optional. (optional.h:955-975, 1026-1143) -/
inductive StorageEvent where
  /-- `init_empty_flag` (optional.h:957, 965, 973, 1034, 1140) -/
  | empties
  /-- construction of the payload (optional.h:1062-1063, 1067-1068, 1096-1097, 1101-1102) -/
  | fills
deriving DecidableEq, Repr

/-- The object which that creates with the type of the payload and in its storage. Only for flags that are not a member of the payload: the flag is
the separate `bool`, or created by `::new (…) FlagType(…)` (optional.h:840-841), or by `memcpy` without a type of its own (745-748).
(payload: optional.h:1062-1102) -/
def creates (i : Inst) (hasConstMember : Bool) : StorageEvent → Option Created
  | .fills => some ⟨payloadObject i, hasConstMember⟩
  | .empties => match i.decomp, i.manip with
    | .inplace, .assign _ _ => some ⟨manipType i, hasConstMember⟩
    | _, _ => Option.none

/-- The name `v.payload` or `v.storage` in `GetPayload` (optional.h:585, 606) refers to the object created last, after some events. -/
def payloadNamed (e : Edition) (i : Inst) (hasConstMember : Bool) (events : List StorageEvent) : Bool :=
  nameRefers e (events.filterMap (creates i hasConstMember))

end Verif.Model.Qualified
