import Verif.Model.Integral
import Verif.Model.Bits
import Verif.Spec.Layout

/-!
# From template arguments to a storage configuration

`SentinelForExploitingUnusedBitsIsKnown` .. `HasCustomInplaceFlagManipulator` (optional.h:864-898), `SelectDecomposition`
(1874-2088), `SelectSentinelValueAndMemPtrFromConstants` (2099-2131), `optional_sentinel_via_type` (2154), `optional`
(2195), `optional_inplace` (2318), `optional_aip` (2326-2385).

Compilation is a function into `Except Err`; `Err` names the `static_assert`, `#error` or rule of the language that
rejects the program.
-/

namespace Verif.Model
open Verif.Spec

/-- cv-qualifiers (of the types in optional.h:1897-2090) -/
structure Cv where
  c : Bool
  v : Bool
deriving DecidableEq, Repr

/-- A possibly cv-qualified object type. `Kind.flt`: 0 is `float`, 1 is `double`, 2 is `long double`, others are the
extended floating point types (`std::float16_t`, ...) for which `std::is_floating_point` holds. (the types in optional.h:1897-2090) -/
structure QTy where
  kind : Kind
  cv : Cv
deriving DecidableEq, Repr

/-- A type without qualifiers. (of the types in optional.h:1897-2090) -/
def Kind.plain (k : Kind) : QTy := ⟨k, ⟨false, false⟩⟩

/-- A pointer to a data member: `MemberPointerFragments::ClassType`/`VariableType` (optional.h:340-348), the position
of the member in the class, whether it is the null member pointer, and its own type. -/
structure MemPtr where
  cls : Nat
  var : QTy
  idx : Nat
  null : Bool
  ty : Nat
deriving DecidableEq, Repr

/-- An `auto` template argument. (optional.h:170, 2099, 2154, 2195-2198) -/
inductive NTTP where
  /-- a value of the enumeration `UseDefaultType` (optional.h:163-166); `UseDefaultValue` is 0 -/
  | useDefault (v : Nat)
  /-- a pointer to a data member -/
  | memPtr (p : MemPtr)
  /-- any other constant (including pointers to member functions) -/
  | const (c : Const)

/-- A `class SentinelValue` template argument: `UseDefaultType`, or a class with a static constant `value`. (optional.h:1897, 2154) -/
inductive SentTy where
  | useDefault
  | value (c : Const)

/-- Reasons for which a program does not compile. (the `static_assert`s in optional.h:230-2345) -/
inductive Err where
  /-- `#error`, optional.h:414-416 and 627-629 -/
  | architecture
  /-- `static_assert` in the primary `SentinelForExploitingUnusedBits`, optional.h:402-408 -/
  | unknownUnusedBits
  /-- several partial specialisations of `optional_flag_manipulator` match -/
  | ambiguousManipulator
  /-- `static_assert` of the primary `SelectDecomposition`, optional.h:1898-1900 -/
  | noSpecialisation
  /-- several partial specialisations of `SelectDecomposition` match -/
  | ambiguousSpecialisation
  /-- `static_assert`, optional.h:1980-1982 and the three copies of it -/
  | notAMember
  /-- `static_assert`, optional.h:2010-2012 -/
  | memberNeedsSentinel
  /-- `static_assert`, optional.h:632 -/
  | nullMemPtr
  /-- a `static_assert` of or a failed conversion in `ConvertSentinelToFlagType`, optional.h:775-812 -/
  | sentinel
  /-- `static_assert`s about noexcept, optional.h:821-823, 835-838, 934-943 -/
  | notNoexcept
  /-- `static_assert`s on the payload type, optional.h:945-953 -/
  | payload
  /-- `MissingSentinel`, optional.h:2328-2334 -/
  | missingSentinel
deriving DecidableEq, Repr

/-- The architectures. (optional.h:67-71) -/
inductive Arch where
  | x64 | x86 | other
deriving DecidableEq, Repr

/-- Which macros the user has defined (optional.h:77-86) and the target architecture (67-71). -/
structure Settings where
  /-- `TINY_OPTIONAL_USE_SEPARATE_BOOL_INSTEAD_OF_UB_TRICKS` -/
  ubTricks : Bool
  /-- `TINY_OPTIONAL_USE_SEPARATE_BOOL_INSTEAD_OF_UNUSED_BITS` -/
  unusedBits : Bool
  /-- `TINY_OPTIONAL_USE_SEPARATE_BOOL_INSTEAD_OF_MEMBER` -/
  member : Bool
  arch : Arch

/-- `TINY_OPTIONAL_USE_SEPARATE_BOOL_INSTEAD_OF_UNUSED_BITS` after optional.h:77-86. -/
def Settings.noBits (s : Settings) : Bool := s.ubTricks || s.unusedBits
/-- `TINY_OPTIONAL_USE_SEPARATE_BOOL_INSTEAD_OF_MEMBER` after optional.h:77-86. -/
def Settings.noMem (s : Settings) : Bool := s.ubTricks || s.member

/-- The program around the library: data model, settings, user specialisations of `optional_flag_manipulator`, traits of
user types. Manipulators are named by numbers. Simplification: no specialisation of the user inherits from
`NoCustomInplaceFlagManipulator` (for example by deriving from `optional_flag_manipulator<T>` for a type `T` without one); the library would
treat it like no specialisation (898). (optional.h:58-116 for the settings, 217-220 for the specialisations) -/
structure Prog where
  dm : DataModel
  set : Settings
  /-- conversion ranks of `short`, `long`, `long long` (that of `int` is `dm.intRank`) -/
  shortRank : Nat
  longRank : Nat
  llongRank : Nat
  /-- explicit (full) specialisations of `optional_flag_manipulator` -/
  full : QTy → Option Nat
  /-- the user's partial specialisations of `optional_flag_manipulator` that match a type -/
  partials : QTy → List Nat
  /-- the functions of a user manipulator are noexcept -/
  manipNoexcept : Nat → Bool
  /-- `==` and `=` of a type are noexcept -/
  eqNoexcept : Kind → Bool
  /-- neither `nullopt_t` nor `in_place_t`; a destructible object type that is not an array -/
  payloadOK : QTy → Bool

variable (P : Prog)

/-- `#error` directives, optional.h:411-416 and 611-629. -/
def archCheck : Except Err Unit :=
  if P.set.arch = .other ∧ (P.set.noBits = false ∨ P.set.noMem = false) then .error .architecture else .ok ()

/-- `SentinelForExploitingUnusedBitsIsKnown<T>`, optional.h:864-873. -/
def unusedBitsKnown (t : QTy) : Bool :=
  if P.set.noBits then false
  else match t.kind with
    | .flt id => id != 2
    | .bool => true
    | .ptr _ => true
    | _ => false

/-- Bytes of `SentinelForExploitingUnusedBits<T>::value`, optional.h:402-506; `none`: primary template. -/
def unusedBitsSentinel (k : Kind) : Option (List Byte) :=
  match k with
  | .bool => some (bytesLE 1 sentinelBool)
  | .flt 0 => some (bytesLE 4 sentinelFloat)
  | .flt 1 => some (bytesLE 8 sentinelDouble)
  | .ptr _ => match P.set.arch with
    | .x64 => some (bytesLE 8 sentinelPtr64)
    | .x86 => some (bytesLE 4 sentinelPtr32)
    | .other => none
  | _ => none

/-- What `optional_flag_manipulator<T>` is. (optional.h:153-156, 217-220) -/
inductive Registered where
  /-- the primary template, derived from `NoCustomInplaceFlagManipulator` (optional.h:217-220) -/
  | nothing
  /-- the library's specialisation (optional.h:883-889): `MemcpyAndCmpFlagManipulator` with these bytes -/
  | bits (sentinel : List Byte)
  | user (id : Nat)
deriving DecidableEq

/-- The choice of a specialisation of `optional_flag_manipulator<T>`: an explicit specialisation wins, otherwise the
matching partial specialisation; two matching ones are ambiguous (neither is more specialised because the `enable_if`
condition is a non-deduced context). (optional.h:217-220, 883-889) -/
def flagManipulator (t : QTy) : Except Err Registered :=
  match P.full t with
  | some id => .ok (.user id)
  | none => match P.partials t, unusedBitsKnown P t with
    | [], false => .ok .nothing
    | [], true => match unusedBitsSentinel P t.kind with
      | some s => .ok (.bits s)
      | none => .error .unknownUnusedBits
    | [id], false => .ok (.user id)
    | _, _ => .error .ambiguousManipulator

/-- `HasCustomInplaceFlagManipulator<T>`, optional.h:896-898. -/
def hasCustom (t : QTy) : Except Err Bool :=
  match flagManipulator P t with
  | .ok .nothing => .ok false
  | .ok _ => .ok true
  | .error e => .error e

/-- Template arguments of `SelectDecomposition`. (optional.h:1897-1898) -/
structure Args where
  payload : QTy
  sentinel : SentTy
  memPtr : NTTP

/-- The partial specialisations, named as in `SelectedDecompositionTest` (optional.h:1874-1884). -/
inductive Specialisation where
  | noArgsAndBehavesAsStdOptional
  | noArgsAndHasCustomFlagManipulator
  | sentinelForTypeWithCustomFlagManipulator
  | sentinel
  | memPtrWithCustomFlagManipulator
  | memPtrWithoutCustomFlagManipulator
  | sentinelAndMemPtrWithCustomFlagManipulator
  | sentinelAndMemPtr
deriving DecidableEq, Repr

/-- The argument is `UseDefaultType`. (optional.h:1906-1930) -/
def SentTy.isDefault : SentTy → Bool
  | .useDefault => true
  | _ => false

/-- The argument is (the value) `UseDefaultValue`. (optional.h:163-166) -/
def NTTP.isDefaultValue : NTTP → Bool
  | .useDefault 0 => true
  | _ => false

/-- Do the fixed arguments in the head of the specialisation agree? optional.h:1906-1910, 1920-1924, 1934-1938,
1955-1959, 1970-1975, 1998-2003, 2027-2032, 2063-2068. -/
def Specialisation.shape (a : Args) : Specialisation → Bool
  | .noArgsAndBehavesAsStdOptional => a.sentinel.isDefault && a.memPtr.isDefaultValue
  | .noArgsAndHasCustomFlagManipulator => a.sentinel.isDefault && a.memPtr.isDefaultValue
  | .sentinelForTypeWithCustomFlagManipulator => a.memPtr.isDefaultValue
  | .sentinel => a.memPtr.isDefaultValue
  | .memPtrWithCustomFlagManipulator => a.sentinel.isDefault
  | .memPtrWithoutCustomFlagManipulator => a.sentinel.isDefault
  | .sentinelAndMemPtrWithCustomFlagManipulator => true
  | .sentinelAndMemPtr => true

/-- `is_member_object_pointer_v<decltype(m)> && (!)HasCustomInplaceFlagManipulator<VariableType>`. For anything that is no
member pointer `MemberPointerFragments` is incomplete, a substitution failure. (optional.h:1970-2078) -/
def memPtrCond (m : NTTP) (want : Bool) : Except Err Bool :=
  match m with
  | .memPtr p => (hasCustom P p.var).map (· == want)
  | _ => .ok false

/-- The `enable_if` condition. (optional.h:1906-2078) -/
def Specialisation.cond (a : Args) : Specialisation → Except Err Bool
  | .noArgsAndBehavesAsStdOptional => (hasCustom P a.payload).map (!·)
  | .noArgsAndHasCustomFlagManipulator => hasCustom P a.payload
  | .sentinelForTypeWithCustomFlagManipulator => (hasCustom P a.payload).map (· && !a.sentinel.isDefault)
  | .sentinel => (hasCustom P a.payload).map (fun h => !h && !a.sentinel.isDefault)
  | .memPtrWithCustomFlagManipulator => memPtrCond P a.memPtr true
  | .memPtrWithoutCustomFlagManipulator => memPtrCond P a.memPtr false
  | .sentinelAndMemPtrWithCustomFlagManipulator => (memPtrCond P a.memPtr true).map (!a.sentinel.isDefault && ·)
  | .sentinelAndMemPtr => (memPtrCond P a.memPtr false).map (!a.sentinel.isDefault && ·)

/-- All of them. (optional.h:1906-2088) -/
def Specialisation.all : List Specialisation :=
  [.noArgsAndBehavesAsStdOptional, .noArgsAndHasCustomFlagManipulator, .sentinelForTypeWithCustomFlagManipulator,
   .sentinel, .memPtrWithCustomFlagManipulator, .memPtrWithoutCustomFlagManipulator,
   .sentinelAndMemPtrWithCustomFlagManipulator, .sentinelAndMemPtr]

/-- Does the specialisation match? The condition is only evaluated if the fixed arguments agree. (optional.h:1906-2088) -/
def Specialisation.matches (a : Args) (s : Specialisation) : Except Err Bool :=
  if s.shape a then s.cond P a else .ok false

/-- All matching specialisations. (optional.h:1906-2088) -/
def matching (a : Args) : List Specialisation → Except Err (List Specialisation)
  | [] => .ok []
  | s :: ss => do
    let b ← s.matches P a
    let rest ← matching a ss
    pure (if b then s :: rest else rest)

/-- The specialisation the compiler picks. (optional.h:1897-2088) -/
def pick (a : Args) : Except Err Specialisation := do
  match ← matching P a Specialisation.all with
  | [] => .error .noSpecialisation
  | [s] => .ok s
  | _ => .error .ambiguousSpecialisation

/-- `StoredTypeDecomposition` (optional.h:572-646) -/
inductive DecompSel where
  | separate
  | inplace
  | viaMember (p : MemPtr)
deriving DecidableEq

/-- `FlagManipulator` (optional.h:680-850, 883-889) -/
inductive ManipSel where
  /-- `SeparateFlagManipulator` -/
  | separate
  /-- `optional_flag_manipulator<T>` -/
  | registered (t : QTy)
  /-- `AssignmentFlagManipulator<T, ...>` -/
  | assign (t : QTy) (c : Const)
  /-- the second argument of `optional_inplace` -/
  | custom (id : Nat)

/-- The result of a selection. (optional.h:1915-2086) -/
structure Selected where
  payload : QTy
  decomp : DecompSel
  manip : ManipSel

/-- Body of the specialisations that have a member pointer: the check that it belongs to the payload, then the two
branches of `#ifndef TINY_OPTIONAL_USE_SEPARATE_BOOL_INSTEAD_OF_MEMBER`. (optional.h:1982-1993, 2008-2022, 2047-2058, 2076-2087) -/
def memberBody (a : Args) (manip : MemPtr → ManipSel) : Except Err Selected :=
  match a.memPtr with
  | .memPtr p =>
    if a.payload ≠ Kind.plain (.cls p.cls) then .error .notAMember
    else if P.set.noMem then .ok ⟨a.payload, .separate, .separate⟩
    else .ok ⟨a.payload, .viaMember p, manip p⟩
  | _ => .error .noSpecialisation

/-- Body of the selected specialisation, optional.h:1911-2087. -/
def Specialisation.body (a : Args) : Specialisation → Except Err Selected
  | .noArgsAndBehavesAsStdOptional => .ok ⟨a.payload, .separate, .separate⟩
  | .noArgsAndHasCustomFlagManipulator => .ok ⟨a.payload, .inplace, .registered a.payload⟩
  | .sentinelForTypeWithCustomFlagManipulator | .sentinel => match a.sentinel with
    | .value c => .ok ⟨a.payload, .inplace, .assign a.payload c⟩
    | .useDefault => .error .noSpecialisation
  | .memPtrWithCustomFlagManipulator => memberBody P a fun p => .registered p.var
  | .memPtrWithoutCustomFlagManipulator =>
    if P.set.noMem then memberBody P a fun p => .registered p.var else .error .memberNeedsSentinel
  | .sentinelAndMemPtrWithCustomFlagManipulator | .sentinelAndMemPtr => match a.sentinel with
    | .value c => memberBody P a fun p => .assign p.var c
    | .useDefault => .error .noSpecialisation

/-- `SelectDecomposition<PayloadType, SentinelValue, memPtrToFlag>` (optional.h:1897-2088) -/
def selectDecomposition (a : Args) : Except Err Selected := do
  let s ← pick P a
  s.body P a

/-- The manipulator of an instantiated `TinyOptionalImpl`. (optional.h:916) -/
inductive ManipInst where
  | separate
  | bits (sentinel : List Byte)
  /-- flag type and numeric value of `valueToIndicateEmpty` -/
  | assign (t : Kind) (val : Int)
  | user (id : Nat)
deriving DecidableEq

/-- An instantiated `TinyOptionalImpl`. (optional.h:915-921, 1390-1391) -/
structure Inst where
  payload : QTy
  decomp : DecompSel
  manip : ManipInst
deriving DecidableEq

/-- Instantiation of the flag manipulator and the `static_assert`s about it. (optional.h:714-726, 775-812, 929-953) -/
def instantiateManip : ManipSel → Except Err ManipInst
  | .separate => .ok .separate
  | .registered t => match flagManipulator P t with
    | .ok (.bits b) => .ok (.bits b)
    | .ok (.user id) => if P.manipNoexcept id then .ok (.user id) else .error .notNoexcept
    | .ok .nothing => .error .noSpecialisation
    | .error e => .error e
  | .assign t c => match convertSentinel P.dm t.kind c with
    | some v => if P.eqNoexcept t.kind then .ok (.assign t.kind v) else .error .notNoexcept
    | none => .error .sentinel
  | .custom id => if P.manipNoexcept id then .ok (.user id) else .error .notNoexcept

/-- `static_assert(memPtrToIsEmptyFlag != nullptr)`, optional.h:632. -/
def checkMemPtr : DecompSel → Except Err Unit
  | .viaMember p => if p.null then .error .nullMemPtr else .ok ()
  | _ => .ok ()

/-- Instantiation of `TinyOptionalImpl<StoredTypeDecomposition, FlagManipulator>`: the remaining `static_assert`s. (optional.h:627-632,
915-953) -/
def instantiate (s : Selected) : Except Err Inst := do
  archCheck P
  checkMemPtr s.decomp
  let m ← instantiateManip P s.manip
  if P.payloadOK s.payload then pure ⟨s.payload, s.decomp, m⟩ else .error .payload

/-- `optional_sentinel_via_type<PayloadType, SentinelValue, memPtr>`, optional.h:2154. -/
def optionalSentinelViaType (payload : QTy) (sentinel : SentTy) (memPtr : NTTP) : Except Err Inst := do
  instantiate P (← selectDecomposition P ⟨payload, sentinel, memPtr⟩)

/-- `std::integral_constant<decltype(x), x>` as a `SentinelValue`, unless the type is `UseDefaultType`. (optional.h:2117-2126) -/
def NTTP.toSentinel : NTTP → SentTy
  | .useDefault _ => .useDefault
  | .memPtr p => .value ⟨.memPtr p.ty, p.idx⟩
  | .const c => .value c

/-- `SelectSentinelValueAndMemPtrFromConstants`, optional.h:2099-2131. -/
def fromConstants (payload : QTy) (sentinelOrMemPtr irrelevantOrSentinel : NTTP) : Args :=
  match sentinelOrMemPtr with
  | .memPtr p => ⟨payload, irrelevantOrSentinel.toSentinel, .memPtr p⟩
  | x => ⟨payload, x.toSentinel, .useDefault 0⟩

/-- `optional<PayloadType, sentinelOrMemPtr, irrelevantOrSentinel>`, optional.h:2195-2201. -/
def tinyOptional (payload : QTy) (sentinelOrMemPtr irrelevantOrSentinel : NTTP) : Except Err Inst :=
  let a := fromConstants payload sentinelOrMemPtr irrelevantOrSentinel
  optionalSentinelViaType P a.payload a.sentinel a.memPtr

/-- `optional_inplace<PayloadType, FlagManipulator>`, optional.h:2318. -/
def optionalInplace (payload : QTy) (manip : Nat) : Except Err Inst :=
  instantiate P ⟨payload, .inplace, .custom manip⟩

/-- `SwallowingDefaultSentinel<T>`, optional.h:2344-2363. The limit macros have the promoted type ([C11 5.2.4.2.1]). -/
def swallowingDefaultSentinel (k : Kind) : Except Err NTTP :=
  match k with
  | .int ⟨r, sgn, 0⟩ =>
    if r = P.shortRank ∨ r = P.dm.intRank ∨ r = P.longRank ∨ r = P.llongRank then
      let t : IntTy := ⟨r, sgn, 0⟩
      .ok (.const ⟨.int (t.promote P.dm), if sgn then t.min P.dm else t.max P.dm⟩)
    else .error .missingSentinel
  | _ => .error .missingSentinel

/-- `SelectSentinelValueWithSwallowing<PayloadType>`, optional.h:2368-2374. -/
def selectSentinelValueWithSwallowing (payload : QTy) : Except Err NTTP := do
  if ← hasCustom P payload then pure (.useDefault 0) else swallowingDefaultSentinel P payload.kind

/-- `optional_aip<PayloadType, sentinelValue>`, optional.h:2384; `none`: the argument is omitted. -/
def optionalAip (payload : QTy) (sentinelValue : Option NTTP) : Except Err Inst := do
  let s ← match sentinelValue with
    | some s => pure s
    | none => selectSentinelValueWithSwallowing P payload
  tinyOptional P payload s (.useDefault 0)

/-- A type of the library as written by the user. (optional.h:2154, 2195, 2318, 2384) -/
inductive Entry where
  | optional (payload : QTy) (sentinelOrMemPtr irrelevantOrSentinel : NTTP)
  | viaType (payload : QTy) (sentinel : SentTy) (memPtr : NTTP)
  | inplace (payload : QTy) (manip : Nat)
  | aip (payload : QTy) (sentinelValue : Option NTTP)

/-- Compile a use of the library. (optional.h:2154, 2195, 2318, 2384) -/
def compile : Entry → Except Err Inst
  | .optional t a b => tinyOptional P t a b
  | .viaType t s m => optionalSentinelViaType P t s m
  | .inplace t id => optionalInplace P t id
  | .aip t s => optionalAip P t s

/-- The payload type. (optional.h:2154, 2195, 2318, 2384) -/
def Entry.payload : Entry → QTy
  | .optional t _ _ | .viaType t _ _ | .inplace t _ | .aip t _ => t

/-! ## Sizes -/

/-- `SeparateFlagStorage<T>`, optional.h:516-528: a union with the payload, then a `bool`. -/
def separateFlagStorage (payload : Extent) : Extent := classExtent [payload, ⟨1, 1⟩]
/-- `InplaceStorage<T>`, optional.h:532-544: only the union. -/
def inplaceStorage (payload : Extent) : Extent := classExtent [payload]

/-- `StoredType` of the decompositions, optional.h:576, 595, 634. -/
def storedType (d : DecompSel) (payload : Extent) : Extent :=
  match d with
  | .separate => separateFlagStorage payload
  | .inplace => inplaceStorage payload
  | .viaMember _ => inplaceStorage payload

/-- `sizeof` the optional: `StorageBase` has the single data member `mStorage` (optional.h:1147), the classes derived
from it add none. -/
def sizeofOptional (d : DecompSel) (payload : Extent) : Extent := classExtent [storedType d payload]

/-- `is_compressed`, optional.h:922. -/
def isCompressed (d : DecompSel) (payload : Extent) : Bool := (storedType d payload).size == payload.size

end Verif.Model
