import Verif.Model.Bits
import Verif.Model.Instance
import Verif.Spec.Readme

/-!
# Configurations of the optionals in the examples of the README

x64, without the settings that disable tricks. First the configurations, then the types as written in the README, for `Model/Select.lean`.
-/

namespace Verif.Model.Readme
open Verif.Spec Verif.Spec.Readme

/-- `is_empty` for `IndexPair`, README:359-365. -/
def indexPairIsEmpty (p : IndexPair) : Bool := p.index1.slt 0 && p.index2.slt 0

/-- `SetIndices`, README:340-344. -/
def setIndices (_ : IndexPair) (i j : BitVec 32) : IndexPair := ⟨i, j⟩

/-- The object that `init_empty_flag` creates, README:367-378: `IndexPair()` sets both members to zero. -/
def indexPairInit : IndexPair := setIndices ⟨0, 0⟩ (-1) (-1)

/-- Members of `IndexPair`, README:349-352. -/
def indexPairMembers (p : IndexPair) : List (Extent × (Nat → Option Byte)) :=
  [(int32, reprLE 4 p.index1), (int32, reprLE 4 p.index2)]

/-- `tiny::optional<IndexPair>` with the specialisation README:356-395: decomposition optional.h:593-608. -/
def indexPairCfg (ndebug : Bool) : Config IndexPair :=
  ⟨(classExtent [int32, int32]).size, fun p => classRepr (indexPairMembers p), .inplace, .custom indexPairIsEmpty indexPairInit, ndebug⟩

/-- The constructor of `Iterator` without parameters, README:572-574. -/
def iteratorDefault : Iterator := ⟨false, 0⟩
/-- The constructor from an index, README:576-578. -/
def iteratorOf (i : BitVec 64) : Iterator := ⟨true, i⟩

/-- `is_empty` of `FlagManipulator`, README:601-604. -/
def iteratorIsEmpty (i : Iterator) : Bool := !i.isValid

/-- `optional_inplace<Iterator, FlagManipulator>`, README:599-623, 628; `init_empty_flag` (606-611) calls the constructor without parameters.
(optional.h:593-608) -/
def iteratorCfg (ndebug : Bool) : Config Iterator :=
  ⟨(classExtent [bool8, word64]).size, fun i => classRepr [(bool8, boolRepr i.isValid), (word64, reprLE 8 i.index)], .inplace,
    .custom iteratorIsEmpty iteratorDefault, ndebug⟩

/-- `tiny::optional<int, -1>`, README:81: `AssignmentFlagManipulator`, optional.h:765-850. -/
def indexCfg (ndebug : Bool) : Config (BitVec 32) := ⟨4, reprLE 4, .inplace, .assign (-1) (· == ·), ndebug⟩

/-- `tiny::optional<MyEnum>` with README:525-528: `sentinel_flag_manipulator<MyEnum, MyEnum::Max>`, optional.h:230-247. -/
def enumCfg (ndebug : Bool) : Config (BitVec 32) := ⟨4, reprLE 4, .inplace, sentinelFlagManipulator enumMax (· == ·), ndebug⟩

/-- `tiny::optional<MyEnum, MyEnum::Max>`, README:519: `AssignmentFlagManipulator`, optional.h:765-850. -/
def enumSentinelCfg (ndebug : Bool) : Config (BitVec 32) := ⟨4, reprLE 4, .inplace, .assign enumMax (· == ·), ndebug⟩

/-- `optional_sentinel_via_type<std::chrono::microseconds, MicroSecondsSentinel>`, README:645-652; the representation of the duration is a signed
64-bit integer, `==` and `=` act on it. (optional.h:765-850) -/
def microCfg (ndebug : Bool) : Config (BitVec 64) := ⟨8, reprLE 8, .inplace, .assign (BitVec.intMin 64) (· == ·), ndebug⟩

/-- Members of `Data`, README:196-202. -/
def dataMembers (d : Data) : List (Extent × (Nat → Option Byte)) :=
  [(int32, reprLE 4 d.var1), (word64, reprLE 8 d.var2), (word64, reprLE 8 d.var3)]

/-- The layout of `Data`, README:196-202, without "more stuff". -/
def dataExtents : List Extent := [int32, word64, word64]

/-- `tiny::optional<Data, &Data::var1, -1>`, README:209 (optional.h:623-646, 765-850). The flag is an `int`; here it is a `Data` of which only
`var1` matters. -/
def data1Cfg (ndebug : Bool) : Config Data :=
  ⟨(classExtent dataExtents).size, fun d => classRepr (dataMembers d),
    .viaMember ⟨offsetOf dataExtents 0, 4, fun d => reprLE 4 d.var1, id⟩, .assign ⟨-1, 0, 0⟩ (fun a b => a.var1 == b.var1), ndebug⟩

/-- `tiny::optional<Data, &Data::var2>`, README:206: the pattern for `double` (optional.h:437) in that member (623-646, 709-759). -/
def data2Cfg (ndebug : Bool) : Config Data :=
  ⟨(classExtent dataExtents).size, fun d => classRepr (dataMembers d),
    .viaMember ⟨offsetOf dataExtents 1, 8, fun d => reprLE 8 d.var2, id⟩, .memcpy (bytesLE 8 sentinelDouble), ndebug⟩

/-- `tiny::optional<Data, &Data::var3>`, README:206: the pattern for pointers (optional.h:492) in that member (623-646, 709-759). -/
def data3Cfg (ndebug : Bool) : Config Data :=
  ⟨(classExtent dataExtents).size, fun d => classRepr (dataMembers d),
    .viaMember ⟨offsetOf dataExtents 2, 8, fun d => reprLE 8 d.var3, id⟩, .memcpy (bytesLE 8 sentinelPtr64), ndebug⟩

/-! ## The types -/

/-- `int`. (README:349-352) -/
def intKind (P : Prog) : Kind := .int ⟨P.dm.intRank, true, 0⟩
/-- `IndexPair`; numbers stand for names. (README:349-352) -/
def indexPairKind : Kind := .cls 1
/-- The iterator type. (README:569-590) -/
def iteratorKind : Kind := .cls 2
/-- `Data`. (README:196-202) -/
def dataKind : Kind := .cls 3
/-- `std::chrono::microseconds`. (README:645-652) -/
def microKind : Kind := .cls 4
/-- `MyEnum`. (README:509-514) -/
def enumKind (P : Prog) : Kind := .enumScoped 5 ⟨P.dm.intRank, true, 0⟩

/-- The manipulator for `IndexPair`. (README:356-392) -/
def indexPairManip : Nat := 1
/-- The manipulator for `MyEnum`. (README:525-528) -/
def enumManip : Nat := 2
/-- The manipulator for the iterator. (README:599-623) -/
def iteratorManip : Nat := 3

/-- `&Data::var1`. (README:206-209) -/
def var1Ptr (P : Prog) : MemPtr := ⟨3, (intKind P).plain, 0, false, 6⟩
/-- `&Data::var2`. (README:206-209) -/
def var2Ptr : MemPtr := ⟨3, (Kind.flt 1).plain, 1, false, 7⟩
/-- `&Data::var3`. (README:206-209) -/
def var3Ptr (more : Nat) : MemPtr := ⟨3, (Kind.ptr more).plain, 2, false, 8⟩

/-- The program of the examples: x64, no macro of the library is defined (optional.h:67-86), `optional_flag_manipulator` is specialised for
`IndexPair` (README:356-392) and `MyEnum` (README:525-528) and for no other type of an example, and what the `static_assert`s at
optional.h:821-838 and 934-953 demand holds. -/
structure ReadmeProg (P : Prog) : Prop where
  arch : P.set.arch = .x64
  bits : P.set.noBits = false
  member : P.set.noMem = false
  indexPair : P.full indexPairKind.plain = some indexPairManip
  enum : P.full (enumKind P).plain = some enumManip
  others : ∀ k : Kind, (k = intKind P ∨ k = microKind ∨ k = .flt 1 ∨ ∃ m, k = .ptr m) → P.full k.plain = none ∧ P.partials k.plain = []
  manips : ∀ i, P.manipNoexcept i = true
  eqs : ∀ k, P.eqNoexcept k = true
  payload : ∀ k : Kind, P.payloadOK k.plain = true

end Verif.Model.Readme
