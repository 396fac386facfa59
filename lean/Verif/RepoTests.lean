import Verif.Props.Integral
import Verif.Model.Select

/-!
# Compile-time expectations of the repository's tests

The `EXPECT_INPLACE`/`EXPECT_SEPARATE` tables of tests/Exercise*.cpp and the snippets of tests/CompilationErrorTests.cpp that are about
the selection of the storage, evaluated in the model. This is a validation of `Model/Select.lean` by samples, not a proof of anything.
-/

namespace Verif.RepoTests
open Verif Verif.Model Verif.Spec

/-- The data model of 32 bit Linux. -/
def ilp32 : DataModel where
  bits r := if r ≤ 1 then 8 else if r = 2 then 16 else if r ≤ 4 then 32 else 64
  intRank := 3
  pos r := by repeat' split
              all_goals omega
  mono r s h := by repeat' split
                   all_goals omega

def dataModel : Arch → DataModel
  | .x86 => ilp32
  | _ => Props.lp64

/-! ### The types of tests/TestTypes.h and tests/ExerciseOptionalWithCustomFlagManipulator.cpp -/

def tChar : Kind := .int ⟨1, true, 1⟩
def tShort : Kind := .int ⟨2, true, 0⟩
def tUShort : Kind := .int ⟨2, false, 0⟩
def tInt : Kind := .int ⟨3, true, 0⟩
def tUnsigned : Kind := .int ⟨3, false, 0⟩
def tLong : Kind := .int ⟨4, true, 0⟩
def tULong : Kind := .int ⟨4, false, 0⟩
def tLLong : Kind := .int ⟨5, true, 0⟩
def tULLong : Kind := .int ⟨5, false, 0⟩
def tFloat : Kind := .flt 0
def tDouble : Kind := .flt 1
def tLongDouble : Kind := .flt 2
def tByte : Kind := .enumScoped 0 ⟨1, false, 0⟩
def scopedEnum : Kind := .enumScoped 1 ⟨3, true, 0⟩
def unscopedEnum : Kind := .enumUnscoped 2 ⟨3, false, 0⟩
def testUnscopedEnum : Kind := .enumUnscoped 3 ⟨3, true, 0⟩
def testScopedEnum : Kind := .enumScoped 4 ⟨3, true, 0⟩
def specialEnum1 : Kind := .enumScoped 5 ⟨3, true, 0⟩
def specialEnum2 : Kind := .enumScoped 6 ⟨3, true, 0⟩
def testClass : Kind := .cls 0
def testClassForInplace : Kind := .cls 1
def stdVector : Kind := .cls 2
def referenceWrapper : Kind := .cls 3
def tinyOfDouble : Kind := .cls 4
def stdOfDouble : Kind := .cls 5
def literalClass : Kind := .cls 6
def withLiteralClass : Kind := .cls 7
def testClassPrivate : Kind := .cls 8
def testClassWithExcept : Kind := .cls 9
def withInitializerList : Kind := .cls 10
def class1 : Kind := .cls 11
def class2 : Kind := .cls 12
def nestedClass : Kind := .cls 13
def outermostClass : Kind := .cls 14
def classInHeader : Kind := .cls 15
def stdString : Kind := .cls 16
def outerClass : Kind := .cls 17
def sharedPtr : Kind := .cls 18
/-- not a type of the tests: `int &` and `int []` -/
def noObject : Kind := .cls 99

section
variable (a : Arch)

def ptrSize : Nat := if a = .x86 then 4 else 8

/-- System V ABI; on x86 `double` and `long long` have alignment 4. -/
def scalar : Kind → Extent
  | .flt 0 => ⟨4, 4⟩
  | .flt 1 => ⟨8, ptrSize a⟩
  | .flt _ => if a = .x86 then ⟨12, 4⟩ else ⟨16, 16⟩
  | .ptr _ | .nullptr | .memPtr 0 => ⟨ptrSize a, ptrSize a⟩
  | .memPtr _ => ⟨2 * ptrSize a, ptrSize a⟩
  | .int t | .enumScoped _ t | .enumUnscoped _ t =>
    let n := (dataModel a).bits t.rank / 8
    ⟨n, min n (ptrSize a)⟩
  | _ => ⟨1, 1⟩

def extent : Kind → Extent
  | .cls 0 => classExtent [scalar a .bool, scalar a tDouble]
  | .cls 1 => classExtent [scalar a tInt, scalar a tUnsigned, scalar a tDouble, scalar a tFloat, scalar a .bool, scalar a (.ptr 0)]
  | .cls 2 | .cls 10 => ⟨3 * ptrSize a, ptrSize a⟩
  | .cls 3 => ⟨ptrSize a, ptrSize a⟩
  | .cls 4 => classExtent [scalar a tDouble]
  | .cls 5 => classExtent [scalar a tDouble, ⟨1, 1⟩]
  | .cls 6 => classExtent [scalar a tInt, scalar a tDouble]
  | .cls 7 => classExtent [classExtent [scalar a tInt, scalar a tDouble], scalar a tInt]
  | .cls 8 => classExtent [scalar a tDouble]
  | .cls 9 => classExtent [scalar a tInt]
  | .cls 11 => classExtent [⟨4 * ptrSize a, ptrSize a⟩, scalar a tInt, scalar a tDouble]
  | .cls 12 => classExtent [scalar a tInt, classExtent [⟨4 * ptrSize a, ptrSize a⟩, scalar a tInt, scalar a tDouble]]
  | .cls 14 => classExtent [⟨2 * ptrSize a, ptrSize a⟩, ⟨1, 1⟩]
  | .cls 15 => classExtent [scalar a .bool, scalar a (.ptr 0)]
  | .cls _ => ⟨1, 1⟩
  | k => scalar a k
end

/-- Manipulators: 0 is that of `Class1`, 1 of `NestedClass`, 2 of `OutermostClass`, 3 and 4 of the enumerations with
`sentinel_flag_manipulator`, 5 of `SpecialEnum1` and `SpecialEnum2`, 6 of `ClassInHeader<T>`, 7 is `FlagManipulatorForTestClass`. -/
def repo (s : Settings) : Prog where
  dm := dataModel s.arch
  set := s
  shortRank := 2
  longRank := 4
  llongRank := 5
  full t := if t = class1.plain then some 0 else if t = nestedClass.plain then some 1 else if t = outermostClass.plain then some 2
    else if t = testUnscopedEnum.plain then some 3 else if t = testScopedEnum.plain then some 4 else none
  partials t := if t = specialEnum1.plain ∨ t = specialEnum2.plain then [5] else if t = classInHeader.plain then [6] else []
  manipNoexcept _ := true
  eqNoexcept k := k != testClassWithExcept
  payloadOK t := t.kind != noObject

/-! ### Expectations -/

inductive Expect where
  /-- `EXPECT_INPLACE` -/
  | inplace
  /-- `EXPECT_SEPARATE` -/
  | separate
  /-- `cInPlaceExpectationForUnusedBits` -/
  | bits
  /-- `cInPlaceExpectationForMemPtr` -/
  | mem

def Expect.isInplace (s : Settings) : Expect → Bool
  | .inplace => true
  | .separate => false
  | .bits => !s.noBits
  | .mem => !s.noMem

/-- The `static_assert`s at the beginning of `ExerciseOptional` (tests/Exercises.h:103-119). `std::optional<T>` is assumed to consist of
the payload and a `bool`. -/
def passes (s : Settings) (e : Entry) (x : Expect) : Bool :=
  match compile (repo s) e with
  | .ok i =>
    let p := extent s.arch i.payload.kind
    let o := sizeofOptional i.decomp p
    if x.isInplace s then o.size == p.size && isCompressed i.decomp p
    else o.size == (classExtent [p, ⟨1, 1⟩]).size && !isCompressed i.decomp p
  | .error _ => false

/-- `tiny::optional<T>` -/
def opt (t : QTy) : Entry := .optional t (.useDefault 0) (.useDefault 0)
/-- `tiny::optional<T, c>` -/
def optC (t : QTy) (k : Kind) (v : Int) : Entry := .optional t (.const ⟨k, v⟩) (.useDefault 0)
/-- `tiny::optional<C, &C::m>`, `m` being the member number `i` with type `t` -/
def optM (c : Nat) (t : Kind) (i : Nat) : Entry := .optional (Kind.cls c).plain (.memPtr ⟨c, t.plain, i, false, 0⟩) (.useDefault 0)
/-- `tiny::optional<C, &C::m, v>` -/
def optMC (c : Nat) (t : Kind) (i : Nat) (k : Kind) (v : Int) : Entry :=
  .optional (Kind.cls c).plain (.memPtr ⟨c, t.plain, i, false, 0⟩) (.const ⟨k, v⟩)

def const (k : Kind) : QTy := ⟨k, ⟨true, false⟩⟩
def volatile (k : Kind) : QTy := ⟨k, ⟨false, true⟩⟩
def constVolatile (k : Kind) : QTy := ⟨k, ⟨true, true⟩⟩

/-- tests/ExerciseTinyOptionalPayload1.cpp -/
def payload1 (dm : DataModel) : List (Entry × Expect) :=
  [-- Bool, :13-17
   (opt Kind.bool.plain, .bits), (optC Kind.bool.plain .bool 1, .inplace), (optC Kind.bool.plain .bool 0, .inplace),
   -- FloatingPoint, :23-53
   (opt tDouble.plain, .bits), (opt tFloat.plain, .bits), (opt tLongDouble.plain, .separate),
   -- IntegersAndEnums, :59-72
   (opt tInt.plain, .separate), (optC tInt.plain tInt 42, .inplace),
   (optC tUnsigned.plain tUnsigned (IntTy.max dm ⟨3, false, 0⟩), .inplace),
   (optC tChar.plain tChar (IntTy.max dm ⟨1, true, 1⟩), .inplace), (optC tChar.plain tChar 122, .inplace), (opt tChar.plain, .separate),
   (optC tByte.plain tByte 255, .inplace), (optC scopedEnum.plain scopedEnum 2, .inplace), (optC unscopedEnum.plain unscopedEnum 2, .inplace),
   -- IsEmptyFlagInMember, :80-100
   (optMC 1 tInt 0 tInt 42, .mem), (optM 1 tDouble 2, .mem), (optM 1 (.ptr 0) 5, .mem),
   -- Pointers, :108-165
   (opt (Kind.ptr 1).plain, .bits), (opt (Kind.ptr 2).plain, .bits), (opt (Kind.ptr 3).plain, .bits), (opt (Kind.ptr 4).plain, .bits),
   (optC (Kind.ptr 1).plain .nullptr 0, .inplace), (opt (Kind.ptr 5).plain, .bits), (opt (Kind.ptr 6).plain, .bits),
   (opt (Kind.memPtr 0).plain, .separate), (opt (Kind.memPtr 1).plain, .separate),
   -- StdTypes, :171-193
   (opt stdVector.plain, .separate), (opt referenceWrapper.plain, .separate)]

/-- tests/ExerciseTinyOptionalPayload2.cpp -/
def payload2 : List (Entry × Expect) :=
  [-- NestedOptionals, :18-29
   (opt tinyOfDouble.plain, .separate), (opt stdOfDouble.plain, .separate),
   -- ConstAndVolatile, :35-54
   (opt (const tDouble), .bits), (opt (volatile tDouble), .bits), (opt (constVolatile tDouble), .bits),
   (optC (const tInt) tInt 42, .inplace), (optC (volatile tInt) tInt 42, .inplace), (optC (constVolatile tInt) tInt 42, .inplace),
   (opt (const tInt), .separate), (opt (volatile tInt), .separate), (opt (constVolatile tInt), .separate),
   -- Cpp20NTTP, :65-89
   (optC tFloat.plain tFloat 0x42280000, .inplace), (optC tDouble.plain tDouble 0x4045000000000000, .inplace),
   (optC tLongDouble.plain tLongDouble 42, .inplace), (optMC 1 tDouble 2 tDouble 0x4045000000000000, .mem),
   (optC literalClass.plain literalClass 0, .inplace), (optMC 7 literalClass 0 literalClass 0, .mem),
   -- OtherTypes, :188-216
   (optM 8 tDouble 0, .mem), (opt testClass.plain, .separate), (opt testClassWithExcept.plain, .separate),
   (opt withInitializerList.plain, .separate)]

/-- tests/ExerciseOptionalAIP.cpp, without the two tests that are disabled with
`TINY_OPTIONAL_USE_SEPARATE_BOOL_INSTEAD_OF_UNUSED_BITS`. -/
def aip : List (Entry × Expect) :=
  ([tShort, tUShort, tInt, tUnsigned, tLong, tULong, tLLong, tULLong].map fun k => (.aip k.plain none, .inplace)) ++
  [(.aip tInt.plain (some (.const ⟨tInt, -1⟩)), .inplace), (.aip tChar.plain (some (.const ⟨tChar, 97⟩)), .inplace),
   (.aip scopedEnum.plain (some (.const ⟨scopedEnum, 2⟩)), .inplace)]

/-- tests/ExerciseOptionalEmptyViaType.cpp, tests/ExerciseOptionalInplace.cpp -/
def viaType : List (Entry × Expect) :=
  [(.viaType Kind.bool.plain .useDefault (.useDefault 0), .bits), (.viaType tDouble.plain .useDefault (.useDefault 0), .bits),
   (.viaType tFloat.plain .useDefault (.useDefault 0), .bits), (.viaType tInt.plain .useDefault (.useDefault 0), .separate),
   (.viaType tInt.plain (.value ⟨tInt, 42⟩) (.useDefault 0), .inplace),
   (.viaType testClassForInplace.plain (.value ⟨tInt, 42⟩) (.memPtr ⟨1, tInt.plain, 0, false, 0⟩), .mem),
   (.viaType testClass.plain .useDefault (.useDefault 0), .separate),
   (.viaType tDouble.plain (.value ⟨tDouble, 0x4045000000000000⟩) (.useDefault 0), .inplace),
   (.viaType testClassForInplace.plain (.value ⟨tDouble, 0x4045000000000000⟩) (.memPtr ⟨1, tDouble.plain, 2, false, 0⟩), .mem),
   (.inplace testClass.plain 7, .inplace)]

/-- tests/ExerciseOptionalWithCustomFlagManipulator.cpp:292-401 -/
def registered : List (Entry × Expect) :=
  [(opt class1.plain, .inplace), (optM 12 class1 1, .mem), (optM 11 tDouble 2, .mem), (optMC 11 tInt 1 tInt (-1), .mem),
   (opt nestedClass.plain, .inplace), (opt outermostClass.plain, .inplace), (opt (const class1), .separate),
   (opt classInHeader.plain, .inplace), (opt testUnscopedEnum.plain, .inplace), (opt testScopedEnum.plain, .inplace),
   (opt specialEnum1.plain, .inplace), (opt specialEnum2.plain, .inplace), (.aip class1.plain none, .inplace)]

def settings : List Settings :=
  [.x64, .x86].flatMap fun a => [false, true].flatMap fun u => [false, true].flatMap fun b => [false, true].map fun m => ⟨u, b, m, a⟩

/-- The reason for which a use of the library is rejected. -/
def errorOf (s : Settings) (e : Entry) : Option Err :=
  match compile (repo s) e with
  | .ok _ => none
  | .error e => some e

def tables (s : Settings) : List (Entry × Expect) := payload1 (dataModel s.arch) ++ payload2 ++ aip ++ viaType ++ registered

/-- All 80-odd expectations hold, for x64 and x86, with and without `TINY_OPTIONAL_USE_SEPARATE_BOOL_INSTEAD_OF_UB_TRICKS` (these are the
builds of .github/workflows), and for all other combinations of the macros except one. -/
example : (settings.all fun s => (s.unusedBits && !s.ubTricks && !s.member) || (tables s).all fun t => passes s t.1 t.2) = true := by
  decide +kernel

/-- With only `TINY_OPTIONAL_USE_SEPARATE_BOOL_INSTEAD_OF_UNUSED_BITS` defined (not tried by the repository) the tests would not compile:
`tiny::optional<C, &C::m>` is rejected if `m` is a `double` or a pointer. See C66. -/
example : let s : Settings := ⟨false, true, false, .x64⟩
    (tables s).filterMap (fun t => errorOf s t.1) =
      [.memberNeedsSentinel, .memberNeedsSentinel, .memberNeedsSentinel, .memberNeedsSentinel] := by
  decide +kernel

/-- tests/ExerciseOptionalAIP.cpp:12-14, 32-35: in place with unused bits; rejected if they are switched off. -/
example : (settings.all fun s => [tDouble.plain, (Kind.ptr 1).plain].all fun t =>
    if s.noBits then errorOf s (.aip t none) == some .missingSentinel else passes s (.aip t none) .inplace) = true := by
  decide +kernel

/-- tests/CompilationErrorTests.cpp:20-51, 118-122, 155-165: the snippets that are about the choice of the storage, with the `static_assert`
that the regular expression asks for. -/
def rejected (s : Settings) : List (Entry × Err) :=
  [-- "The specified compile-time constant for the empty value is outside of the range supported"
   (optC tUnsigned.plain tInt (-1), .sentinel),
   -- "The flag given by the member-pointer is not a member of the payload type"
   (.viaType testClass.plain (.value ⟨tInt, 42⟩) (.memPtr ⟨1, tInt.plain, 0, false, 0⟩), .notAMember),
   -- "is a bool, but not both. If one is a bool, both should be a bool"
   (optC Kind.bool.plain tChar 73, .sentinel),
   -- no conversion from int to an enumeration
   (optC unscopedEnum.plain tInt 4, .sentinel),
   -- "The payload type must meet the C++ requirement 'Destructible'"
   (opt noObject.plain, .payload),
   -- "optional_aip: No automatic sentinel for the PayloadType available"
   (.aip tChar.plain none, .missingSentinel), (.aip testClass.plain none, .missingSentinel)] ++
  -- "The type of the member variable given by the member-pointer cannot be used as flag ..."; only if the macro is not defined (:25)
  (if s.noMem then [] else [(optM 1 tInt 0, .memberNeedsSentinel)])

example : (settings.all fun s => (rejected s).all fun t => errorOf s t.1 == some t.2) = true := by decide +kernel

/-- tests/CompilationErrorTests.cpp:33-37, "The flag given by the member-pointer is not a member of the payload type" with a `double`. With
only `TINY_OPTIONAL_USE_SEPARATE_BOOL_INSTEAD_OF_UNUSED_BITS` the message is a different one. -/
example : (settings.all fun s => errorOf s (.viaType testClass.plain .useDefault (.memPtr ⟨1, tDouble.plain, 0, false, 0⟩)) ==
    some (if s.noBits && !s.noMem then .memberNeedsSentinel else .notAMember)) = true := by decide +kernel

/-! ### tests/IntermediateTests.cpp -/

/-- `test_IsIntegralInRange`, :11-41 -/
example : let u8 : IntTy := ⟨1, false, 0⟩; let i : IntTy := ⟨3, true, 0⟩; let im : IntTy := ⟨4, true, 0⟩; let um : IntTy := ⟨4, false, 0⟩
    let dm := Props.lp64
    isIntegralInRange dm u8 im 0 ∧ isIntegralInRange dm u8 im 255 ∧ ¬isIntegralInRange dm u8 im (-1) ∧ ¬isIntegralInRange dm u8 im 256 ∧
    isIntegralInRange dm im im (im.min dm) ∧ isIntegralInRange dm im im (im.max dm) ∧ ¬isIntegralInRange dm im um (um.max dm) ∧
    isIntegralInRange dm um i 0 ∧ isIntegralInRange dm um um (um.max dm) ∧ ¬isIntegralInRange dm um im (im.min dm) := by
  decide +kernel

/-- `test_SelectDecomposition`, :77-99. The `static_assert` of :97 is in code that cannot be compiled: see `memberNeedsSentinel`. -/
example : (settings.all fun s =>
    let p (t : Kind) (v : SentTy) (m : NTTP) (sp : Specialisation) := match pick (repo s) ⟨t.plain, v, m⟩ with
      | .ok sp' => sp == sp'
      | .error _ => false
    p tInt .useDefault (.useDefault 0) .noArgsAndBehavesAsStdOptional &&
    p testClass .useDefault (.useDefault 0) .noArgsAndBehavesAsStdOptional &&
    p tInt (.value ⟨tInt, 42⟩) (.useDefault 0) .sentinel &&
    p testClassForInplace (.value ⟨tInt, 42⟩) (.memPtr ⟨1, tInt.plain, 0, false, 0⟩) .sentinelAndMemPtr &&
    p tDouble .useDefault (.useDefault 0) (if s.noBits then .noArgsAndBehavesAsStdOptional else .noArgsAndHasCustomFlagManipulator) &&
    p tDouble (.value ⟨tDouble, 42⟩) (.useDefault 0) (if s.noBits then .sentinel else .sentinelForTypeWithCustomFlagManipulator) &&
    p testClassForInplace (.value ⟨tDouble, 42⟩) (.memPtr ⟨1, tDouble.plain, 2, false, 0⟩)
      (if s.noBits then .sentinelAndMemPtr else .sentinelAndMemPtrWithCustomFlagManipulator) &&
    p testClassForInplace .useDefault (.memPtr ⟨1, tDouble.plain, 2, false, 0⟩)
      (if s.noBits then .memPtrWithoutCustomFlagManipulator else .memPtrWithCustomFlagManipulator)) = true := by
  decide +kernel

end Verif.RepoTests
