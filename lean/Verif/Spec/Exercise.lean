import Verif.Spec.History

/-!
# The repository's own test `ExerciseOptional` (tests/Exercises.h:89-785)

The tests are run by the repository for `std::optional` as well (tests/ExerciseStdOptional.cpp), so that they tie the specification to
the observed behaviour of `std::optional`. Each test is a list of calls together with the outcome that the test asserts
(`ASSERT_TRUE(AreEqual(o.value(), v))` is the call `value` with the outcome `v`; a call without assertion must not throw).
`ASSERT_TRUE(EmptyOrNoContainer(o.value()))` for a moved-from optional becomes: the value is the one that a move leaves behind.

Left out: assertions on types and addresses (`static_assert`, `&o == &returned`; C37, C56), `o = {}` (C52), callables whose result is
an optional of a different type. `using std::swap; swap(o1, o2)` is the call `o1.swap(o2)` or the generic `std::swap` (C53); both are here.
-/

namespace Verif.Spec
variable {V G : Type}

/-- A payload type as assumed by the tests: copies are equal to the original, `moved v` is what a move leaves behind. Calls may have any
effect on the rest of the program. -/
structure Regular (o : Ops V G) (moved : V → V) : Prop where
  copyCtor : ∀ v g, (o.copyCtor v g).1 = .ok v
  moveCtor : ∀ v g, (o.moveCtor v g).1 = .ok v ∧ (o.moveCtor v g).2.1 = moved v
  copyAssign : ∀ d s g, (o.copyAssign d s g).1 = none ∧ (o.copyAssign d s g).2.1 = s
  moveAssign : ∀ d s g, (o.moveAssign d s g).1 = none ∧ (o.moveAssign d s g).2.1 = s ∧ (o.moveAssign d s g).2.2.1 = moved s
  swap : ∀ a b g, (o.swap a b g).1 = none ∧ (o.swap a b g).2.1 = b ∧ (o.swap a b g).2.2.1 = a

/-- A call and its asserted outcome. -/
abbrev Step (V G : Type) := Op V G × SRes (Obs V)

section
/- `v1`, `v2`: `validValueToAssign1`, `validValueToAssign2`; `c`: `value_type{constructorArgs...}`; `nt`: construction of the payload from a
test value is noexcept; `eff`: its effect on the rest of the program; `scalar`: the payload type is a scalar (assignment of a value goes
through a temporary optional, C42, C52). -/
variable (v1 v2 c : V) (moved : V → V) (nt scalar : Bool) (eff : G → G)

/-- A test value as argument of a constructor. -/
def testArg (v : V) : Arg V G := .ext nt fun g => (.ok v, eff g)
/-- `o = v`. -/
def testAssign (x : Nat) (v : V) : Op V G :=
  if scalar then .assignScalar x 9 (testArg nt eff v) else .assignVal x (.ext (fun _ g => (none, v, eff g)) nt fun g => (.ok v, eff g))

/-- `Optional o;` -/
def mkEmpty (x : Nat) : Step V G := (.ctorDefault x, .ok .unit)
/-- `Optional o(v);` -/
def mk (x : Nat) (v : V) : Step V G := (.ctorInPlace x (testArg nt eff v), .ok .unit)
/-- A call without asserted result. -/
def call (o : Op V G) : Step V G := (o, .ok .unit)
/-- `ASSERT_TRUE(o.has_value())`, `ASSERT_FALSE(o.has_value())` -/
def has (x : Nat) (b : Bool) : Step V G := (.hasValue x, .ok (.bool b))
/-- `ASSERT_TRUE(AreEqual(o.value(), v))` -/
def isVal (x : Nat) (v : V) : Step V G := (.value x, .ok (.val v))
/-- `EXPECT_EXCEPTION(o.value(), std::bad_optional_access)` -/
def noVal (x : Nat) : Step V G := (.value x, .throw .badOptionalAccess)
/-- The end of the scope. -/
def done (x : Nat) : Step V G := (.dtor x, .ok .unit)

/-- `std::swap(o1, o2)`: three moves. -/
def stdSwap (x y : Nat) : List (Step V G) :=
  [call (.ctorMove 8 x), call (.assignMove x y), call (.assignMove y 8), done 8]

/-- A callable that must not be called (`FAIL()`): it would throw. -/
def failing1 {α : Type} : V → G → Except Exn α × V × G := fun v g => (.error (.user 0), v, g)
def failing0 {α : Type} : G → Except Exn α × G := fun g => (.error (.user 0), g)

/-- tests/Exercises.h:138-781. -/
def exercise : List (String × List (Step V G)) :=
  [("Constructor_Default", [mkEmpty 0, has 0 false, done 0]),
   ("Constructor_Nullopt", [mkEmpty 0, has 0 false, done 0]),
   ("Constructor_CopyOfEmpty", [mkEmpty 0, call (.ctorCopy 1 0), has 1 false, done 1, done 0]),
   ("Constructor_CopyOfNonEmpty", [mkEmpty 0, call (testAssign nt scalar eff 0 v1), call (.ctorCopy 1 0), has 0 true, has 1 true,
      isVal 0 v1, isVal 1 v1, done 1, done 0]),
   ("Constructor_MoveOfEmpty", [mkEmpty 0, call (.ctorMove 1 0), has 1 false, has 0 false, done 1, done 0]),
   ("Constructor_MoveOfNonEmpty", [mk nt eff 0 v1, call (.ctorMove 1 0), has 0 true, isVal 0 (moved v1), has 1 true, isVal 1 v1, done 1, done 0]),
   ("Constructor_inplace", [mk nt eff 0 c, has 0 true, isVal 0 c, done 0]),
   ("Constructor_fromValueViaParentheses", [mk nt eff 0 v1, has 0 true, isVal 0 v1, done 0]),
   ("Constructor_fromValueViaBraces", [mk nt eff 0 v1, has 0 true, isVal 0 v1, done 0]),
   ("Constructor_moveFromValue", [mk nt eff 0 v1, has 0 true, isVal 0 v1, done 0]),
   ("Assignment_nulloptToEmpty", [mkEmpty 0, has 0 false, call (.assignNullopt 0), has 0 false, done 0]),
   ("Assignment_nulloptToNonEmpty", [mk nt eff 0 v1, has 0 true, call (.assignNullopt 0), has 0 false, done 0]),
   ("Assignment_EmptyToEmpty", [mkEmpty 0, has 0 false, mkEmpty 1, call (.assignCopy 1 0), has 1 false, done 1, done 0]),
   ("Assignment_EmptyToNonEmpty", [mk nt eff 0 v1, has 0 true, mkEmpty 1, call (.assignCopy 0 1), has 0 false, done 1, done 0]),
   ("Assignment_NonEmptyToNonEmpty", [mk nt eff 0 v1, has 0 true, mk nt eff 1 v2, has 1 true, call (.assignCopy 1 0), has 1 true,
      isVal 1 v1, isVal 0 v1, done 1, done 0]),
   ("Assignment_NonEmptyToEmpty", [mk nt eff 0 v1, has 0 true, mkEmpty 1, has 1 false, call (.assignCopy 1 0), has 1 true,
      isVal 1 v1, isVal 0 v1, done 1, done 0]),
   ("Assignment_MoveOfEmptyToEmpty", [mkEmpty 0, mkEmpty 1, call (.assignMove 1 0), has 0 false, has 1 false, done 1, done 0]),
   ("Assignment_MoveOfNonEmptyToEmpty", [mk nt eff 0 v1, mkEmpty 1, call (.assignMove 1 0), has 0 true, isVal 0 (moved v1), has 1 true,
      isVal 1 v1, done 1, done 0]),
   ("Assignment_MoveOfNonEmptyToNonEmpty", [mk nt eff 0 v1, mk nt eff 1 v2, call (.assignMove 1 0), has 0 true, isVal 0 (moved v1),
      has 1 true, isVal 1 v1, done 1, done 0]),
   ("Assignment_MoveOfEmptyToNonEmpty", [mkEmpty 0, mk nt eff 1 v1, has 1 true, call (.assignMove 1 0), has 0 false, has 1 false,
      done 1, done 0]),
   ("Assignment_PayloadToEmpty", [mkEmpty 0, call (testAssign nt scalar eff 0 v1), has 0 true, isVal 0 v1, done 0]),
   ("Assignment_PayloadToNonEmpty", [mk nt eff 0 v1, call (testAssign nt scalar eff 0 v2), has 0 true, isVal 0 v2, done 0]),
   ("Assignment_MovePayloadToEmpty", [mkEmpty 0, call (testAssign nt scalar eff 0 v1), has 0 true, isVal 0 v1, done 0]),
   ("Emplace_ToEmpty", [mkEmpty 0, (.emplace 0 (testArg nt eff c), .ok (.val c)), has 0 true, isVal 0 c, done 0]),
   ("Emplace_ToNonEmpty", [mk nt eff 0 v1, (.emplace 0 (testArg nt eff c), .ok (.val c)), has 0 true, isVal 0 c, done 0]),
   ("ResetOfEmpty", [mkEmpty 0, call (.reset 0), has 0 false, call (.reset 0), has 0 false, done 0]),
   ("ResetOfNonEmpty", [mk nt eff 0 v1, has 0 true, call (.reset 0), has 0 false, done 0]),
   ("OperatorBool", [mkEmpty 0, has 0 false, has 0 false, mk nt eff 1 v1, has 1 true, has 1 true, done 1, done 0]),
   ("pointerOperator", [mk nt eff 0 v1, (.deref 0, .ok (.val v1)), isVal 0 v1, done 0]),
   ("dereferenceForNonEmpty", [mk nt eff 0 v1, (.deref 0, .ok (.val v1)), done 0,
      -- the value is moved out by the test itself
      mk nt eff 2 v1, (.deref 2, .ok (.val v1)), call (.modify 2 fun v g => (none, moved v, g)), has 2 true, isVal 2 (moved v1), done 2]),
   ("valueForNonEmpty", [mk nt eff 0 v1, isVal 0 v1, done 0,
      mk nt eff 2 v1, isVal 2 v1, call (.modify 2 fun v g => (none, moved v, g)), has 2 true, isVal 2 (moved v1), done 2]),
   ("valueForEmpty", [mkEmpty 0, noVal 0, noVal 0, done 0]),
   ("value_or_ForNonEmpty", [mk nt eff 0 v1, (.valueOr false 0 fun g => (.ok v2, g), .ok (.val v1)), done 0,
      mk nt eff 1 v1, (.valueOr true 1 fun g => (.ok v2, g), .ok (.val v1)), isVal 1 (moved v1), done 1]),
   ("value_or_ForEmpty", [mkEmpty 0, (.valueOr false 0 fun g => (.ok v1, g), .ok (.val v1)), has 0 false, done 0,
      mkEmpty 1, (.valueOr true 1 fun g => (.ok v1, g), .ok (.val v1)), has 1 false, done 1]),
   ("swapOfEmptyAndEmpty", [mkEmpty 0, mkEmpty 1, call (.swap 0 1), has 0 false, has 1 false, done 1, done 0]),
   ("swapOfNonEmptyAndNonEmpty", [mk nt eff 0 v1, mk nt eff 1 v2, call (.swap 0 1), isVal 0 v2, isVal 1 v1, done 1, done 0]),
   ("swapOfEmptyAndNonEmpty", [mkEmpty 0, mk nt eff 1 v2, call (.swap 0 1), isVal 0 v2, has 1 false, done 1, done 0]),
   ("swapOfNonEmptyAndEmpty", [mk nt eff 0 v1, mkEmpty 1, call (.swap 0 1), has 0 false, isVal 1 v1, done 1, done 0]),
   ("swapOfEmptyAndEmpty, std::swap", [mkEmpty 0, mkEmpty 1] ++ stdSwap 0 1 ++ [has 0 false, has 1 false, done 1, done 0]),
   ("swapOfNonEmptyAndNonEmpty, std::swap", [mk nt eff 0 v1, mk nt eff 1 v2] ++ stdSwap 0 1 ++ [isVal 0 v2, isVal 1 v1, done 1, done 0]),
   ("swapOfEmptyAndNonEmpty, std::swap", [mkEmpty 0, mk nt eff 1 v2] ++ stdSwap 0 1 ++ [isVal 0 v2, has 1 false, done 1, done 0]),
   ("swapOfNonEmptyAndEmpty, std::swap", [mk nt eff 0 v1, mkEmpty 1] ++ stdSwap 0 1 ++ [has 0 false, isVal 1 v1, done 1, done 0]),
   ("and_then_ForEmpty", [mkEmpty 0, call (.andThen 0 1 failing1), has 1 false, done 1, done 0]),
   ("and_then_ForNonEmpty", [mk nt eff 0 v1, call (.andThen 0 1 fun v g => (.ok (some v2), v, g)), isVal 1 v2, done 1, isVal 0 v1, done 0]),
   ("transform_ForEmpty", [mkEmpty 0, call (.transform nt 0 1 failing1), has 1 false, done 1, done 0]),
   ("transform_ForNonEmpty", [mk nt eff 0 v1, call (.transform nt 0 1 fun v g => (.ok v2, v, g)), isVal 1 v2, done 1, isVal 0 v1, done 0]),
   ("or_else_ForEmpty", [mkEmpty 0, call (.orElse false 0 1 fun g => (.ok none, g)), has 1 false, done 1,
      call (.orElse false 0 1 fun g => (.ok (some v1), g)), isVal 1 v1, done 1,
      call (.orElse true 0 1 fun g => (.ok none, g)), has 1 false, done 1,
      call (.orElse true 0 1 fun g => (.ok (some v1), g)), isVal 1 v1, done 1, done 0]),
   ("or_else_ForNonEmpty", [mk nt eff 0 v1, call (.orElse false 0 1 failing0), isVal 1 v1, done 1,
      call (.orElse true 0 1 failing0), isVal 1 v1, done 1, done 0])]

end
end Verif.Spec
