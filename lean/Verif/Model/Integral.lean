import Verif.Spec.Integers

/-!
# `IsIntegralInRange` (optional.h:354-380) and `ConvertSentinelToFlagType` (optional.h:775-812)
-/

namespace Verif.Model
open Verif.Spec

variable (dm : DataModel)

/-- The branch of `IsIntegralInRange` for equal signedness, optional.h:359-363. The comparison `<=` of two values of the
common type compares their numeric values. -/
def inRangeSameSign (target source : IntTy) (v : Int) : Bool :=
  let c := commonType dm target source
  decide (c.cast dm (target.min dm) ≤ c.cast dm v) && decide (c.cast dm v ≤ c.cast dm (target.max dm))

/-- `IsIntegralInRange<TargetT>(SourceT value)`, optional.h:354-380. The recursive call of the second branch has two
unsigned types and hence ends in the first branch. -/
def isIntegralInRange (target source : IntTy) (v : Int) : Bool :=
  if target.signed = source.signed then
    inRangeSameSign dm target source v
  else if source.signed then
    decide (v ≥ 0) && inRangeSameSign dm target source.makeUnsigned (source.makeUnsigned.cast dm v)
  else
    let c := commonType dm source target.makeUnsigned
    decide (c.cast dm v ≤ c.cast dm (target.max dm))

/-- Kinds of types that can be the flag type or the type of `SentinelValue::value`. (optional.h:775-812) -/
inductive Kind where
  | bool
  | int (t : IntTy)
  /-- a floating point type -/
  | flt (id : Nat)
  | ptr (id : Nat)
  | nullptr
  /-- unscoped enumeration with the given underlying type -/
  | enumUnscoped (id : Nat) (underlying : IntTy)
  /-- scoped enumeration (`enum class`) -/
  | enumScoped (id : Nat) (underlying : IntTy)
  /-- pointer to member -/
  | memPtr (id : Nat)
  /-- class type without implicit conversions -/
  | cls (id : Nat)
deriving DecidableEq, Repr

/-- A compile-time constant. `val` is its numeric value (bool: 0/1; integers and enumerations: the value; floating point:
the bit pattern; pointers: the address; pointers to members: 0 for null; classes: an identification of the value). (`SentinelValue::value` in optional.h:775-812) -/
structure Const where
  kind : Kind
  val : Int

/-- Implicit conversion in `return SentinelValue::value;` (optional.h:810) for the types that reach that line:
identity, or conversion of an unscoped enumeration to an integer type ([conv.prom], [conv.integral]; not an error even if
the value changes, since copy-initialisation permits narrowing), or of `nullptr_t` to a pointer or pointer to member
([conv.ptr], [conv.mem]). Everything else does not compile. Simplification: user-defined conversions and conversions between different
pointer types (to `void *`, to base classes, to more qualified types) are not represented. -/
def implicitConv (flag : Kind) (c : Const) : Option Int :=
  if flag = c.kind then some c.val
  else match flag, c.kind with
    | .int t, .enumUnscoped _ _ => some (t.cast dm c.val)
    | .ptr _, .nullptr | .memPtr _, .nullptr => some 0
    | _, _ => none

/-- `AssignmentFlagManipulator::ConvertSentinelToFlagType()`, optional.h:775-812. `none`: the program is ill-formed
(a `static_assert` fails, or there is no implicit conversion). -/
def convertSentinel (flag : Kind) (c : Const) : Option Int :=
  if flag = .bool ∨ c.kind = .bool then
    if flag = c.kind then some c.val else none
  else match flag, c.kind with
    | .int t, .int s => if isIntegralInRange dm t s c.val then some (t.cast dm c.val) else none
    | .flt a, k => if Kind.flt a = k then some c.val else none
    | k, .flt b => if k = Kind.flt b then some c.val else none
    | f, _ => implicitConv dm f c

/-- The value that `sentinel_flag_manipulator<T, s>::init_empty_flag` creates for an integer payload type `T` and an integer
constant `s`: `PayloadType(SentinelValue)`, optional.h:240. -/
def sentinelManipInit (payload : IntTy) (sentinel : Int) : Int := payload.cast dm sentinel

/-- `sentinel_flag_manipulator<T, s>::is_empty`: `payload == SentinelValue`, optional.h:235, where `s` has the integer type
`source`. Both operands are promoted and undergo the usual arithmetic conversions. -/
def sentinelManipIsEmpty (payload source : IntTy) (sentinel : Int) (value : Int) : Bool :=
  let c := arithConv dm (payload.promote dm) (source.promote dm)
  c.cast dm value == c.cast dm sentinel

end Verif.Model
