import Verif.Spec.Address

/-!
# All expressions of the library that take an address of a payload or flag, or construct an object

Simplification: the pointers passed to `std::memcpy` and `std::memcmp` besides (`&valueToIndicateEmpty`, optional.h:734, 747) point to integers
(426, 437, 451, 492, 497) and are left out.
-/

namespace Verif.Model.Address
open Verif.Spec.Address

/-- Places where an object is constructed. (optional.h:240, 840, 1062, 1067, 1096, 1101) -/
inductive NewSite where
  /-- `sentinel_flag_manipulator::init_empty_flag`, optional.h:240 -/
  | sentinelFlag
  /-- `AssignmentFlagManipulator::init_empty_flag`, optional.h:840-841 -/
  | assignmentFlag
  /-- `ConstructPayload`, optional.h:1062-1063, the payload's constructor is noexcept -/
  | payloadNothrow
  /-- `ConstructPayload`, optional.h:1067-1068 -/
  | payload
  /-- `ConstructPayloadFromFunction`, optional.h:1096-1097, the payload's constructor is noexcept -/
  | functionNothrow
  /-- `ConstructPayloadFromFunction`, optional.h:1101-1102 -/
  | function
deriving DecidableEq, Repr

/-- The new expressions. (optional.h:240, 840-841, 1062-1063, 1067-1068, 1096-1097, 1101-1102) -/
def newExpr : NewSite → NewExpr
  | .sentinelFlag => ⟨true, .amp⟩
  | .assignmentFlag => ⟨true, .toVoid .addressof⟩
  | .payloadNothrow => ⟨true, .toVoid .addressof⟩
  | .payload => ⟨true, .toVoid .addressof⟩
  | .functionNothrow => ⟨true, .toVoid .addressof⟩
  | .function => ⟨true, .toVoid .addressof⟩

/-- Places where the address is used otherwise. (optional.h:733, 746, 1564, 1570) -/
inductive PtrSite where
  /-- `MemcpyAndCmpFlagManipulator::is_empty`, optional.h:733 -/
  | memcmp
  /-- `MemcpyAndCmpFlagManipulator::init_empty_flag`, optional.h:746 -/
  | memcpy
  /-- `operator->()`, optional.h:1564, and its `const` overload, 1570 -/
  | arrow
deriving DecidableEq, Repr

/-- The pointer expressions. (optional.h:733, 746, 1564, 1570) -/
def ptrExpr : PtrSite → Expr
  | .memcmp => .toVoid .addressof
  | .memcpy => .toVoid .addressof
  | .arrow => .addressof

/-- The type that the place needs: `void const *`, `void *` (parameters of `std::memcmp` and `std::memcpy`, optional.h:732, 745), `PayloadType *` or
`PayloadType const *` (results, 1561, 1567; the `const` and `volatile` of the payload and of the optional are those of the operand). -/
def ptrNeeds (T : Ty) : PtrSite → PtrTy
  | .memcmp => .void
  | .memcpy => .void
  | .arrow => .object T.isConst T.isVolatile

/-- The operand of the `static_assert`, optional.h:836-838, without the assignment. -/
def checkedExpr : Expr := .removeCV .amp

/-- The `static_assert`, optional.h:836-838, for a flag whose assignment operator is noexcept (`nt`) or not; `none`: its operand is ill-formed. -/
def assignCheck (T : Ty) (nt : Bool) : Option Bool :=
  (checkedExpr.eval T 0).map fun _ => checkedExpr.nothrow T && nt

/-- `init_empty_flag` of `AssignmentFlagManipulator`, optional.h:832-842: the address of the new flag; `none`: does not compile. -/
def assignmentInit (T : Ty) (nt : Bool) (a : Nat) : Option Nat :=
  if assignCheck T nt = some true then (newExpr .assignmentFlag).eval T a else none

end Verif.Model.Address
