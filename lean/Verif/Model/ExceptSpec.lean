import Verif.Model.FreeSwap
import Verif.Spec.ExceptSpec

/-!
# The exception specifications of the interface (optional.h:955-2803)

Simplification: payload destructors are `noexcept`, so that those of the optionals (978, 1446, 2216) are.
-/

namespace Verif.Model
open Verif.Spec

/-- The special members with their triviality: `tiny::optional` (optional.h:2211-2216), `TinyOptionalImpl` (1441-1446). -/
def specialOf (t : Traits) : OpTy → Members × Trivial
  | .tiny _ _ => optionalTrivial t
  | _ => tinyOptionalImplTrivial t

/-- Comparisons with `nullopt`: every overload is `noexcept`; optional.h:2447, 2454 (`==`), 2493, 2499 (`!=`), 2537, 2543 (`<`), 2581, 2587 (`<=`),
2625, 2631 (`>`), 2669, 2675 (`>=`). With `<=>` (2750) the expressions are rewritten to calls of `noexcept` functions. -/
def relNulloptNoexcept : RelOp → Bool
  | .eq => true
  | .ne => true
  | .lt => true
  | .le => true
  | .gt => true
  | .ge => true

/-- The value of `noexcept(e)`; `none`: ill-formed. (optional.h:955-2803, the lines at each case) -/
def tinyNoexcept (o : OpTy) (t : PayloadTraits) : OptExpr → Option Bool
  /- optional.h:955, through the defaulted constructors up to 1441, 2211 -/
  | .ctorDefault => some true
  /- optional.h:1449, inherited by 2218 -/
  | .ctorNullopt => some true
  /- optional.h:1236, 1442, 2212 -/
  | .ctorCopy => noexceptOf (specialOf t.members o).1.ctorLvalue (specialOf t.members o).2.copyCtor
  /- optional.h:1179, 1443, 2213 -/
  | .ctorMove => noexceptOf (specialOf t.members o).1.ctorRvalue ((specialOf t.members o).2.ctorRvalue (specialOf t.members o).1)
  /- optional.h:1455-1497, no specification -/
  | .ctorInPlace | .ctorList | .ctorValue => some false
  /- optional.h:978, 1446, 2216: implicitly noexcept -/
  | .dtor => some true
  /- optional.h:1517, 2233 -/
  | .assignNullopt => some true
  /- optional.h:1353, 1444, 2214 -/
  | .assignCopy => noexceptOf (specialOf t.members o).1.assignLvalue (specialOf t.members o).2.copyAssign
  /- optional.h:1293-1294, 1445, 2215 -/
  | .assignMove => noexceptOf (specialOf t.members o).1.assignRvalue ((specialOf t.members o).2.assignRvalue (specialOf t.members o).1)
  /- optional.h:1525, 2240-2243 -/
  | .assignValue => some false
  /- optional.h:1533, 1546 -/
  | .emplace | .emplaceList => some false
  /- optional.h:1656-1659, with the static_assert -/
  | .swap =>
    if t.members.moveConstructible && t.swappable then some (t.members.nothrowMoveConstructible && t.nothrowSwappable) else none
  /- optional.h:1561, 1567 -/
  | .arrow => some true
  /- optional.h:1574, 1580, 1586, 1592 -/
  | .deref => some true
  /- optional.h:1555 -/
  | .toBool => some true
  /- optional.h:993 -/
  | .hasValue => some true
  /- optional.h:1599, 1607, 1615, 1623 -/
  | .value => some false
  /- optional.h:1633, 1644 -/
  | .valueOr => some false
  /- optional.h:1681-1730, 1734-1814, 1820-1836, 2253-2269 -/
  | .andThen | .transform | .orElse => some false
  /- optional.h:1136 -/
  | .reset => some true
  /- optional.h:1852, or `std::swap` -/
  | .freeSwap =>
    (selectSwap true ⟨t.members, t.swappable, t.nothrowSwappable⟩ o o).map
      (swapNoexcept ⟨t.members, t.swappable, t.nothrowSwappable⟩ o)
  /- optional.h:2280, 2292, 2304 -/
  | .make => some false
  /- optional.h:2437-2441, 2482-2486, 2527-2530, 2571-2574, 2615-2618, 2659-2662 -/
  | .relOptionals _ => some false
  | .relNullopt op => some (relNulloptNoexcept op)
  /- optional.h:2461-2474, 2506-2519, 2550-2563, 2594-2607, 2638-2651, 2682-2695 -/
  | .relValue _ => some false
  /- optional.h:2710, 2721, 2730, 2739 -/
  | .threeOptionals => some false
  /- optional.h:2750 -/
  | .threeNullopt => some true
  /- optional.h:2757-2762 -/
  | .threeValue => some false
  /- optional.h:2786, 2801 -/
  | .hash => some false

end Verif.Model
