import Verif.Model.Assign
import Verif.Model.SpecialMembers
import Verif.Model.Optional

/-!
# Unqualified calls of `swap` (optional.h:1840-1855, [utility.swap])

`swap(a, b)` for modifiable lvalues `a`, `b`. Simplification: the payload's namespace contains no further `swap` that accepts
optionals.
-/

namespace Verif.Model
open Verif.Spec

/-- Traits of the payload for swapping, in addition to those of the special members. (optional.h:1656-1659, 1846-1848) -/
structure SwapTraits where
  members : Traits
  /-- `is_swappable_v<P>` -/
  swappable : Bool
  /-- `is_nothrow_swappable_v<P>` -/
  nothrowSwappable : Bool

/-- The functions that a call `swap(a, b)` can select. (optional.h:1842-1855) -/
inductive SwapFn where
  /-- `impl::swap`, which calls the member function -/
  | tiny
  /-- `template<class T> void std::swap(T&, T&)` -/
  | generic
deriving DecidableEq, Repr

/-- Special members of an optional type: `TinyOptionalImpl` or `tiny::optional`. Classes derived by the user declare nothing.
(optional.h:1441-1446, 2211-2216) -/
def membersOf (t : Traits) : OpTy → Members
  | .tiny _ _ => optionalMembers t
  | .derived b _ => resolve (membersOf t b) ⟨.undeclared, .undeclared, .undeclared, .undeclared, false⟩
  | _ => tinyOptionalImpl t

/-- `TinyOptionalImpl` instance from which a tiny optional type is derived, with the number of steps. (optional.h:2199-2201) -/
def implBase : OpTy → Option (OpTy × Nat)
  | .tiny p v => some (.impl p v, 1)
  | .impl p v => some (.impl p v, 0)
  | .derived b _ => (implBase b).map fun (t, n) => (t, n + 1)
  | _ => none

/-- `impl::swap` (optional.h:1842-1855): the template arguments deduced from both operands have to agree; the payload has to be move
constructible and swappable. The result are the conversions of the operands. -/
def tinySwapViable (t : SwapTraits) (l r : OpTy) : Option (Nat × Nat) :=
  match implBase l, implBase r with
  | some (a, m), some (b, n) => if a = b ∧ t.members.moveConstructible = true ∧ t.swappable = true then some (m, n) else none
  | _, _ => none

/-- `std::swap` ([utility.swap]): both operands have the same type `T`, which is move constructible and move assignable. Both
conversions are the identity. `visible`: by a using-declaration, or because `std` is associated with a template argument. (competes with
optional.h:1842-1855) -/
def genericSwapViable (visible : Bool) (t : SwapTraits) (l r : OpTy) : Bool :=
  visible && decide (l = r) && (membersOf t.members l).ctorRvalue.isSome && (membersOf t.members l).assignRvalue.isSome

/-- Overload resolution: the identity conversion beats a derived-to-base conversion; if all conversions are identities,
`impl::swap` is more specialised. (among optional.h:1842-1855 and `std::swap`) -/
def selectSwap (visible : Bool) (t : SwapTraits) (l r : OpTy) : Option SwapFn :=
  match tinySwapViable t l r, genericSwapViable visible t l r with
  | some (m, n), true => if m = 0 ∧ n = 0 then some .tiny else some .generic
  | some _, false => some .tiny
  | none, true => some .generic
  | none, false => none

/-- The exception specification of the selected function: `noexcept(noexcept(lhs.swap(rhs)))` (optional.h:1852) with the member's (1656-1657),
or `is_nothrow_move_constructible_v<T> && is_nothrow_move_assignable_v<T>`. -/
def swapNoexcept (t : SwapTraits) (l : OpTy) : SwapFn → Bool
  | .tiny => t.members.nothrowMoveConstructible && t.nothrowSwappable
  | .generic => ((membersOf t.members l).ctorRvalue.map (·.2)).getD false && ((membersOf t.members l).assignRvalue.map (·.2)).getD false

section
variable {V G : Type} (Γ : Env V G)

twice
/-- Body of the generic `std::swap`: `T tmp(std::move(a)); a = std::move(b); b = std::move(tmp);` for optionals with a move constructor
and a move assignment. Simplifications: a payload that can be copied but not moved (the optional is then copied) and the termination by
the exception specification, which holds only if nothing throws. (calls optional.h:1443, 1445) -/
def genericSwap (x y tmp : Nat) : M V G Unit := do
  moveCtor Γ tmp x
  onThrow (do moveAssign Γ x y; moveAssign Γ y tmp) (dtor Γ tmp)
  dtor Γ tmp

twice
/-- `swap(x, y)` as selected. (optional.h:1842-1855) -/
def freeSwap (x y tmp : Nat) : SwapFn → M V G Unit
  | .tiny => swap Γ x y
  | .generic => genericSwap Γ x y tmp

end

end Verif.Model
