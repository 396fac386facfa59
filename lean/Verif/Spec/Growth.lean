import Verif.Spec.Reentrant

/-!
# How a vector gets a larger buffer (C92)

[vector.capacity], [vector.modifiers]: if the elements can be moved without exceptions, they are moved to the new buffer, otherwise they are
copied (`std::move_if_noexcept`); if a copy throws, there are no effects. The old elements are the variables below `N`, the new ones those from `N`
on. Elements that can not be copied are moved even if this may throw. Left out: the memory of the buffers, and the element that is added.
-/

namespace Verif
variable {V G : Type}

/-- Destroy the elements `x + n - 1`, …, `x`, then `k`. -/
def destroyAll (x : Nat) : Nat → Prog V G Unit → Prog V G Unit
  | 0, k => k
  | n + 1, k => .call (.dtor (x + n)) fun
    | .ok _ => destroyAll x n k
    | .error e => .ret (.error e)

/-- Fill the new buffer; `i` elements are there, `n` are missing. `nt` is the exception specification of the move constructor of the elements. -/
def fillBuffer (nt : Bool) (N : Nat) : (n i : Nat) → Prog V G Unit
  | 0, _ => destroyAll 0 N (.ret (.ok ()))
  | n + 1, i => .call (if nt then .ctorMove (N + i) i else .ctorCopy (N + i) i) fun
    | .ok _ => fillBuffer nt N n (i + 1)
    | .error e => destroyAll N i (.ret (.error e))

/-- A new buffer for `N` elements. -/
def growth (nt : Bool) (N : Nat) : Prog V G Unit := fillBuffer nt N N 0

namespace Spec

/-- Moves of values of `D` keep the value, and leave values of `D` behind. They may throw. -/
structure Moves (o : Ops V G) (D : V → Prop) : Prop where
  move : ∀ a g b, D a → (o.moveCtor a g).1 = .ok b → b = a
  left : ∀ a g, D a → D (o.moveCtor a g).2.1

/-- The same for copies. -/
structure Faithful (o : Ops V G) (D : V → Prop) : Prop extends Moves o D where
  copy : ∀ a g b, D a → (o.copyCtor a g).1 = .ok b → b = a

end Spec

end Verif
