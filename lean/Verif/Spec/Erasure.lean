import Verif.Spec.Growth

/-!
# How a vector erases an element (C93)

[vector.modifiers]: `erase` calls the move assignment operator once for every element behind the erased one, and the destructor once. The elements
are the variables below `N`. Left out: the memory of the vector and its size.
-/

namespace Verif
variable {V G : Type}

/-- Move up the `n` elements behind `i`, destroy the last one. -/
def shiftLeft : (n i : Nat) → Prog V G Unit
  | 0, i => .call (.dtor i) fun
    | .ok _ => .ret (.ok ())
    | .error e => .ret (.error e)
  | n + 1, i => .call (.assignMove i (i + 1)) fun
    | .ok _ => shiftLeft n (i + 1)
    | .error e => .ret (.error e)

/-- Erase the element `k` of a vector with `N` elements. -/
def erasure (N k : Nat) : Prog V G Unit := shiftLeft (N - 1 - k) k

namespace Spec

/-- Move construction and move assignment of values of `D` keep the value, and leave values of `D` in both operands, also if they throw. -/
structure Movable (o : Ops V G) (D : V → Prop) : Prop extends Moves o D where
  assign : ∀ a b g, D a → D b → (o.moveAssign a b g).1 = none → (o.moveAssign a b g).2.1 = b
  target : ∀ a b g, D a → D b → D (o.moveAssign a b g).2.1
  source : ∀ a b g, D a → D b → D (o.moveAssign a b g).2.2.1

end Spec

end Verif
