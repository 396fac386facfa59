import Verif.Spec.Erasure

/-!
# How a vector with spare capacity inserts an element (C94)

The elements are the variables below `N`, `N` is free, `t` is a temporary with the new element. Left out: the memory of the vector and its size.
-/

namespace Verif
variable {V G : Type}

/-- Move down the `n` elements from `k` on, assign `t` to `k`. -/
def shiftRight (t k : Nat) : (n : Nat) → Prog V G Unit
  | 0 => .call (.assignMove k t) fun
    | .ok _ => .ret (.ok ())
    | .error e => .ret (.error e)
  | n + 1 => .call (.assignMove (k + n + 1) (k + n)) fun
    | .ok _ => shiftRight t k n
    | .error e => .ret (.error e)

/-- Insert `t` before the element `k` of a vector with `N` elements. -/
def insertion (t N k : Nat) : Prog V G Unit :=
  .call (.ctorMove N (N - 1)) fun
    | .ok _ => shiftRight t k (N - 1 - k)
    | .error e => .ret (.error e)

end Verif
