/-!
# What the standard prescribes for comparing optionals

[optional.relops], [optional.nullops], [optional.comp.with.t] and [optional.spaceship] of C++20. The standard either
fixes the result, or delegates to the comparison of the two contained values.
-/

namespace Verif.Spec

/-- The six relational operators. -/
inductive RelOp where
  | eq | ne | lt | le | gt | ge
deriving DecidableEq, Repr

/-- Results of `<=>`: the values of `std::partial_ordering`. `strong_ordering` and `weak_ordering` convert into it by
keeping the name (`equal`/`equivalent` are one value here). -/
inductive Cmp where
  | less | equal | greater | unordered
deriving DecidableEq, Repr

/-- The order of the reversed operands. -/
def Cmp.flip : Cmp → Cmp
  | .less => .greater
  | .equal => .equal
  | .greater => .less
  | .unordered => .unordered

/-- What a comparison has to do: return a fixed result without running any user code, or compare the two contained values
(exactly once). -/
inductive Answer (R A B : Type) where
  | const (r : R)
  | ask (a : A) (b : B)

variable {A B : Type}

/-- [optional.relops]. `nullopt` stands for an optional without value ([optional.nullops]), a plain value for an optional
that contains it ([optional.comp.with.t]). -/
def stdRel (op : RelOp) : Option A → Option B → Answer Bool A B
  | some a, some b => .ask a b
  | none, none => .const (match op with | .eq | .le | .ge => true | .ne | .lt | .gt => false)
  | none, some _ => .const (match op with | .ne | .lt | .le => true | .eq | .gt | .ge => false)
  | some _, none => .const (match op with | .ne | .gt | .ge => true | .eq | .lt | .le => false)

/-- [optional.spaceship]: `x && y ? *x <=> *y : x.has_value() <=> y.has_value()`. -/
def stdCmp : Option A → Option B → Answer Cmp A B
  | some a, some b => .ask a b
  | none, none => .const .equal
  | none, some _ => .const .less
  | some _, none => .const .greater

/-- [optional.hash]: the hash of the contained value; for an empty optional an unspecified value, which the library fixes
to 0. -/
def stdHash {H : Type} (zero : H) (h : A → H) : Option A → H
  | some a => h a
  | none => zero

end Verif.Spec
