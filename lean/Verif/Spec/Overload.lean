import Verif.Spec.Compare

/-!
# Which comparison is meant by `l @ r`

The operand types of comparison expressions and how `std::optional`'s rules ([optional.relops], [optional.nullops],
[optional.comp.with.t]) want each operand to be regarded.
-/

namespace Verif.Spec

/-- Types of operands. `other` are all types that have nothing to do with optionals; `derived b n` is the `n`-th class that is
publicly derived from `b`. -/
inductive OpTy where
  /-- `tiny::optional<p, ...>`; `variant` stands for the remaining template arguments. -/
  | tiny (p : OpTy) (variant : Nat)
  /-- Any other tiny optional: `optional_inplace`, `optional_sentinel_via_type`, ... -/
  | impl (p : OpTy) (variant : Nat)
  | std (p : OpTy)
  | nullopt
  | other (n : Nat)
  | derived (b : OpTy) (n : Nat)
deriving DecidableEq, Repr

/-- How an operand has to be regarded. -/
inductive Role where
  | opt | nullopt | value
deriving DecidableEq, Repr

/-- Optionals are compared as optionals, also via a derived class; everything that is neither an optional nor `nullopt` is a
value. -/
def role : OpTy → Role
  | .tiny _ _ => .opt
  | .impl _ _ => .opt
  | .std _ => .opt
  | .nullopt => .nullopt
  | .other _ => .value
  | .derived b _ => role b

/-- A tiny optional or a class derived from one. -/
def IsTiny : OpTy → Bool
  | .tiny _ _ => true
  | .impl _ _ => true
  | .derived b _ => IsTiny b
  | _ => false

/-- `std::optional` itself. -/
def IsStd : OpTy → Bool
  | .std _ => true
  | _ => false

def IsDerived : OpTy → Bool
  | .derived _ _ => true
  | _ => false

/-- Classes may be derived from tiny optionals and from types that have nothing to do with optionals, but not from
`std::optional` or `std::nullopt_t`. -/
def Ordinary : OpTy → Bool
  | .derived b _ => IsTiny b || role b == .value
  | _ => true

/-- The operands considered: at least one is a tiny optional, and no derived class meets a `std::optional`. -/
def Considered (l r : OpTy) : Bool :=
  (IsTiny l || IsTiny r) && Ordinary l && Ordinary r &&
  !(IsStd l && IsDerived r) && !(IsDerived l && IsStd r)

/-- The type whose values are compared in the end: the content of an optional, or the value itself. -/
def compared : OpTy → OpTy
  | .tiny p _ => p
  | .impl p _ => p
  | .std p => p
  | .nullopt => .nullopt
  | .other n => .other n
  | .derived b n => if role b = .opt then compared b else .derived b n

/-- Comparison operators of the language. -/
inductive CmpOp where
  | rel (r : RelOp)
  | three
deriving DecidableEq, Repr

end Verif.Spec
