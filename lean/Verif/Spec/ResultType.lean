import Verif.Spec.Compare

/-!
# Expressions with operands of class type that convert to `bool`

`*lhs == *rhs` may have any type that is convertible to `bool`. Rules of the language for `&&`, `||` and `?:` with such operands, and
what `std::optional` does with them.
-/

namespace Verif.Spec.Res
open Verif.Spec

/-- Type of an expression: `bool` or a class. -/
inductive RTy where
  | bool
  | cls (k : Nat)
deriving DecidableEq

/-- Conversion function to `bool` (or to another arithmetic or pointer type). -/
inductive Conv where
  | implicit | explicit | none
deriving DecidableEq

/-- The classes of a program, at compile time and at run time. Objects are numbers. -/
structure Classes where
  conv : Nat → Conv
  /-- constructor from `bool` that is not explicit -/
  fromBool : Nat → Bool
  /-- return type of the user's `operator||(bool, C)`, if there is one -/
  orOp : Nat → Option RTy
  /-- return type of the user's `operator&&(bool, C)` -/
  andOp : Nat → Option RTy
  /-- value of the conversion -/
  toBool : Nat → Nat → Bool
  /-- result of the user's `operator||` -/
  orFn : Nat → Bool → Nat → Nat
  /-- result of the user's `operator&&` -/
  andFn : Nat → Bool → Nat → Nat

/-- Value of an expression. -/
inductive Val where
  | bool (b : Bool)
  | obj (k n : Nat)
deriving DecidableEq

/-- The value of the type that the number stands for. -/
def RTy.val : RTy → Nat → Val
  | .bool, n => .bool (n != 0)
  | .cls k, n => .obj k n

def Val.type : Val → RTy
  | .bool _ => .bool
  | .obj k _ => .cls k

/-- Expressions in the comparison operators. -/
inductive E where
  /-- an expression made of the `has_value()` of the two sides -/
  | flag (f : Bool → Bool → Bool)
  /-- the comparison of the payloads -/
  | cmp
  | lit (b : Bool)
  | and (a b : E)
  | or (a b : E)
  | cond (c a b : E)

section
variable (C : Classes)

/-- `e` can be converted to `bool` by a `return` statement. -/
def RTy.implicit : RTy → Bool
  | .bool => true
  | .cls k => C.conv k == .implicit

/-- `e` can be an operand of the built-in `&&` or `||` ([conv]/4). -/
def RTy.contextual : RTy → Bool
  | .bool => true
  | .cls k => C.conv k != .none

/-- The user's operator for `bool` and the type, if any. -/
def userOp (op : Nat → Option RTy) : RTy → Option RTy
  | .bool => none
  | .cls k => op k

/-- `a && b`, `a || b` where `a` is a `bool`: a user's operator is preferred to the built-in one, since it needs no conversion. -/
def logicType (op : Nat → Option RTy) (a b : RTy) : Option RTy :=
  if a ≠ .bool then none
  else match userOp op b with
    | some r => some r
    | none => if b.contextual C then some .bool else none

/-- `c ? a : b` where one of `a` and `b` is a prvalue of class type and the other one is a `bool` prvalue, [expr.cond]/4: exactly one of
the operands can be converted to the type of the other one. -/
def condType : RTy → RTy → Option RTy
  | .bool, .bool => some .bool
  | .cls k, .bool | .bool, .cls k =>
    match C.conv k == .implicit, C.fromBool k with
    | true, false => some .bool
    | false, true => some (.cls k)
    | _, _ => none
  | .cls k, .cls k' => if k = k' then some (.cls k) else none

/-- The type of the expression, if it is well-formed; `t` is the type of the comparison of the payloads. -/
def E.type (t : RTy) : E → Option RTy
  | .flag _ => some .bool
  | .cmp => some t
  | .lit _ => some .bool
  | .and a b => (a.type t).bind fun x => (b.type t).bind fun y => logicType C C.andOp x y
  | .or a b => (a.type t).bind fun x => (b.type t).bind fun y => logicType C C.orOp x y
  | .cond c a b => (c.type t).bind fun z => if z = .bool then (a.type t).bind fun x => (b.type t).bind fun y => condType C x y else none

/-- `return e;` in a function that returns `bool` is well-formed. -/
def E.compiles (t : RTy) (e : E) : Bool :=
  match e.type C t with
  | some r => r.implicit C
  | none => false

/-- Conversion to `bool`. -/
def Val.toBool : Val → Bool
  | .bool b => b
  | .obj k n => C.toBool k n

/-- Evaluation of an expression, where `l`, `r`: the sides have values; `v`: the result of the comparison of the payloads. The outcome
is the value and how often the payloads were compared; `none`: they were compared although one does not exist. A user's operator
evaluates both operands, the built-in one the second one only if needed. -/
def E.eval (v : Val) (l r : Bool) : E → Option (Val × Nat)
  | .flag f => some (.bool (f l r), 0)
  | .cmp => if l && r then some (v, 1) else none
  | .lit b => some (.bool b, 0)
  | .and a b => (a.eval v l r).bind fun x =>
    match (b.type C v.type).bind (userOp C.andOp) with
    | some t => (b.eval v l r).map fun y => (match y.1 with
      | .obj k n => t.val (C.andFn k (x.1.toBool C) n)
      | .bool b => .bool b, x.2 + y.2)
    | none => if x.1.toBool C then (b.eval v l r).map fun y => (.bool (y.1.toBool C), x.2 + y.2) else some (.bool false, x.2)
  | .or a b => (a.eval v l r).bind fun x =>
    match (b.type C v.type).bind (userOp C.orOp) with
    | some t => (b.eval v l r).map fun y => (match y.1 with
      | .obj k n => t.val (C.orFn k (x.1.toBool C) n)
      | .bool b => .bool b, x.2 + y.2)
    | none => if x.1.toBool C then some (.bool true, x.2) else (b.eval v l r).map fun y => (.bool (y.1.toBool C), x.2 + y.2)
  | .cond c a b => (c.eval v l r).bind fun z =>
    (if z.1.toBool C then a.eval v l r else b.eval v l r).map fun x =>
      (match (E.type C v.type a).bind fun ta => (E.type C v.type b).bind fun tb => condType C ta tb with
        | some .bool => .bool (x.1.toBool C)
        | _ => x.1, z.2 + x.2)

/-- What the function returns. -/
def E.returns (v : Val) (l r : Bool) (e : E) : Option (Bool × Nat) := (e.eval C v l r).map fun x => (x.1.toBool C, x.2)

end

/-- `std::optional`, [optional.relops]: the comparison of the payloads has to be convertible to `bool`. -/
def stdCompiles (C : Classes) (t : RTy) : Bool := t.implicit C

/-- `std::optional`, [optional.relops], [optional.comp.with.t]: the returned value, and how often the payloads are compared. -/
def stdCompare (C : Classes) (op : RelOp) (v : Val) (l r : Bool) : Bool × Nat :=
  match stdRel op (if l then some () else none) (if r then some () else none) with
  | .const b => (b, 0)
  | .ask _ _ => (v.toBool C, 1)

end Verif.Spec.Res
