/-!
# Taking addresses and constructing objects at an address

The language rules for `&e`, `std::addressof(e)`, casts of pointers, `new (p) T` and `::new (p) T`, where `e` is an lvalue of the type `T`,
and the user of the library may have overloaded the unary `&` and the allocation functions.
-/

namespace Verif.Spec.Address

/-- What an overloaded unary `&` returns. -/
inductive AmpResult where
  /-- a pointer to `T`, with the `const` and `volatile` of the operand; to which address, given the address of the operand -/
  | pointer (to : Nat → Nat)
  /-- something that is not convertible to a pointer -/
  | other

/-- An overloaded unary `&`. -/
structure Amp where
  result : AmpResult
  nothrow : Bool

/-- An allocation function with a placement argument: the address that it returns for the given one. -/
abbrev Alloc := Nat → Nat

/-- A type, as far as this matters: -/
structure Ty where
  isConst : Bool
  isVolatile : Bool
  /-- overloaded unary `&` with an operand of this type -/
  amp : Option Amp
  /-- the class has a member `operator new(std::size_t, void*)`, which hides the global ones -/
  classNew : Option Alloc
  /-- there is a global `operator new(std::size_t, T*)`, besides the `operator new(std::size_t, void*)` of the standard library, which
  returns its argument -/
  globalNew : Option Alloc

/-- Types of pointers: to `T`, with or without `const` and `volatile`, and `void*`. -/
inductive PtrTy where
  | object (isConst isVolatile : Bool)
  | void
deriving DecidableEq, Repr

/-- A value: a pointer of some type. -/
structure Ptr where
  ty : PtrTy
  addr : Nat
deriving DecidableEq, Repr

/-- Pointer expressions with one operand, an lvalue. -/
inductive Expr where
  /-- `&e` -/
  | amp
  /-- `std::addressof(e)` -/
  | addressof
  /-- `const_cast<void *>(static_cast<void volatile const *>(p))` -/
  | toVoid (p : Expr)
  /-- `const_cast<std::remove_cv_t<T> *>(p)` -/
  | removeCV (p : Expr)
deriving DecidableEq, Repr

/-- The value of an expression for an operand of type `T` at address `a`; `none`: ill-formed. -/
def Expr.eval (T : Ty) (a : Nat) : Expr → Option Ptr
  | .amp =>
    match T.amp with
    | none => some ⟨.object T.isConst T.isVolatile, a⟩
    | some ⟨.pointer f, _⟩ => some ⟨.object T.isConst T.isVolatile, f a⟩
    | some ⟨.other, _⟩ => none
  | .addressof => some ⟨.object T.isConst T.isVolatile, a⟩
  | .toVoid p => (p.eval T a).map fun r => ⟨.void, r.addr⟩
  | .removeCV p => (p.eval T a).bind fun r =>
    match r.ty with
    | .object _ _ => some ⟨.object false false, r.addr⟩
    | .void => none

/-- `noexcept(p)` -/
def Expr.nothrow (T : Ty) : Expr → Bool
  | .amp => match T.amp with
    | none => true
    | some f => f.nothrow
  | .addressof => true
  | .toVoid p => p.nothrow T
  | .removeCV p => p.nothrow T

/-- Implicit conversion to `void *`. -/
def Ptr.convertsToVoid (p : Ptr) : Bool := p.ty == .void || p.ty == .object false false

/-- Overload resolution among the global allocation functions with one placement argument. -/
def globalAlloc (T : Ty) (p : Ptr) : Option Nat :=
  match T.globalNew, p.ty with
  | some f, .object false false => some (f p.addr)
  | _, _ => if p.convertsToVoid then some p.addr else none

/-- A new expression with placement argument: `::new (p) T(…)` if `global`, else `new (p) T(…)`. -/
structure NewExpr where
  global : Bool
  placement : Expr

/-- The address at which the new object is constructed. -/
def NewExpr.eval (T : Ty) (a : Nat) (n : NewExpr) : Option Nat :=
  (n.placement.eval T a).bind fun p =>
    match n.global, T.classNew with
    | false, some f => if p.convertsToVoid then some (f p.addr) else none
    | _, _ => globalAlloc T p

end Verif.Spec.Address
