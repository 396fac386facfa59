import Verif.Spec.Overload

/-!
# Assigning to and constructing an optional from one argument

What `std::optional` does with `o = a`, `O o(a)` and `O o = a`: [optional.ctor], [optional.assign]. Types are those of
`Verif.Spec.Overload`; a payload type is described by its traits, about which nothing is assumed.
-/

namespace Verif.Spec

/-- Value category and constness of an expression. -/
inductive Cat where
  | lvalue | constLvalue | rvalue | constRvalue
deriving DecidableEq, Repr

/-- An expression as an argument; for a forwarding reference `U&&` this fixes `U`. -/
structure ArgE where
  ty : OpTy
  cat : Cat
deriving DecidableEq, Repr

/-- An argument: an expression or `{}`. -/
inductive Arg1 where
  | expr (e : ArgE)
  | braces
deriving DecidableEq, Repr

/-- A payload type `P`, that is `ty` with the given qualifiers, and its type traits. -/
structure Payload where
  ty : OpTy
  const : Bool
  volatile : Bool
  /-- `is_scalar_v<P>` -/
  scalar : Bool
  /-- `P` is `bool` (up to qualifiers). -/
  isBool : Bool
  /-- `P` is a specialization of `std::initializer_list`. -/
  initList : Bool
  /-- `P` can be copy-list-initialized from `{}`. -/
  fromBraces : Bool
  /-- `is_constructible_v<P, U>` -/
  constructible : ArgE → Bool
  /-- `is_assignable_v<P&, U>` -/
  assignable : ArgE → Bool
  /-- `is_convertible_v<U, P>` -/
  convertible : ArgE → Bool
  /-- `is_default_constructible_v<P>` -/
  defaultConstructible : Bool

/-- The type of `std::in_place`: one of the types that have nothing to do with optionals. -/
def inPlaceTy : OpTy := .other 0

/-- `P` as a prvalue argument, i.e. `U = P`. (For `const P` the expression is const.) -/
def Payload.prvalue (P : Payload) : ArgE := ⟨P.ty, if P.const then .constRvalue else .rvalue⟩

/-- `is_same_v<decay_t<U>, P>` for a `U` that is neither an array nor a function: `decay_t` drops the qualifiers, so that this
never holds for a qualified `P`. -/
def Payload.isDecayOf (P : Payload) (u : ArgE) : Bool :=
  decide (u.ty = P.ty) && !P.const && !P.volatile

/-- Specializations of optional class templates. -/
def isOptional : OpTy → Bool
  | .tiny _ _ => true
  | .impl _ _ => true
  | .std _ => true
  | _ => false

/-- [optional.assign]: the constraints of `template<class U = T> optional& operator=(U&& v)`. `self` is the type of the optional. -/
def StdAssignable (self : OpTy) (P : Payload) (u : ArgE) : Prop :=
  u.ty ≠ self ∧ ¬(P.scalar = true ∧ P.isDecayOf u = true) ∧ P.constructible u = true ∧ P.assignable u = true

/-- [optional.ctor]: the constraints of `template<class U = T> constexpr explicit(see below) optional(U&& v)`; the last condition
has been added by LWG 3836 (C++23). -/
def StdConstructible (self : OpTy) (P : Payload) (u : ArgE) : Prop :=
  P.constructible u = true ∧ u.ty ≠ inPlaceTy ∧ u.ty ≠ self ∧ (P.isBool = true → isOptional u.ty = false)

/-- The class hierarchy: `t` is `s` or is derived from it. `tiny::optional` is derived from another tiny optional. -/
inductive DerivesFrom : OpTy → OpTy → Prop where
  | refl (t : OpTy) : DerivesFrom t t
  | tiny (p : OpTy) (v : Nat) {s : OpTy} : DerivesFrom (.impl p v) s → DerivesFrom (.tiny p v) s
  | derived {b s : OpTy} (n : Nat) : DerivesFrom b s → DerivesFrom (.derived b n) s

/-- The two types have no class in common: none is derived from the other or from a base of the other. -/
def Unrelated (self t : OpTy) : Prop := ∀ s, DerivesFrom self s → ¬DerivesFrom t s

/-- The type of a tiny optional, as opposed to a class derived from one by the user. -/
def IsTinyOptional : OpTy → Prop
  | .tiny _ _ => True
  | .impl _ _ => True
  | _ => False

end Verif.Spec
