/-!
# Constant evaluation

When a function can be called in a constant expression, which class types are literal types, and how objects with static storage
duration are initialised.
-/

namespace Verif.Spec.Constexpr

/-- The functions of a program: which are declared (or implicitly) `constexpr`, and for each possible execution the functions that it calls. -/
structure Functions (F : Type) where
  isConstexpr : F → Bool
  executions : F → List (List F)

/-- Some call of the function is a constant expression: the function is `constexpr`, and so are, in some execution, all functions that are called,
in turn. ([expr.const]) -/
inductive Functions.Usable {F : Type} (P : Functions F) : F → Prop where
  | mk (f : F) (calls : List F) : P.isConstexpr f = true → calls ∈ P.executions f → (∀ g ∈ calls, P.Usable g) → P.Usable f

/-- The edition of the standard. -/
inductive Edition where
  | cpp17
  | cpp20
deriving DecidableEq, Repr

/-- What matters of a class for [basic.types]. -/
structure Class where
  aggregate : Bool
  /-- it has a `constexpr` constructor that is no copy or move constructor -/
  constexprCtor : Bool
  trivialDtor : Bool
  constexprDtor : Bool
  membersLiteral : Bool

/-- A literal type: until C++17 with a trivial, since C++20 with a `constexpr` destructor. -/
def Class.literal (c : Class) : Edition → Bool
  | .cpp17 => c.trivialDtor && (c.aggregate || c.constexprCtor) && c.membersLiteral
  | .cpp20 => c.constexprDtor && (c.aggregate || c.constexprCtor) && c.membersLiteral

/-- Initialisation of an object with static storage duration by a call of a constructor: constant initialisation if the call can be a
constant expression, otherwise zero-initialisation followed by a call at run time. ([basic.start.static]) -/
inductive StaticInit where
  | constant
  | zeroThenDynamic
deriving DecidableEq, Repr

end Verif.Spec.Constexpr
