import Verif.Spec.Trivial
import Verif.Spec.Compare

/-!
# The exception specifications of `std::optional`

[optional.optional.general], [optional.relops] to [optional.specalg] of C++20: which expressions are `noexcept`. Besides the written
specifications there is one that follows from triviality: a trivial function is not user-provided, so its specification is that of the
trivial functions it calls ([except.spec]). Nothing here describes tiny-optional.
-/

namespace Verif.Spec

/-- The payload type. -/
structure PayloadTraits where
  members : Traits
  trivial : TrivialTraits
  /-- `std::is_swappable_v` -/
  swappable : Bool
  /-- `std::is_nothrow_swappable_v` -/
  nothrowSwappable : Bool

/-- A trivial function is usable and does not throw; `is_nothrow_…` implies `is_…`. The former is an assumption about the payload: a function
can be defaulted and have an explicit `noexcept(false)`. -/
structure PayloadTraits.OK (t : PayloadTraits) : Prop where
  copyCtor : t.trivial.copyConstructible = true → t.members.copyConstructible = true
  moveCtor : t.trivial.moveConstructible = true → t.members.nothrowMoveConstructible = true
  copyAssign : t.trivial.copyAssignable = true → t.members.copyAssignable = true
  moveAssign : t.trivial.moveAssignable = true → t.members.nothrowMoveAssignable = true
  nothrowMoveCtor : t.members.nothrowMoveConstructible = true → t.members.moveConstructible = true
  nothrowMoveAssign : t.members.nothrowMoveAssignable = true → t.members.moveAssignable = true
  nothrowSwap : t.nothrowSwappable = true → t.swappable = true

/-- Expressions with optionals `o`, `p` of type `O`. -/
inductive OptExpr where
  /-- `O()`, `O(nullopt)` -/
  | ctorDefault | ctorNullopt
  /-- `O(o)`, `O(std::move(o))` -/
  | ctorCopy | ctorMove
  /-- `O(in_place, args...)`, `O(in_place, {...}, args...)`, `O(v)` -/
  | ctorInPlace | ctorList | ctorValue
  /-- the destructor -/
  | dtor
  /-- `o = nullopt`, `o = p`, `o = std::move(p)`, `o = v` -/
  | assignNullopt | assignCopy | assignMove | assignValue
  /-- `o.emplace(args...)`, `o.emplace({...}, args...)` -/
  | emplace | emplaceList
  /-- `o.swap(p)` -/
  | swap
  /-- `o->m`, `*o`, `bool(o)`, `o.has_value()`, `o.value()`, `o.value_or(v)` -/
  | arrow | deref | toBool | hasValue | value | valueOr
  | andThen | transform | orElse
  /-- `o.reset()` -/
  | reset
  /-- `swap(o, p)` after `using std::swap;`, the subject of `std::is_nothrow_swappable` -/
  | freeSwap
  /-- `make_optional(...)` -/
  | make
  /-- `o @ p`, `o @ nullopt` or `nullopt @ o`, `o @ v` or `v @ o` for a relational operator -/
  | relOptionals (op : RelOp) | relNullopt (op : RelOp) | relValue (op : RelOp)
  /-- the same for `<=>` -/
  | threeOptionals | threeNullopt | threeValue
  /-- `std::hash<O>{}(o)` -/
  | hash
deriving DecidableEq, Repr

/-- A special member function that overload resolution found: `noexcept` if specified, or if trivial. `none`: ill-formed. -/
def noexceptOf (found : Option (Action × Bool)) (trivial : Bool) : Option Bool := found.map fun p => p.2 || trivial

/-- The value of `noexcept(e)` for `std::optional`; `none`: ill-formed. `std::swap` for optionals takes part only for swappable payloads
([optional.specalg]). -/
def stdNoexcept (t : PayloadTraits) : OptExpr → Option Bool
  | .ctorDefault | .ctorNullopt | .dtor | .assignNullopt | .arrow | .deref | .toBool | .hasValue | .reset => some true
  | .ctorCopy => noexceptOf (stdOptional t.members).ctorLvalue (stdTrivial t.members t.trivial).2.copyCtor
  | .ctorMove => noexceptOf (stdOptional t.members).ctorRvalue
      ((stdTrivial t.members t.trivial).2.ctorRvalue (stdTrivial t.members t.trivial).1)
  | .assignCopy => noexceptOf (stdOptional t.members).assignLvalue (stdTrivial t.members t.trivial).2.copyAssign
  | .assignMove => noexceptOf (stdOptional t.members).assignRvalue
      ((stdTrivial t.members t.trivial).2.assignRvalue (stdTrivial t.members t.trivial).1)
  | .swap | .freeSwap =>
    if t.members.moveConstructible && t.swappable then some (t.members.nothrowMoveConstructible && t.nothrowSwappable) else none
  | .relNullopt _ | .threeNullopt => some true
  | .ctorInPlace | .ctorList | .ctorValue | .assignValue | .emplace | .emplaceList | .value | .valueOr | .andThen | .transform | .orElse
  | .make | .relOptionals _ | .relValue _ | .threeOptionals | .threeValue | .hash => some false

/-- `std::move_if_noexcept`, by which containers move their elements when they grow: move unless that may throw and copying is possible.
`copy`, `move`: `noexcept` of the two constructions. -/
def movesOnGrowth (copy move : Option Bool) : Bool := move == some true || copy.isNone

end Verif.Spec
