import Verif.Model.Make
import Verif.Model.Quals

/-!
# The constructors from `in_place_t` and `emplace` (optional.h:1455-1470, 1532-1553)

Arguments as for `make_optional`: expressions and braced lists. With further arguments behind `in_place_t` no other constructor is viable: the
constructor for `transform` (1473-1477) needs a tag to which `in_place_t` does not convert, all others have one parameter. (`in_place_t` as
the only argument is part of `Model.Assign`.)
-/

namespace Verif.Model
open Verif.Spec

/-- What the model needs to know about types: which ones are specializations of `std::initializer_list`, which one is
`std::initializer_list<U>`, and `std::is_constructible_v<PayloadType, Args...>` for all argument lists. (optional.h:1462-1470, 1541-1552)
-/
structure ListTypes where
  isIL : OpTy → Bool
  ilTy : OpTy → OpTy
  constructible : List ArgE → Bool

/-- The two overloads: `ArgsT &&... args` and `std::initializer_list<U> ilist, ArgsT &&... args`. (optional.h:1455-1470, 1532-1552) -/
inductive PFun where
  | pack | list
deriving DecidableEq, Repr

/-- The type of the parameter `ilist` if the argument is accepted ([temp.deduct.call]): `U` is deduced from an initializer list object
or from the elements of a braced list. (optional.h:1466, 1546) -/
def listParam (L : ListTypes) : MArg → Option OpTy
  | .expr e => if L.isIL e.ty then some e.ty else none
  | .list (some u) _ => some (L.ilTy u)
  | .list none _ => none

/-- The expression `ilist` in the body: a parameter by value is a modifiable lvalue. (optional.h:1467, 1549) -/
def ilistExpr (t : OpTy) : ArgE := ⟨t, .lvalue⟩

/-- The arguments that the constraint asks for and the body passes on, if deduction succeeds: `ArgsT...` respectively
`std::initializer_list<U> &, ArgsT...`. (optional.h:1455-1470, 1532-1552) -/
def bodyArgs (L : ListTypes) (args : List MArg) : PFun → Option (List ArgE)
  | .pack => exprs args
  | .list => match args with
    | a :: as => (listParam L a).bind fun t => (exprs as).map (ilistExpr t :: ·)
    | [] => none

/-- Which overloads of the constructor are viable: both are constrained by `is_constructible_v` (optional.h:1455, 1462-1465). -/
def ctorViable (L : ListTypes) (args : List MArg) (f : PFun) : Bool :=
  match bodyArgs L args f with
  | some es => L.constructible es
  | none => false

/-- Which overloads of `emplace` are viable: only the second one is constrained (optional.h:1532, 1541-1544). -/
def emplaceViable (L : ListTypes) (args : List MArg) (f : PFun) : Bool :=
  match f, bodyArgs L args f with
  | .pack, some _ => true
  | .list, some es => L.constructible es
  | _, none => false

/-- [over.match.best], [temp.func.order]: if both are viable, all arguments are expressions and all conversions identities, and the
overload with `std::initializer_list<U>` is more specialized. (for optional.h:1455-1470, 1532-1552) -/
def pfunBetter : PFun → PFun → Bool
  | .list, .pack => true
  | _, _ => false

/-- The overload selected. (among optional.h:1455-1470, 1532-1552) -/
def selectP (viable : PFun → Bool) : Option PFun :=
  [PFun.pack, .list].find? fun f => viable f && [PFun.pack, .list].all fun g => g == f || !viable g || pfunBetter f g

/-- Translation of value categories. (for the forwarding references in optional.h:1456, 1533) -/
def toCat (q : Qual) : Cat :=
  match q.const, q.rvalue with
  | false, false => .lvalue
  | true, false => .constLvalue
  | false, true => .rvalue
  | true, true => .constRvalue

/-- The other way round. (for the forwarding references in optional.h:1456, 1533) -/
def ofCat : Cat → Qual
  | .lvalue => ⟨false, false⟩
  | .constLvalue => ⟨true, false⟩
  | .rvalue => ⟨false, true⟩
  | .constRvalue => ⟨true, true⟩

/-- One step of perfect forwarding: `ArgT && arg`, then `std::forward<ArgT>(arg)`. (optional.h:962-967, 1044-1072) -/
def forwardE (e : ArgE) : ArgE := ⟨e.ty, toCat (forwardQ (deduceFwd (ofCat e.cat)))⟩

/-- The arguments of the placement new in `ConstructPayload` (optional.h:1062, 1069). The overload forwards its arguments - except `ilist` - to the
constructor of `StorageBase` (1457, 1467), that one to `ConstructPayload` (962-967), which forwards once more. -/
def constructorArgs (L : ListTypes) (args : List MArg) (f : PFun) : Option (List ArgE) :=
  match f with
  | .pack => (bodyArgs L args .pack).map fun es => ((es.map forwardE).map forwardE).map forwardE
  | .list => match bodyArgs L args .list with
    | some (il :: es) => some (((il :: es.map forwardE).map forwardE).map forwardE)
    | _ => none

/-- The same for `emplace`, which calls `ConstructPayload` itself (optional.h:1536, 1549). -/
def emplaceArgs (L : ListTypes) (args : List MArg) (f : PFun) : Option (List ArgE) :=
  match f with
  | .pack => (bodyArgs L args .pack).map fun es => (es.map forwardE).map forwardE
  | .list => match bodyArgs L args .list with
    | some (il :: es) => some ((il :: es.map forwardE).map forwardE)
    | _ => none

/-- `optional(in_place, args...)`: the arguments of the payload's constructor; `none` if it does not compile: no overload, or the placement new
is ill-formed. (optional.h:1455-1470) -/
def inPlaceCall (L : ListTypes) (args : List MArg) : Option (List ArgE) :=
  (selectP (ctorViable L args)).bind fun f => (constructorArgs L args f).filter L.constructible

/-- Whether the constructor takes part in overload resolution, i.e. `std::is_constructible_v<optional, in_place_t, ...>`.
(optional.h:1455, 1465) -/
def inPlaceParticipates (L : ListTypes) (args : List MArg) : Bool := (selectP (ctorViable L args)).isSome

/-- `o.emplace(args...)`. (optional.h:1532-1552) -/
def emplaceCall (L : ListTypes) (args : List MArg) : Option (List ArgE) :=
  (selectP (emplaceViable L args)).bind fun f => (emplaceArgs L args f).filter L.constructible

end Verif.Model
