import Verif.Model.Assign

/-!
# `make_optional` and class template argument deduction (optional.h:2274-2308)

Language rules that are part of the model: deduction of the template arguments ([temp.deduct.call]), ranking of the conversions
([over.ics.rank]), partial ordering of the three function templates ([temp.func.order]), and for class template argument deduction the
copy deduction candidate ([over.match.class.deduct]) with its place in the ranking ([over.match.best]).

Simplifications: arguments are neither arrays nor functions nor volatile, explicitly specified payload types are no references,
and no class is derived from `std::initializer_list`. The constructors inherited from the base class take no part in class template
argument deduction (they do since C++23, but the template arguments of the base class are not deducible).
-/

namespace Verif.Model
open Verif.Spec

/-- How a braced list converts to the explicitly specified payload type. (for optional.h:2279-2308) -/
inductive ListConv where
  /-- e.g. `{5}` or `{}` to `int` -/
  | identity
  /-- by a constructor, or with conversions of the elements -/
  | other
deriving DecidableEq, Repr

/-- An argument of `make_optional<T, ...>`. (for optional.h:2279-2308) -/
inductive MArg where
  | expr (e : ArgE)
  /-- A braced list. `elem`: the type deduced for `U` in `std::initializer_list<U>`, `none` for `{}` and if the types differ;
  `toT`: its conversion to the payload type. -/
  | list (elem : Option OpTy) (toT : Option ListConv)
deriving DecidableEq, Repr

/-- The type `tiny::optional<T, ...>` with the qualifiers of `T`; `variant` stands for the other template arguments.
(optional.h:2195-2201) -/
structure OptTy where
  payload : OpTy
  const : Bool
  volatile : Bool
  variant : Nat
deriving DecidableEq, Repr

/-- `UseDefaultValue` for both of the other template arguments. (optional.h:163-171) -/
def defaultVariant : Nat := 0

/-- How the returned optional is initialized. (optional.h:2283, 2294, 2308) -/
inductive Build where
  /-- `optional<...>{std::forward<PayloadType>(v)}` (2283); `e` is the forwarded expression. -/
  | value (e : ArgE)
  /-- `optional<...>{std::forward<PayloadType>(v)}` where `v` is bound to a temporary of the payload type made from the argument. -/
  | temporary (a : MArg)
  /-- `optional<...>{std::in_place, std::forward<ArgsT>(args)...}` (2294) -/
  | inPlace (args : List ArgE)
  /-- `optional<...>{std::in_place, il, std::forward<ArgsT>(args)...}` (2308); `a` is the argument for `il`. -/
  | inPlaceList (a : MArg) (args : List ArgE)
deriving DecidableEq, Repr

/-- `make_optional(e)` without explicit template arguments. Only the first overload (optional.h:2279-2284) is viable: the payload type of the
others cannot be deduced. For an lvalue `PayloadType` is deduced as reference, which `std::decay_t` removes like the qualifiers. -/
def makeDeduced (e : ArgE) : OptTy × Build := (⟨e.ty, false, false, defaultVariant⟩, .value e)

/-- The three overloads (optional.h:2279-2308), in their order. -/
inductive MFun where
  | value | inPlace | list
deriving DecidableEq, Repr

/-- Conversions of the first argument. `qualified`: a reference to a more qualified type is bound directly. `toList`: list to
`std::initializer_list`. (for optional.h:2279-2308) -/
inductive MConv where
  | identity | qualified | worse | toList
deriving DecidableEq, Repr

/-- Conversion to `PayloadType && v` (optional.h:2280) with an explicitly specified object type: an rvalue reference. -/
def toRvalue (P : Payload) : MArg → Option MConv
  | .expr e =>
    if e.ty = P.ty then
      match e.cat with
      | .rvalue => if P.const || P.volatile then some .qualified else some .identity
      | .constRvalue => if !P.const then none else if P.volatile then some .qualified else some .identity
      | _ => none
    else if isBaseOf P.ty e.ty then
      match e.cat with
      | .rvalue => some .worse
      | .constRvalue => if P.const then some .worse else none
      | _ => none
    else if P.convertible e then some .worse
    else none
  | .list _ (some .identity) => some .identity
  | .list _ (some .other) => some .worse
  | .list _ none => none

/-- The expressions among the arguments, if all of them are expressions: a forwarding reference deduces nothing from a list.
(optional.h:2292, 2305) -/
def exprs : List MArg → Option (List ArgE)
  | [] => some []
  | .expr e :: as => (exprs as).map (e :: ·)
  | .list _ _ :: _ => none

/-- Conversion of the first argument in a call of `make_optional<T, ...>(args...)`, if the overload is viable. The conversions of the
other arguments are identities. `isIL`: the specializations of `std::initializer_list`. (for optional.h:2279-2308) -/
def makeConv (isIL : OpTy → Bool) (P : Payload) (args : List MArg) : MFun → Option MConv
  | .value => match args with
    | [a] => toRvalue P a
    | _ => none
  | .inPlace => (exprs args).map fun _ => .identity
  | .list => match args with
    | .expr e :: as => if isIL e.ty then (exprs as).map fun _ => .identity else none
    | .list (some _) _ :: as => (exprs as).map fun _ => .toList
    | _ => none

/-- [over.ics.rank]. The conversion of a list to `std::initializer_list` is the best one; an identity beats other conversions; of two
reference bindings the less qualified one is better (the parameter of the third overload is no reference). (for optional.h:2279-2308) -/
def MConv.better (f g : MFun) : MConv → MConv → Bool
  | .toList, .toList => false
  | .toList, _ => true
  | _, .toList => false
  | .identity, .worse => true
  | .qualified, .worse => true
  | .identity, .qualified => f != .list && g != .list
  | _, _ => false

/-- [temp.func.order]: `std::initializer_list<U>` is more specialized than `PayloadType&&` and `ArgsT&&...`, and a parameter more than
a pack. (for optional.h:2279-2308) -/
def MFun.moreSpecialized : MFun → MFun → Bool
  | .list, .value => true
  | .list, .inPlace => true
  | .value, .inPlace => true
  | _, _ => false

/-- [over.match.best] (for optional.h:2279-2308) -/
def makeBetter (c : MFun → Option MConv) (f g : MFun) : Bool :=
  match c f, c g with
  | some i, some j => MConv.better f g i j || (!MConv.better g f j i && f.moreSpecialized g)
  | some _, none => true
  | _, _ => false

/-- The overload selected. (among optional.h:2279-2308) -/
def selectMake (isIL : OpTy → Bool) (P : Payload) (args : List MArg) : Option MFun :=
  let c := makeConv isIL P args
  [MFun.value, .inPlace, .list].find? fun f => (c f).isSome && [MFun.value, .inPlace, .list].all fun g => f == g || makeBetter c f g

/-- What the selected overload returns. In the first overload the result type has `std::decay_t<PayloadType>` as payload (optional.h:2279), in
the others `PayloadType`. -/
def makeWith (P : Payload) (variant : Nat) : MFun → List MArg → Option (OptTy × Build)
  | .value, [.expr e] => some (⟨P.ty, false, false, variant⟩,
      if e.ty = P.ty then .value P.prvalue else .temporary (.expr e))
  | .value, [.list u t] => some (⟨P.ty, false, false, variant⟩, .temporary (.list u t))
  | .inPlace, as => (exprs as).map fun es => (⟨P.ty, P.const, P.volatile, variant⟩, .inPlace es)
  | .list, a :: as => (exprs as).map fun es => (⟨P.ty, P.const, P.volatile, variant⟩, .inPlaceList a es)
  | _, _ => none

/-- `make_optional<P, ...>(args...)` with the other template arguments `variant`. (optional.h:2279-2308) -/
def makeExplicit (isIL : OpTy → Bool) (P : Payload) (variant : Nat) (args : List MArg) : Option (OptTy × Build) :=
  (selectMake isIL P args).bind fun f => makeWith P variant f args

/-! ## Class template argument deduction -/

/-- The guides for `optional(e)`: the user-declared one (optional.h:2274-2276), those of the copy and the move constructor (2212-2213), and the
copy deduction candidate. -/
inductive Guide where
  | user | copyCtor | moveCtor | copyCand
deriving DecidableEq, Repr

/-- The specialization of `tiny::optional` that is the class or a base of it, with the number of derived-to-base steps. (for
optional.h:2212-2213) -/
def tinyBase : OpTy → Option (OpTy × Nat)
  | .tiny p v => some (.tiny p v, 0)
  | .derived b _ => (tinyBase b).map fun (t, n) => (t, n + 1)
  | _ => none

/-- Conversion of the argument and deduced type. (for optional.h:2274-2276, 2212-2213) -/
def guideIcs (e : ArgE) : Guide → Option (Ics × OpTy)
  | .user => some (.std 0 .value, .tiny e.ty defaultVariant)
  | .copyCtor => (tinyBase e.ty).map fun (t, n) => (.std n .lref, t)
  | .moveCtor => if e.cat = .rvalue then (tinyBase e.ty).map fun (t, n) => (.std n .rref, t) else none
  | .copyCand => (tinyBase e.ty).map fun (t, n) => (.std n .value, t)

/-- [over.match.best]: conversions; then the more specialized guide (`optional<...>` is more specialized than `T`); then the copy
deduction candidate. (for optional.h:2274-2276, 2212-2213) -/
def guideBetter (e : ArgE) (f g : Guide) : Bool :=
  match guideIcs e f, guideIcs e g with
  | some (i, _), some (j, _) =>
    i.better j || (!j.better i && ((f != .user && g == .user) || (f == .copyCand && g != .user)))
  | some _, none => true
  | _, _ => false

/-- The type deduced for `optional(e)` or `optional{e}`. (optional.h:2274-2276, 2212-2213) -/
def deduce (e : ArgE) : Option OpTy :=
  let gs := [Guide.user, .copyCtor, .moveCtor, .copyCand]
  (gs.find? fun f => (guideIcs e f).isSome && gs.all fun g => f == g || guideBetter e f g).bind fun f => (guideIcs e f).map (·.2)

end Verif.Model
