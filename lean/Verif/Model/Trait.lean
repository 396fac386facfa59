/-!
# `is_tiny_optional_v` (optional.h:250-269)

The trait calls one of two function templates with an explicit template argument; the first one is usable if `U const *` is a type
and `U::is_tiny_optional` is a constant expression that converts to `true`. So everything depends on class member lookup of the
name `is_tiny_optional`.

Simplifications. There are no virtual base classes (without them no declaration found in one base class can hide one found in
another). Classes are complete and do not befriend the trait. Using-declarations count as declarations.
-/

namespace Verif.Model

/-- What a class declares under the name `is_tiny_optional`. (looked up in optional.h:253) -/
structure Member where
  /-- whether the declaration is public -/
  isPublic : Bool
  /-- `U::is_tiny_optional` as a converted constant expression of type `bool`; `none` if it is ill-formed (a non-static member, a
  function, a type, no constant, a narrowing conversion). -/
  asBool : Option Bool
deriving DecidableEq, Repr

mutual
/-- Class types. (the argument of optional.h:252-262) -/
inductive Cls where
  /-- `entity` identifies the class, `own` is the declaration of `is_tiny_optional` in the class itself, if any. `library` says whether
  the class is defined by the library; of course nothing in the trait depends on that. -/
  | mk (library : Bool) (entity : Nat) (own : Option Member) (bases : Bases)
/-- Lists of base classes, each with the information whether it is a public one. (of the argument of optional.h:252-262) -/
inductive Bases where
  | nil
  | cons (isPublic : Bool) (c : Cls) (rest : Bases)
end

/-- A declaration found by lookup: the class whose member it is, the declaration, whether it can be accessed as a member of the class
in which the lookup started. (for optional.h:253) -/
structure Found where
  entity : Nat
  member : Member
  accessible : Bool
deriving DecidableEq, Repr

mutual
/-- Class member lookup ([class.member.lookup]) without the check for ambiguities: a declaration in the class itself hides those
of the base classes. (for optional.h:253) -/
def Cls.lookup : Cls → List Found
  | .mk _ e (some m) _ => [⟨e, m, m.isPublic⟩]
  | .mk _ _ none bs => bs.lookup
/-- The union over the base classes; a member of a base class that is not public cannot be accessed. (for optional.h:253) -/
def Bases.lookup : Bases → List Found
  | .nil => []
  | .cons pub c rest => (c.lookup.map fun f => { f with accessible := f.accessible && pub }) ++ rest.lookup
end

/-- The member that `U::is_tiny_optional` refers to, if it is unambiguous and accessible. The same static member may be found along
several paths; then the access along one of them suffices. (Non-static members have `asBool = none` anyway.) (for optional.h:253) -/
def Cls.member (c : Cls) : Option Member :=
  match c.lookup with
  | [] => none
  | f :: fs =>
    if fs.all (fun g => g.entity == f.entity) then
      if (f :: fs).any (·.accessible) then some f.member else none
    else none

/-- Types, as far as it matters here. (the argument in optional.h:268-269) -/
inductive TraitTy where
  | cls (c : Cls) (const volatile : Bool)
  /-- lvalue and rvalue references -/
  | ref (lvalue : Bool) (t : TraitTy)
  | ptr (t : TraitTy)
  | array (t : TraitTy)
  /-- `void`, arithmetic types, enumerations, `nullptr_t`, pointers to members, function types -/
  | other

/-- Whether `U const *` is a type: there are no pointers to references. (`const` is ignored for function types.) (optional.h:253) -/
def TraitTy.pointable : TraitTy → Bool
  | .ref _ _ => false
  | _ => true

/-- `U::is_tiny_optional` as a converted constant expression of type `bool`. (optional.h:253) -/
def TraitTy.marker : TraitTy → Option Bool
  | .cls c _ _ => c.member.bind (·.asBool)
  | _ => none

/-- The two function templates. (optional.h:252-262) -/
inductive Helper where
  /-- `IsTinyOptionalHelper(U const *)` (252-256) -/
  | pointer
  /-- `IsTinyOptionalHelper(...)` (258-262) -/
  | ellipsis
deriving DecidableEq, Repr

/-- Whether substitution of the explicit template argument `U` succeeds (optional.h:253: `enable_if_t<U::is_tiny_optional, bool>` is a type only
for `true`). -/
def Helper.viable (u : TraitTy) : Helper → Bool
  | .pointer => u.pointable && u.marker == some true
  | .ellipsis => true

/-- Overload resolution for the argument `nullptr`: the null pointer conversion is better than the ellipsis. (optional.h:269) -/
def selectHelper (u : TraitTy) : Helper :=
  if Helper.viable u .pointer then .pointer else .ellipsis

/-- What the functions return (optional.h:255, 261). -/
def Helper.result : Helper → Bool
  | .pointer => true
  | .ellipsis => false

/-- `tiny::is_tiny_optional_v<U>` (optional.h:269). -/
def isTinyOptional (u : TraitTy) : Bool := (selectHelper u).result

/-- `TinyOptionalImpl<D, F>`: declares the member itself (optional.h:1434), in a public section (1429); the base classes, which are private
(1390), do not matter. `id` numbers the specializations. -/
def implCls (id : Nat) (bases : Bases) : Cls := .mk true id (some ⟨true, some true⟩) bases

/-- `tiny::optional<...>`: publicly derived from a `TinyOptionalImpl` (optional.h:2199-2201), declares no such member itself. -/
def optionalCls (id implId : Nat) (bases : Bases) : Cls := .mk true id none (.cons true (implCls implId bases) .nil)

end Verif.Model
