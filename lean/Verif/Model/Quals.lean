/-!
# Overloads that differ in `const` and `&`, `&&` (optional.h:1554-1653, 1682-1838, 2250-2270)

An expression of class type or of the payload type is described by its constness and value category (prvalues are materialized, i.e. count as
xvalues). `volatile` is left out: the member functions are not volatile, so that volatile optionals cannot be used.
-/

namespace Verif.Model

/-- Constness and value category of an expression; also a reference type, which is what binds to it. (of the objects and results in
optional.h:1554-1838) -/
structure Qual where
  const : Bool
  rvalue : Bool
deriving DecidableEq, Repr

/-- Ref-qualifiers. (optional.h:1554-1838) -/
inductive RefQ where
  | none | lref | rref
deriving DecidableEq, Repr

/-- The qualifiers of a member function. (optional.h:1554-1838) -/
structure Sig where
  const : Bool
  ref : RefQ
deriving DecidableEq, Repr

/-- Whether the implicit object parameter can be bound to the object expression ([over.match.funcs], [dcl.init.ref]): a function without
ref-qualifier takes all value categories, `&` lvalues only, `const &` both, `&&` rvalues only. (for optional.h:1554-1838) -/
def Sig.viable (o : Qual) (s : Sig) : Bool :=
  (s.const || !o.const) && match s.ref with
    | .none => true
    | .lref => s.const || !o.rvalue
    | .rref => o.rvalue

/-- [over.ics.rank]: an rvalue is better bound to `&&` than to `&`; otherwise the less qualified reference is better. (for
optional.h:1554-1838) -/
def Sig.better (s t : Sig) : Bool :=
  match s.ref, t.ref with
  | .rref, .lref => true
  | .lref, .rref => false
  | _, _ => !s.const && t.const

/-- The overload selected for an object expression: viable, and better than all other viable ones. (among optional.h:1554-1838) -/
def selectFn {α : Type} (fs : List (Sig × α)) (o : Qual) : Option (Sig × α) :=
  fs.find? fun f => f.1.viable o && fs.all fun g => g.1 == f.1 || !g.1.viable o || f.1.better g.1

/-- The expressions in the bodies. (optional.h:1554-1838) -/
inductive QExpr where
  /-- `*this` -/
  | self
  /-- `GetPayload()` -/
  | getPayload
  /-- `**this` -/
  | deref
  /-- `std::move(e)` -/
  | move (e : QExpr)
deriving DecidableEq, Repr

/-- The type that a declaration names: `PayloadType`, `const` added or not, with `&`, `&&` or nothing. (optional.h:1554-1838) -/
structure QDecl where
  const : Bool
  ref : RefQ
deriving DecidableEq, Repr

/-- The expression that `std::declval<X>()` stands for, or the call of a function that returns `X`; `pc`: `PayloadType` is const. (for
optional.h:1684-1831) -/
def QDecl.expr (pc : Bool) (d : QDecl) : Qual := ⟨d.const || pc, d.ref != .lref⟩

/-- `StorageBase::GetPayload` (optional.h:1008-1016). -/
def getPayloadFns : List (Sig × QDecl) :=
  [(⟨false, .none⟩, ⟨false, .lref⟩), (⟨true, .none⟩, ⟨true, .lref⟩)]

/-- `operator*` (optional.h:1573-1595): declared result and returned expression. -/
def derefFns : List (Sig × QDecl × QExpr) :=
  [(⟨false, .lref⟩, ⟨false, .lref⟩, .getPayload),
   (⟨true, .lref⟩, ⟨true, .lref⟩, .getPayload),
   (⟨false, .rref⟩, ⟨false, .rref⟩, .move .getPayload),
   (⟨true, .rref⟩, ⟨true, .rref⟩, .move .getPayload)]

/-- `value` (optional.h:1598-1628). -/
def valueFns : List (Sig × QDecl × QExpr) :=
  [(⟨false, .lref⟩, ⟨false, .lref⟩, .getPayload),
   (⟨true, .lref⟩, ⟨true, .lref⟩, .getPayload),
   (⟨false, .rref⟩, ⟨false, .rref⟩, .move .getPayload),
   (⟨true, .rref⟩, ⟨true, .rref⟩, .move .getPayload)]

/-- `operator->` (optional.h:1560-1570): the referenced type of the declared result, and the operand of `std::addressof`. -/
def arrowFns : List (Sig × QDecl × QExpr) :=
  [(⟨false, .none⟩, ⟨false, .lref⟩, .getPayload),
   (⟨true, .none⟩, ⟨true, .lref⟩, .getPayload)]

/-- `value_or` (optional.h:1631-1653): the operand of the conditional expression that the result is made from if there is a value. The other
operand is a prvalue, so that the result is a new object, copied or moved from this operand. The conversions between the operands: C71. -/
def valueOrFns : List (Sig × QExpr) :=
  [(⟨true, .lref⟩, .getPayload), (⟨false, .rref⟩, .move .getPayload)]

/-- `and_then` (optional.h:1682-1732): the type in `std::invoke_result_t<F, ...>` and the argument in `std::invoke`. -/
def andThenFns : List (Sig × QDecl × QExpr) :=
  [(⟨false, .lref⟩, ⟨false, .lref⟩, .deref),
   (⟨true, .lref⟩, ⟨true, .lref⟩, .deref),
   (⟨false, .rref⟩, ⟨false, .none⟩, .move .deref),
   (⟨true, .rref⟩, ⟨true, .none⟩, .move .deref)]

/-- `transform` (optional.h:1734-1814): the type in `std::invoke_result_t<F, ...>` and the argument given to the constructor of the result. -/
def transformFns : List (Sig × QDecl × QExpr) :=
  [(⟨false, .lref⟩, ⟨false, .lref⟩, .deref),
   (⟨true, .lref⟩, ⟨true, .lref⟩, .deref),
   (⟨false, .rref⟩, ⟨false, .none⟩, .move .deref),
   (⟨true, .rref⟩, ⟨true, .none⟩, .move .deref)]

/-- `or_else` (optional.h:1817-1837) of `TinyOptionalImpl`, hidden in `tiny::optional` by functions with the same qualifiers and bodies (2250-2270):
the expression that the result is made from if there is a value (the conversions between the operands: C71). The constraints (1819, 1829) that the payload is `std::copy_constructible`
respectively `std::move_constructible` remove an overload. -/
def orElseFns (copyable movable : Bool) : List (Sig × QExpr) :=
  (if copyable then [(⟨true, .lref⟩, .self)] else []) ++ (if movable then [(⟨false, .rref⟩, .move .self)] else [])

/-- Type and value category of an expression in the body of a member function with the given constness. `*this` is an lvalue even in
a `&&` function. (optional.h:1554-1838) -/
def QExpr.type (pc fnConst : Bool) : QExpr → Option Qual
  | .self => some ⟨fnConst, false⟩
  | .getPayload => (selectFn getPayloadFns ⟨fnConst, false⟩).map fun f => f.2.expr pc
  | .deref => (selectFn derefFns ⟨fnConst, false⟩).map fun f => f.2.1.expr pc
  | .move e => (e.type pc fnConst).map fun q => ⟨q.const, true⟩

/-- What the template argument of a forwarding reference parameter is deduced as: `X &` for an lvalue, `X` for an rvalue.
(optional.h:962-975, 1473-1477) -/
def deduceFwd (q : Qual) : QDecl := ⟨q.const, if q.rvalue then .none else .lref⟩

/-- `std::forward<X>(x)`: `X &&` with reference collapsing. (optional.h:962-975, 1473-1477) -/
def forwardQ (d : QDecl) : Qual := ⟨d.const, d.ref != .lref⟩

/-- The argument of `transform` on its way: through the constructor of `TinyOptionalImpl` (optional.h:1472-1477), that of `StorageBase` (969-975),
and `ConstructPayloadFromFunction` (1082-1098), each time by `ArgT && arg` and `std::forward<ArgT>(arg)`. -/
def transformArg (q : Qual) : Qual := forwardQ (deduceFwd (forwardQ (deduceFwd (forwardQ (deduceFwd q)))))

/-- The type in `std::invoke_result_t<FuncT, ArgT>` of `ConstructPayloadFromFunction` (optional.h:1085, 1095). -/
def transformArgT (q : Qual) : QDecl := deduceFwd (forwardQ (deduceFwd (forwardQ (deduceFwd q))))

/-! ## Results of `f` -/

/-- Kinds of types that `f` can return; references and qualifiers separately. (asked about in optional.h:1685-1832) -/
inductive RetKind where
  /-- some `tiny::optional`, `TinyOptionalImpl` or a class derived from one: it has a member `is_tiny_optional` -/
  | tiny (id : Nat)
  | stdOptional (id : Nat)
  | nullopt
  | inPlace
  | array
  | function
  | void
  /-- any other object type -/
  | object (id : Nat)
deriving DecidableEq, Repr

/-- The result type of `f` (asked about in optional.h:1685-1832) -/
structure Ret where
  kind : RetKind
  const : Bool
  volatile : Bool
  ref : RefQ
deriving DecidableEq, Repr

/-- `IsSomeOptional<my_remove_cvref_t<R>>` (optional.h:250-269, 327-335, 1685). -/
def andThenAccepts (r : Ret) : Bool :=
  match r.kind with
  | .tiny _ => true
  | .stdOptional _ => true
  | _ => false

/-- The static assertions in `transform` about `U = std::remove_cv_t<R>` (optional.h:1738-1743). -/
def transformAccepts (r : Ret) : Bool :=
  !(r.kind == .nullopt && r.ref == .none) && !(r.kind == .inPlace && r.ref == .none) &&
    ((r.ref == .none && r.kind != .function && r.kind != .void) && r.kind != .array)

/-- The static assertion in `or_else` of the optional type `self`: `std::is_same_v<my_remove_cvref_t<R>, self>` (optional.h:1822-1824). -/
def orElseAccepts (self : Nat) (r : Ret) : Bool := r.kind == .tiny self

end Verif.Model
