import Verif.Spec.Assign
import Verif.Spec.History

/-!
# Overload resolution of assignments and of constructors with one argument

All line numbers refer to include/tiny/optional.h.

Language rules that are part of the model: implicit conversion sequences and their ranking ([over.best.ics], [over.ics.list],
[over.ics.rank]), tie-breaker non-template over template ([over.match.best]), exclusion of explicit constructors in
copy-initialization, hiding of base class operators by those of the derived class, and that copy and move constructors of the base
are not inherited ([over.match.funcs]).

Simplifications: the argument has no conversion functions to optionals or to `nullopt_t` of its own; it is not volatile; the
assignment and construction of the payload are described by traits. Whether the special member functions are deleted is the subject
of `Model.SpecialMembers`: here they are usable.
-/

namespace Verif.Model
open Verif.Spec

/-- How a parameter binds its argument: by value, `const&` or `&`, or `&&`. (the parameters in optional.h:1442-1529, 2212-2245) -/
inductive Bind where
  | value | lref | rref
deriving DecidableEq, Repr

/-- The function used by a user-defined conversion. (for arguments of optional.h:1442-1529, 2212-2245) -/
inductive UserConv where
  /-- default constructor of the optional -/
  | optDefault
  /-- constructor of the optional from `nullopt_t` (1449) -/
  | optNullopt
  /-- converting constructor of the optional (1481-1488) -/
  | optValue
  /-- a constructor or aggregate initialization of the payload -/
  | payload
deriving DecidableEq, Repr

/-- Implicit conversion sequences. A standard conversion sequence is described by the number of derived-to-base steps. (for the parameters
in optional.h:1442-1529, 2212-2245) -/
inductive Ics where
  | std (steps : Nat) (b : Bind)
  | user (f : UserConv) (b : Bind)
deriving DecidableEq, Repr

/-- [over.ics.rank]: standard conversions beat user-defined ones, fewer derived-to-base steps beat more, otherwise `&&` beats
`const&` for an rvalue. Two user-defined conversions are comparable only if they use the same function. (for optional.h:1442-1529,
2212-2245) -/
def Ics.better : Ics → Ics → Bool
  | .std m a, .std n b => m < n || (m == n && a == .rref && b == .lref)
  | .std _ _, .user _ _ => true
  | .user _ _, .std _ _ => false
  | .user f a, .user g b => f == g && a == .rref && b == .lref

/-- The class template instance `TinyOptionalImpl<...>` of an optional: `tiny::optional` derives from it (optional.h:2199-2201), all other
tiny optionals are such an instance (2155, 2318). -/
def implOf : OpTy → OpTy
  | .tiny p v => .impl p v
  | t => t

/-- Number of derived-to-base steps from a class to itself or to one of its bases. (`optional` derives from `TinyOptionalImpl`,
optional.h:2199-2201) -/
def baseSteps (t s : OpTy) : Option Nat :=
  if t = s then some 0
  else match t with
    | .tiny p v => if s = .impl p v then some 1 else none
    | .derived b _ => (baseSteps b s).map (· + 1)
    | _ => none

/-- `std::is_base_of_v<s, t>` for a class `s`. (used in optional.h:1414) -/
def isBaseOf (s t : OpTy) : Bool := (baseSteps t s).isSome

/-- `EnableConvertingConstructor<U>` (optional.h:1403-1414), a member of `TinyOptionalImpl`. -/
def enableCtor (self : OpTy) (P : Payload) (u : ArgE) : Bool :=
  P.constructible u && !decide (u.ty = inPlaceTy) && !decide (u.ty = implOf self) && !isBaseOf (implOf self) u.ty

/-- `EnableConvertingAssignment<TinyOptionalType, U>` (optional.h:1418-1425). -/
def enableAssign (self : OpTy) (P : Payload) (u : ArgE) : Bool :=
  !decide (u.ty = self) && P.constructible u && P.assignable u && (!P.scalar || !P.isDecayOf u)

/-- The conversion of an argument that is not related to the optional by inheritance to a temporary optional: through the
constructor from `nullopt_t` (optional.h:1449) or the converting constructor that is not explicit (1481-1488). -/
def toOptional (self : OpTy) (P : Payload) (e : ArgE) : Option UserConv :=
  if e.ty = .nullopt then some .optNullopt
  else if enableCtor self P e && P.convertible e then some .optValue
  else none

/-- Conversion to a parameter `optional const&` (copy constructor optional.h:1442 and 2212, copy assignment 1444 and 2214). -/
def toConstRef (self : OpTy) (P : Payload) : Arg1 → Option Ics
  | .braces => some (.user .optDefault .lref)
  | .expr e => match baseSteps e.ty self with
    | some n => some (.std n .lref)
    | none => (toOptional self P e).map (.user · .lref)

/-- Conversion to a parameter `optional&&` (move constructor optional.h:1443 and 2213, move assignment 1445 and 2215). Optionals and classes
derived from them bind to it if they are rvalues and not const. -/
def toRvalueRef (self : OpTy) (P : Payload) : Arg1 → Option Ics
  | .braces => some (.user .optDefault .rref)
  | .expr e => match baseSteps e.ty self with
    | some n => if e.cat = .rvalue then some (.std n .rref) else none
    | none => (toOptional self P e).map (.user · .rref)

/-- Conversion to a parameter `std::nullopt_t` by value. `nullopt_t` cannot be constructed from `{}` ([optional.nullopt]).
(optional.h:1449, 1517, 2233) -/
def toNullopt : Arg1 → Option Ics
  | .expr e => if e.ty = .nullopt then some (.std 0 .value) else none
  | .braces => none

/-- Conversion of `{}` to `U&&` with `U = P`, the default template argument (`U` is not deduced from `{}`). [over.ics.list]: identity
for scalars and for `std::initializer_list`, otherwise a user-defined conversion by a constructor of the payload. (optional.h:1482, 1491,
1524, 2241) -/
def bracesToPayload (P : Payload) : Option Ics :=
  if P.scalar || P.initList then some (.std 0 .rref)
  else if P.fromBraces then some (.user .payload .rref)
  else none

/-- Conversion to the forwarding reference `U&&` (optional.h:1485, 1494, 1525, 2243) under the constraint `enable`. Apart from `{}`, `U` is
deduced, so that the argument always binds directly. -/
def toForward (P : Payload) (enable : ArgE → Bool) : Arg1 → Option Ics
  | .expr e =>
    if enable e then some (.std 0 (if e.cat = .lvalue ∨ e.cat = .constLvalue then .lref else .rref)) else none
  | .braces => if enable P.prvalue then bracesToPayload P else none

/-- The candidates and whether they are templates. (candidates of optional.h:1442-1529, 2212-2245) -/
structure Choice (F : Type) where
  fn : F
  template : Bool
  ics : Option Ics

/-- [over.match.best] for one argument. (for optional.h:1442-1529, 2212-2245) -/
def Choice.better {F : Type} (a b : Choice F) : Bool :=
  match a.ics, b.ics with
  | some i, some j => i.better j || (!j.better i && !a.template && b.template)
  | _, _ => false

/-- The best viable candidate; `none` if there is none or the call is ambiguous. (for optional.h:1442-1529, 2212-2245) -/
def best {F : Type} [DecidableEq F] (cs : List (Choice F)) : Option F :=
  let viable := cs.filter (·.ics.isSome)
  (viable.find? fun c => viable.all fun d => decide (c.fn = d.fn) || c.better d).map (·.fn)

/-! ## Assignment -/

/-- The assignment operators. (optional.h:1444-1445, 1517-1529, 2214-2215, 2233-2247) -/
inductive AFun where
  | copy | move | nullopt | value
deriving DecidableEq, Repr

/-- The assignment operators of `TinyOptionalImpl` (optional.h:1444-1445, 1517-1529) respectively of `optional` (2214-2215, 2233-2247), which
hide those of the base class. -/
def assignCands (self : OpTy) (P : Payload) (a : Arg1) : List (Choice AFun) :=
  [⟨.copy, false, toConstRef self P a⟩, ⟨.move, false, toRvalueRef self P a⟩, ⟨.nullopt, false, toNullopt a⟩,
   ⟨.value, true, toForward P (enableAssign self P) a⟩]

/-- The operator selected for `o = a`. (among optional.h:1444-1445, 1517-1529, 2214-2215, 2233-2247) -/
def selectAssign (self : OpTy) (P : Payload) (a : Arg1) : Option AFun := best (assignCands self P a)

/-- The expression that `operator=(U&& v)` passes on as `std::forward<U>(v)` (optional.h:2245). -/
def forwarded (P : Payload) : Arg1 → ArgE
  | .expr e => e
  | .braces => P.prvalue

/-- The function of `TinyOptionalImpl` that does the work in `o = a`. The operators of `optional` delegate to the base class:
copy and move are defaulted (optional.h:2214-2215), `operator=(nullopt_t)` calls `Base::operator=(std::nullopt)` (2235), and
`operator=(U&&)` calls `Base::operator=(std::forward<U>(v))` (2245), which is again subject to overload resolution. -/
def assignDoes (self : OpTy) (P : Payload) (a : Arg1) : Option AFun :=
  match self, selectAssign self P a with
  | .tiny _ _, some .nullopt => selectAssign (implOf self) P (.expr ⟨.nullopt, .constLvalue⟩)
  | .tiny _ _, some .value => selectAssign (implOf self) P (.expr (forwarded P a))
  | _, r => r

/-- What `x = {};` executes if the move assignment is selected: its parameter is bound to a temporary `tmp` initialized by the
default constructor (optional.h:1441, 2211), which lives until the end of the full-expression. -/
def bracesOps {V G : Type} (x tmp : Nat) : List (Op V G) := [.ctorDefault tmp, .assignMove x tmp, .dtor tmp]

/-! ## Construction -/

/-- The constructors callable with one argument. (optional.h:1441-1499, inherited in 2218) -/
inductive CFun where
  | copy | move | nullopt | inPlace | value | valueExplicit
deriving DecidableEq, Repr

/-- Direct-initialization `O o(a)` or copy-initialization `O o = a`. (decides whether optional.h:1481-1487 or 1490-1499 takes part) -/
inductive Init where
  | direct | copy
deriving DecidableEq, Repr

/-- Conversion to the parameter of the explicit constructor from `in_place_t` with an empty pack, which is constrained by
`is_constructible_v<PayloadType>` (optional.h:1455-1459). -/
def toInPlace (P : Payload) (i : Init) : Arg1 → Option Ics
  | .expr e => if e.ty = inPlaceTy ∧ P.defaultConstructible = true ∧ i = .direct then some (.std 0 .value) else none
  | .braces => none

/-- The constructors of `TinyOptionalImpl`: copy and move (optional.h:1442-1443), from `nullopt_t` (1449), from `in_place_t` with an empty pack
(1455, explicit), the converting one (1481-1488) and the explicit converting one (1490-1497). `optional` has its own copy and move
constructors (2212-2213) and inherits the others (2218), but not the copy and move constructors of the base. -/
def ctorCands (self : OpTy) (P : Payload) (i : Init) (a : Arg1) : List (Choice CFun) :=
  [⟨.copy, false, toConstRef self P a⟩, ⟨.move, false, toRvalueRef self P a⟩, ⟨.nullopt, false, toNullopt a⟩,
   ⟨.inPlace, true, toInPlace P i a⟩,
   ⟨.value, true, toForward P (fun u => enableCtor self P u && P.convertible u) a⟩,
   ⟨.valueExplicit, true, if i = .direct then toForward P (fun u => enableCtor self P u && !P.convertible u) a else none⟩]

/-- The constructor selected. `O o{}`, `O o = {}` and `O o;` call the default constructor ([dcl.init.list]) and are not subject to
this; `.braces` stands for `O o({})`. (among optional.h:1441-1499, inherited in 2218) -/
def selectCtor (self : OpTy) (P : Payload) (i : Init) (a : Arg1) : Option CFun := best (ctorCands self P i a)

end Verif.Model
