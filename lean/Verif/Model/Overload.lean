import Verif.Spec.Overload
import Verif.Model.Compare

/-!
# Overload resolution for comparison expressions (optional.h:2398-2764)

The operators are templates whose parameters are references to const of one of a few patterns. The model has the declared
templates of the library and of `<optional>`, template argument deduction for the patterns, the ranking of the implicit
conversions (identity, derived-to-base), partial ordering, constraints, and the C++20 rewritten and reversed candidates.

Simplifications. Every template that is viable is also found by argument dependent lookup (tiny's operators need a tiny
operand, whose namespace is then associated; those of `std` a `std::optional` operand), so that lookup is not modelled.
Operand types have no operators of their own that accept optionals, and no conversion functions to `nullopt_t`; operands are
not volatile. Satisfaction of constraints is an oracle, except for `is_tiny_optional_v`.
-/

namespace Verif.Model.Overload
open Verif.Spec (RelOp OpTy CmpOp IsTiny)

/-- The form of a function parameter. (optional.h:2398-2764) -/
inductive Pat where
  /-- `U const &` with a template parameter `U` -/
  | any
  /-- `TinyOptionalImpl<D, F> const &` -/
  | impl
  /-- `tiny::optional<P, e, i> const &` -/
  | tiny
  /-- `std::optional<U> const &` -/
  | std
  /-- `std::nullopt_t` -/
  | null
deriving DecidableEq, Repr

/-- How a template is constrained: not at all (`enable_if` in the return type does not count as constraint), by a
requires-clause, or by a type-constraint of a template parameter. (optional.h:2398-2764) -/
inductive Cons where
  | none | req | typ
deriving DecidableEq, Repr

/-- The namespace of which the template is a member. (optional.h:2399, 2420, 2444) -/
inductive Owner where
  | impl | tiny | std
deriving DecidableEq, Repr

/-- A declared operator template. `notTiny`: takes part only if the type deduced for `U const &` is no tiny optional.
(optional.h:2398-2764) -/
structure Cand where
  owner : Owner
  name : CmpOp
  l : Pat
  r : Pat
  cons : Cons := .none
  notTiny : Bool := false
deriving DecidableEq, Repr

/-- Compiler properties. (optional.h:88-98) -/
structure Mode where
  /-- `TINY_OPTIONAL_ENABLE_THREEWAY_COMPARISON` (optional.h:88-89); also rewritten candidates exist -/
  cpp20 : Bool
  /-- `TINY_OPTIONAL_GCC_WORKAROUND_CWG2445` (optional.h:90-97) -/
  workaround : Bool
  /-- the compiler implements CWG 2445: partial ordering looks at a reversed candidate with reversed parameters -/
  cwg2445 : Bool
  /-- the compiler implements P2468: `==` is not rewritten if there is a corresponding `!=` -/
  p2468 : Bool
  /-- the compiler implements P2113: constraints are compared only if the template parameters are equivalent -/
  p2113 : Bool
  /-- constraints are also compared between a reversed and a normal candidate -/
  revCons : Bool
deriving DecidableEq, Repr

/-- The operators. (optional.h:2437-2695) -/
def RelOps : List RelOp := [.eq, .ne, .lt, .le, .gt, .ge]

/-- `TINY_OPTIONAL_IMPL_COMPARE_BETWEEN_OPTIONALS(op, ...)`, optional.h:2398-2431. -/
def between (op : RelOp) : List Cand :=
  [⟨.impl, .rel op, .impl, .impl, .none, false⟩, ⟨.impl, .rel op, .impl, .std, .none, false⟩,
   ⟨.impl, .rel op, .std, .impl, .none, false⟩, ⟨.tiny, .rel op, .tiny, .std, .none, false⟩,
   ⟨.tiny, .rel op, .std, .tiny, .none, false⟩]

/-- Comparison with `nullopt`: `optional == nullopt` always (optional.h:2446-2450); all others only without `<=>` or with the
gcc workaround (2452-2458, 2491-2503, 2535-2547, 2579-2591, 2623-2635, 2667-2679). -/
def withNullopt (m : Mode) (op : RelOp) : List Cand :=
  if !m.cpp20 || m.workaround then [⟨.impl, .rel op, .impl, .null, .none, false⟩, ⟨.impl, .rel op, .null, .impl, .none, false⟩]
  else if op = .eq then [⟨.impl, .rel op, .impl, .null, .none, false⟩]
  else []

/-- Comparison with a value (optional.h:2460-2474, 2505-2519, 2549-2563, 2593-2607, 2637-2651, 2681-2695). -/
def withValue (op : RelOp) : List Cand :=
  [⟨.impl, .rel op, .impl, .any, .none, true⟩, ⟨.impl, .rel op, .any, .impl, .none, true⟩]

/-- `operator<=>` (optional.h:2700-2764). -/
def spaceships (m : Mode) : List Cand :=
  if m.cpp20 then
    [⟨.impl, .three, .impl, .impl, .req, false⟩, ⟨.impl, .three, .impl, .std, .req, false⟩, ⟨.tiny, .three, .tiny, .std, .typ, false⟩] ++
    (if m.workaround then [⟨.tiny, .three, .std, .tiny, .typ, false⟩] else []) ++
    [⟨.impl, .three, .impl, .null, .none, false⟩, ⟨.impl, .three, .impl, .any, .req, true⟩]
  else []

/-- `<optional>`: [optional.relops], [optional.nullops], [optional.comp.with.t], [optional.spaceship]. (compete with optional.h:2398-2695)
-/
def stdRels (m : Mode) (op : RelOp) : List Cand :=
  [⟨.std, .rel op, .std, .std, .none, false⟩, ⟨.std, .rel op, .std, .any, .none, false⟩, ⟨.std, .rel op, .any, .std, .none, false⟩] ++
  (if !m.cpp20 then [⟨.std, .rel op, .std, .null, .none, false⟩, ⟨.std, .rel op, .null, .std, .none, false⟩]
   else if op = .eq then [⟨.std, .rel op, .std, .null, .none, false⟩] else [])

/-- The same for `<=>`. (compete with optional.h:2700-2764) -/
def stdSpaceships (m : Mode) : List Cand :=
  if m.cpp20 then
    [⟨.std, .three, .std, .std, .typ, false⟩, ⟨.std, .three, .std, .null, .none, false⟩, ⟨.std, .three, .std, .any, .typ, false⟩]
  else []

/-- All templates with the name of an operator. (optional.h:2398-2764) -/
def declared (m : Mode) : CmpOp → List Cand
  | .rel op => between op ++ withNullopt m op ++ withValue op ++ stdRels m op
  | .three => spaceships m ++ stdSpaceships m

/-- A candidate in an expression: a template, possibly rewritten and with its parameters in reversed order. (for expressions with the
operators of optional.h:2398-2764) -/
structure Use where
  cand : Cand
  rewritten : Bool := false
  reversed : Bool := false
deriving DecidableEq, Repr

/-- The parameter patterns, for the left and the right operand. (optional.h:2398-2764) -/
def Use.lp (u : Use) : Pat := if u.reversed then u.cand.r else u.cand.l
/-- The right one. (optional.h:2398-2764) -/
def Use.rp (u : Use) : Pat := if u.reversed then u.cand.l else u.cand.r

/-- [over.match.oper]/4 (P2468): is this `operator==` a rewrite target? Not if there is a corresponding `operator!=` in the
same namespace. (optional.h:2437-2519) -/
def rewriteTarget (m : Mode) (c : Cand) : Bool :=
  !m.p2468 || !(declared m (.rel .ne)).any fun d => d == { c with name := .rel .ne }

/-- [over.match.oper]/3: the candidates of an expression. (for the operators of optional.h:2398-2764) -/
def uses (m : Mode) : CmpOp → List Use
  | .rel .eq => (declared m (.rel .eq)).map (⟨·, false, false⟩) ++
    if m.cpp20 then ((declared m (.rel .eq)).filter (rewriteTarget m)).map (⟨·, true, true⟩) else []
  | .rel .ne => (declared m (.rel .ne)).map (⟨·, false, false⟩) ++
    if m.cpp20 then ((declared m (.rel .eq)).filter (rewriteTarget m)).map (⟨·, true, false⟩) ++
      ((declared m (.rel .eq)).filter (rewriteTarget m)).map (⟨·, true, true⟩) else []
  | .rel op => (declared m (.rel op)).map (⟨·, false, false⟩) ++
    if m.cpp20 then (declared m .three).map (⟨·, true, false⟩) ++ (declared m .three).map (⟨·, true, true⟩) else []
  | .three => (declared m .three).map (⟨·, false, false⟩) ++
    if m.cpp20 then (declared m .three).map (⟨·, true, true⟩) else []

/-- Template argument deduction and implicit conversion of one operand: `none` if it fails, otherwise the number of
derived-to-base steps (0 is the identity conversion). `tiny::optional` is derived from `TinyOptionalImpl`
(optional.h:2195-2200). -/
def dist (p : Pat) (t : OpTy) : Option Nat :=
  if p = .any then some 0 else
  match t with
  | .tiny _ _ => match p with | .tiny => some 0 | .impl => some 1 | _ => none
  | .impl _ _ => if p = .impl then some 0 else none
  | .std _ => if p = .std then some 0 else none
  | .nullopt => if p = .null then some 0 else none
  | .other _ => none
  | .derived b _ => (dist p b).map (· + 1)

/-- `value_type` of an optional. (optional.h:1429) -/
def valueType : OpTy → OpTy
  | .tiny p _ => p
  | .impl p _ => p
  | .std p => p
  | .derived b _ => valueType b
  | t => t

/-- The type that takes part in a constraint. (optional.h:2708-2710, 2720, 2729, 2738, 2756) -/
def consArg (p : Pat) (t : OpTy) : OpTy := if p = .any then t else valueType t

/-- Answers of the constraints: `std::three_way_comparable_with` for tiny's operators; viability of those of `<optional>`
(which depend on the implementation). (asked in optional.h:2708-2756) -/
structure Oracle where
  threeWay : OpTy → OpTy → Bool
  std : Cand → OpTy → OpTy → Bool

/-- `is_tiny_optional_v` (optional.h:250-269) is inherited by derived classes. -/
def passesNotTiny (c : Cand) (a b : OpTy) : Bool :=
  !c.notTiny || ((c.l != .any || !IsTiny a) && (c.r != .any || !IsTiny b))

/-- Is the template viable for arguments of the types `a` and `b` (in the order of its parameters)? (optional.h:2398-2764) -/
def Cand.viable (o : Oracle) (c : Cand) (a b : OpTy) : Bool :=
  (dist c.l a).isSome && (dist c.r b).isSome && passesNotTiny c a b &&
    if c.owner = .std then o.std c a b
    else c.cons == .none || o.threeWay (consArg c.l a) (consArg c.r b)

/-- The same for an expression. (optional.h:2398-2764) -/
def Use.viable (o : Oracle) (u : Use) (l r : OpTy) : Bool :=
  if u.reversed then u.cand.viable o r l else u.cand.viable o l r

/-- [over.ics.rank]: the conversion of `t` to `p` is better than that to `q`. (`optional` derives from `TinyOptionalImpl`,
optional.h:2199-2201) -/
def closer (t : OpTy) (p q : Pat) : Bool :=
  match dist p t, dist q t with
  | some a, some b => a < b
  | _, _ => false

/-- [temp.deduct.partial] for one parameter: `q` can be deduced from `p`. (for the parameters in optional.h:2398-2764) -/
def patLe (p q : Pat) : Bool := q == .any || p == q

/-- [temp.func.order]: the parameters that partial ordering compares. Without CWG 2445 the declared order is used. (optional.h:2398-2764)
-/
def orderPats (m : Mode) (u : Use) : Pat × Pat := if m.cwg2445 then (u.lp, u.rp) else (u.cand.l, u.cand.r)

/-- For all parameters. (optional.h:2398-2764) -/
def atLeast (m : Mode) (u v : Use) : Bool :=
  patLe (orderPats m u).1 (orderPats m v).1 && patLe (orderPats m u).2 (orderPats m v).2

/-- [temp.func.order]/6: `u` is more constrained than `v`, if the constraints may be compared at all. The constraints of the
library never subsume each other, unless one of the templates is unconstrained. (optional.h:2708-2756) -/
def moreConstrained (m : Mode) (u v : Use) : Bool :=
  (u.reversed == v.reversed || (m.cwg2445 && m.revCons)) &&
  (!m.p2113 || (u.cand.cons != .typ && v.cand.cons != .typ)) &&
  u.cand.cons != .none && v.cand.cons == .none

/-- [temp.func.order] (for optional.h:2398-2764) -/
def moreSpecialised (m : Mode) (u v : Use) : Bool :=
  atLeast m u v && (!atLeast m v u || moreConstrained m u v)

/-- [over.match.best.general]/2: `u` is a better candidate than `v` for operands of types `l` and `r`. (for optional.h:2398-2764) -/
def better (m : Mode) (l r : OpTy) (u v : Use) : Bool :=
  !closer l v.lp u.lp && !closer r v.rp u.rp &&
  (closer l u.lp v.lp || closer r u.rp v.rp ||
   moreSpecialised m u v ||
   (!moreSpecialised m v u &&
    ((!u.rewritten && v.rewritten) || (u.rewritten == v.rewritten && !u.reversed && v.reversed))))

/-- The outcome of overload resolution. (for optional.h:2398-2764) -/
inductive Outcome where
  | found (u : Use)
  | noViable
  | ambiguous
deriving DecidableEq, Repr

/-- The viable candidate that is better than all other viable ones. (for optional.h:2398-2764) -/
def resolve (m : Mode) (o : Oracle) (op : CmpOp) (l r : OpTy) : Outcome :=
  let vs := (uses m op).filter (·.viable o l r)
  match vs.find? fun u => vs.all fun v => u == v || better m l r u v with
  | some u => .found u
  | none => if vs.isEmpty then .noViable else .ambiguous

/-- The role for which a parameter is meant. (optional.h:2398-2764) -/
def Pat.role : Pat → Spec.Role
  | .any => .value
  | .null => .nullopt
  | _ => .opt

/-- The candidate regards both operands as it should. (optional.h:2398-2764) -/
def Use.right (u : Use) (l r : OpTy) : Bool := u.lp.role == Spec.role l && u.rp.role == Spec.role r

/-! ### Evaluation of the selected operator -/

/-- The operands of a comparison: the tiny optional `x` of the environment, a `std::optional`, `nullopt`, or a value. (of the operators in
optional.h:2398-2764) -/
inductive Operands (U : Type) where
  | tinyTiny (x y : Nat)
  | tinyStd (x : Nat) (p : Option U)
  | stdTiny (p : Option U) (x : Nat)
  | tinyNull (x : Nat)
  | nullTiny (x : Nat)
  | tinyVal (x : Nat) (u : U)
  | valTiny (u : U) (x : Nat)

variable {V G U : Type}

/-- The operands exchanged. (of the operators in optional.h:2398-2764) -/
def Operands.swap : Operands U → Operands U
  | .tinyTiny x y => .tinyTiny y x
  | .tinyStd x p => .stdTiny p x
  | .stdTiny p x => .tinyStd x p
  | .tinyNull x => .nullTiny x
  | .nullTiny x => .tinyNull x
  | .tinyVal x u => .valTiny u x
  | .valTiny u x => .tinyVal x u

/-- What the operands are. (of the operators in optional.h:2398-2764) -/
def Operands.roles : Operands U → Spec.Role × Spec.Role
  | .tinyTiny _ _ => (.opt, .opt)
  | .tinyStd _ _ => (.opt, .opt)
  | .stdTiny _ _ => (.opt, .opt)
  | .tinyNull _ => (.opt, .nullopt)
  | .nullTiny _ => (.nullopt, .opt)
  | .tinyVal _ _ => (.opt, .value)
  | .valTiny _ _ => (.value, .opt)

/-- Comparisons of the contained values; `V` is the payload of tiny optionals, `U` that of the other operand. (called in
optional.h:2437-2764) -/
structure PayloadCmp (V G U : Type) where
  rel : RelOp → UserCmp G (V ⊕ U) (V ⊕ U) Bool
  three : UserCmp G (V ⊕ U) (V ⊕ U) Spec.Cmp

/-- Call of a declared operator with the operands in the order of its parameters, optional.h:2437-2695. -/
def applyRel (Γ : Env V G) (c : PayloadCmp V G U) (op : RelOp) : Operands U → M V G Bool
  | .tinyTiny x y => optRel (tinyOpt Γ x) (tinyOpt Γ y) op fun op a b => c.rel op (.inl a) (.inl b)
  | .tinyStd x p => optRel (tinyOpt Γ x) (stdOpt p) op fun op a b => c.rel op (.inl a) (.inr b)
  | .stdTiny p x => optRel (stdOpt p) (tinyOpt Γ x) op fun op a b => c.rel op (.inr a) (.inl b)
  | .tinyNull x => relNullopt Γ x op
  | .nullTiny x => nulloptRel Γ x op
  | .tinyVal x u => relValue Γ x u op fun op a b => c.rel op (.inl a) (.inr b)
  | .valTiny u x => valueRel Γ x u op fun op a b => c.rel op (.inr a) (.inl b)

/-- Call of a declared `operator<=>`, optional.h:2700-2764. There is none with `nullopt` or a value on the left. -/
def applyThree (Γ : Env V G) (c : PayloadCmp V G U) : Operands U → Option (M V G Spec.Cmp)
  | .tinyTiny x y => some (optSpaceship (tinyOpt Γ x) (tinyOpt Γ y) fun a b => c.three (.inl a) (.inl b))
  | .tinyStd x p => some (optSpaceship (tinyOpt Γ x) (stdOpt p) fun a b => c.three (.inl a) (.inr b))
  | .stdTiny p x => some (optSpaceship (stdOpt p) (tinyOpt Γ x) fun a b => c.three (.inr a) (.inl b))
  | .tinyNull x => some (spaceshipNullopt Γ x)
  | .tinyVal x u => some (spaceshipValue Γ x u fun a b => c.three (.inl a) (.inr b))
  | .nullTiny _ => none
  | .valTiny _ _ => none

/-- The operands in the order of the parameters. (of the operators in optional.h:2398-2764) -/
def Use.args (u : Use) (os : Operands U) : Operands U := if u.reversed then os.swap else os

/-- [over.match.oper]/8,9: the value of `l op r` if `u` is selected: `x @ y`, `!(x == y)`, `(x <=> y) @ 0` or, reversed,
`y == x`, `!(y == x)`, `0 @ (y <=> x)`. `none` if an operand is not regarded as what it is, or for `u` that are no candidates. (for
optional.h:2398-2764) -/
def callRel (Γ : Env V G) (c : PayloadCmp V G U) (op : RelOp) (u : Use) (os : Operands U) : Option (M V G Bool) :=
  if (u.lp.role, u.rp.role) ≠ os.roles then none
  else match u.cand.name with
  | .rel op' =>
    if op' = op then some (applyRel Γ c op (u.args os))
    else if op' = .eq ∧ op = .ne then some (notM (applyRel Γ c .eq (u.args os)))
    else none
  | .three => (applyThree Γ c (u.args os)).map fun m => do
      let k ← m
      pure (Cmp.rel op (if u.reversed then k.flip else k))

/-- The same for `l <=> r`: `x <=> y` or, reversed, `0 <=> (y <=> x)`. (for optional.h:2700-2764) -/
def callThree (Γ : Env V G) (c : PayloadCmp V G U) (u : Use) (os : Operands U) : Option (M V G Spec.Cmp) :=
  if (u.lp.role, u.rp.role) ≠ os.roles then none
  else match u.cand.name with
  | .rel _ => none
  | .three => (applyThree Γ c (u.args os)).map fun m => do
      let k ← m
      pure (if u.reversed then k.flip else k)

/-- The comparison expression `l op r` with operands of types `l` and `r`. (for optional.h:2398-2764) -/
def relExpr (m : Mode) (o : Oracle) (Γ : Env V G) (c : PayloadCmp V G U) (op : RelOp) (l r : OpTy) (os : Operands U) :
    Option (M V G Bool) :=
  match resolve m o (.rel op) l r with
  | .found u => callRel Γ c op u os
  | _ => none

/-- The expression `l <=> r`. (for optional.h:2700-2764) -/
def threeExpr (m : Mode) (o : Oracle) (Γ : Env V G) (c : PayloadCmp V G U) (l r : OpTy) (os : Operands U) :
    Option (M V G Spec.Cmp) :=
  match resolve m o .three l r with
  | .found u => callThree Γ c u os
  | _ => none

end Verif.Model.Overload
