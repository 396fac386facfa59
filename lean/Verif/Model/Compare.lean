import Verif.Model.Optional
import Verif.Spec.Compare

/-!
# Comparison operators (optional.h:2398-2764) and `std::hash` (2778-2805)

Comparisons of payloads are arbitrary user functions with access to the user state, that may throw.
-/

namespace Verif.Model
open Verif.Spec (RelOp Cmp)

section
variable {V G : Type}

thrice
/-- C++ `a && b` (`b` is evaluated only if `a` is true). (optional.h:2440, 2529, 2617) -/
def andM (a b : M V G Bool) : M V G Bool := do
  if ← a then b else pure false

thrice
/-- C++ `a || b` (`b` is evaluated only if `a` is false). (optional.h:2485, 2573, 2661) -/
def orM (a b : M V G Bool) : M V G Bool := do
  if ← a then pure true else b

thrice
/-- C++ `!a`. (e.g. optional.h:2440) -/
def notM (a : M V G Bool) : M V G Bool := do
  let b ← a
  pure (!b)

thrice
/-- The two member functions of an optional that the comparison templates use: `has_value()` and `*`. The templates are
instantiated for tiny optionals and for `std::optional` (optional.h:2398-2431). -/
structure OptLike (V G A : Type) where
  hasValue : M V G Bool
  deref : M V G A

thrice
/-- A `TinyOptionalImpl` / `tiny::optional` operand. (optional.h:2401-2416) -/
def tinyOpt (Γ : Env V G) (x : Nat) : OptLike V G V := ⟨hasValue Γ x, deref Γ x⟩

thrice
/-- A `std::optional<U>` operand. `*` of an empty one is UB. (optional.h:2407-2430) -/
def stdOpt {U : Type} (o : Option U) : OptLike V G U :=
  ⟨pure o.isSome, match o with
    | some u => pure u
    | none => ubM .noObject⟩

/-- User code comparing two payloads. (called in optional.h:2437-2764) -/
abbrev UserCmp (G A B R : Type) := A → B → G → Except Exn R × G

section between
variable {A B : Type} (l : OptLike V G A) (r : OptLike V G B)

thrice
/-- `*lhs Op *rhs`. (optional.h:2440, 2485, 2529, 2573, 2617, 2661) -/
def payloadCmp {R : Type} (cmp : UserCmp G A B R) : M V G R := do
  let a ← l.deref
  let b ← r.deref
  userCall (cmp a b)

thrice
/-- `operator==`, optional.h:2437-2441. -/
def optEq (cmp : UserCmp G A B Bool) : M V G Bool := do
  let lhsHasValue ← l.hasValue
  andM (do let rhsHasValue ← r.hasValue; pure (lhsHasValue == rhsHasValue))
    (orM (pure (!lhsHasValue)) (payloadCmp l r cmp))

thrice
/-- `operator!=`, optional.h:2482-2486. -/
def optNe (cmp : UserCmp G A B Bool) : M V G Bool := do
  let lhsHasValue ← l.hasValue
  orM (do let rhsHasValue ← r.hasValue; pure (lhsHasValue != rhsHasValue))
    (andM (pure lhsHasValue) (payloadCmp l r cmp))

thrice
/-- `operator<`, optional.h:2527-2530. -/
def optLt (cmp : UserCmp G A B Bool) : M V G Bool :=
  andM r.hasValue (orM (notM l.hasValue) (payloadCmp l r cmp))

thrice
/-- `operator<=`, optional.h:2571-2574. -/
def optLe (cmp : UserCmp G A B Bool) : M V G Bool :=
  orM (notM l.hasValue) (andM r.hasValue (payloadCmp l r cmp))

thrice
/-- `operator>`, optional.h:2615-2618. -/
def optGt (cmp : UserCmp G A B Bool) : M V G Bool :=
  andM l.hasValue (orM (notM r.hasValue) (payloadCmp l r cmp))

thrice
/-- `operator>=`, optional.h:2659-2662. -/
def optGe (cmp : UserCmp G A B Bool) : M V G Bool :=
  orM (notM r.hasValue) (andM l.hasValue (payloadCmp l r cmp))

thrice
/-- The relational operator `op` between two optionals; `cmp op` is the payload's operator. (optional.h:2437-2662) -/
def optRel (op : RelOp) (cmp : RelOp → UserCmp G A B Bool) : M V G Bool :=
  match op with
  | .eq => optEq l r (cmp .eq)
  | .ne => optNe l r (cmp .ne)
  | .lt => optLt l r (cmp .lt)
  | .le => optLe l r (cmp .le)
  | .gt => optGt l r (cmp .gt)
  | .ge => optGe l r (cmp .ge)

/-- `<=>` of two `bool`s. (optional.h:2704-2764) -/
def boolCmp : Bool → Bool → Cmp
  | false, false => .equal
  | false, true => .less
  | true, false => .greater
  | true, true => .equal

thrice
/-- `operator<=>` between optionals, optional.h:2706-2743. -/
def optSpaceship (cmp : UserCmp G A B Cmp) : M V G Cmp := do
  if ← andM l.hasValue r.hasValue then payloadCmp l r cmp
  else do
    let a ← l.hasValue
    let b ← r.hasValue
    pure (boolCmp a b)

end between

section nullopt
variable (Γ : Env V G) (x : Nat)

thrice
/-- `optional Op std::nullopt`, optional.h:2447-2450, 2493-2496, 2537-2540, 2581-2584, 2625-2628, 2669-2672. -/
def relNullopt (op : RelOp) : M V G Bool :=
  noexceptIf true (match op with
  | .eq => notM (hasValue Γ x)
  | .ne => hasValue Γ x
  | .lt => pure false
  | .le => notM (hasValue Γ x)
  | .gt => hasValue Γ x
  | .ge => pure true)

thrice
/-- `std::nullopt Op optional`, optional.h:2454-2457, 2499-2502, 2543-2546, 2587-2590, 2631-2634, 2675-2678. -/
def nulloptRel (op : RelOp) : M V G Bool :=
  noexceptIf true (match op with
  | .eq => notM (hasValue Γ x)
  | .ne => hasValue Γ x
  | .lt => hasValue Γ x
  | .le => pure true
  | .gt => pure false
  | .ge => notM (hasValue Γ x))

thrice
/-- `optional <=> std::nullopt`, optional.h:2750-2753. -/
def spaceshipNullopt : M V G Cmp :=
  noexceptIf true (do
    let a ← hasValue Γ x
    pure (boolCmp a false))

/-- C++20 rewriting of `a @ b` as `(a <=> b) @ 0`. (for the operators of optional.h:2704-2764) -/
def Cmp.rel : RelOp → Cmp → Bool
  | .eq, .equal => true
  | .ne, .less => true
  | .ne, .greater => true
  | .ne, .unordered => true
  | .lt, .less => true
  | .le, .less => true
  | .le, .equal => true
  | .gt, .greater => true
  | .ge, .greater => true
  | .ge, .equal => true
  | _, _ => false

thrice
/-- `optional Op std::nullopt` in C++20 without the gcc workaround (optional.h:88-98): only `==` (2447) and `<=>` (2750) are
declared; the compiler rewrites `!=` to `!(o == nullopt)` and the others to `(o <=> nullopt) Op 0`. -/
def relNulloptRewritten (op : RelOp) : M V G Bool :=
  match op with
  | .eq => relNullopt Γ x .eq
  | .ne => notM (relNullopt Γ x .eq)
  | op => do
    let c ← spaceshipNullopt Γ x
    pure (Cmp.rel op c)

thrice
/-- `std::nullopt Op optional` in C++20 without the gcc workaround: the compiler swaps the operands, `nullopt Op o` is
`0 Op (o <=> nullopt)`. (optional.h:2452, 2491) -/
def nulloptRelRewritten (op : RelOp) : M V G Bool :=
  match op with
  | .eq => relNullopt Γ x .eq
  | .ne => notM (relNullopt Γ x .eq)
  | op => do
    let c ← spaceshipNullopt Γ x
    pure (Cmp.rel op c.flip)

end nullopt

section plain
variable {U : Type} (Γ : Env V G) (x : Nat) (u : U)

thrice
/-- `lhs.has_value() ? *lhs Op rhs : dflt`. (optional.h:2465, 2510, 2554, 2598, 2642, 2686) -/
def condRel {R : Type} (dflt : R) (cmp : UserCmp G V U R) : M V G R := do
  if ← hasValue Γ x then do
    let a ← deref Γ x
    userCall (cmp a u)
  else pure dflt

thrice
/-- `rhs.has_value() ? lhs Op *rhs : dflt`. (optional.h:2473, 2518, 2562, 2606, 2650, 2694) -/
def condRel' {R : Type} (dflt : R) (cmp : UserCmp G U V R) : M V G R := do
  if ← hasValue Γ x then do
    let a ← deref Γ x
    userCall (cmp u a)
  else pure dflt

thrice
/-- `optional Op value`, optional.h:2461-2466, 2506-2511, 2550-2555, 2594-2599, 2638-2643, 2682-2687. -/
def relValue (op : RelOp) (cmp : RelOp → UserCmp G V U Bool) : M V G Bool :=
  match op with
  | .eq => condRel Γ x u false (cmp .eq)
  | .ne => condRel Γ x u true (cmp .ne)
  | .lt => condRel Γ x u true (cmp .lt)
  | .le => condRel Γ x u true (cmp .le)
  | .gt => condRel Γ x u false (cmp .gt)
  | .ge => condRel Γ x u false (cmp .ge)

thrice
/-- `value Op optional`, optional.h:2469-2474, 2514-2519, 2558-2563, 2602-2607, 2646-2651, 2690-2695. -/
def valueRel (op : RelOp) (cmp : RelOp → UserCmp G U V Bool) : M V G Bool :=
  match op with
  | .eq => condRel' Γ x u false (cmp .eq)
  | .ne => condRel' Γ x u true (cmp .ne)
  | .lt => condRel' Γ x u false (cmp .lt)
  | .le => condRel' Γ x u false (cmp .le)
  | .gt => condRel' Γ x u true (cmp .gt)
  | .ge => condRel' Γ x u true (cmp .ge)

thrice
/-- `optional <=> value`, optional.h:2757-2762. -/
def spaceshipValue (cmp : UserCmp G V U Cmp) : M V G Cmp :=
  condRel Γ x u .less cmp

/-- `value <=> optional`: not declared, the compiler uses `optional <=> value` (optional.h:2757-2762) with the operands exchanged and reverses the
result ([over.match.oper]/3.4). -/
def valueSpaceshipRewritten (cmp : UserCmp G V U Cmp) : M V G Cmp := do
  let c ← spaceshipValue Γ x u cmp
  pure c.flip

end plain

thrice
/-- `std::hash<tiny::optional<...>>::operator()`, optional.h:2786-2789, 2801-2804. `h` is the payload's `std::hash`;
`H` stands for `size_t`. -/
def hashOf {H : Type} [OfNat H 0] (Γ : Env V G) (x : Nat) (h : V → G → Except Exn H × G) : M V G H := do
  if ← hasValue Γ x then do
    let v ← deref Γ x
    userCall (h v)
  else pure 0

end

end Verif.Model
