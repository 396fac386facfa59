import Verif.Model.ResultType

/-!
# C74: comparing optionals whose payloads compare to something else than `bool`

The claim: as for `std::optional`, the comparison of the payloads may have any type that is convertible to `bool`; it is evaluated once
if both optionals have values and otherwise not at all. It fails for types with their own `||` or `&&`.
-/

namespace Verif.Props
open Verif.Spec Verif.Spec.Res Verif.Model

/-- The operator that is applied to `has_value()` and the comparison of the payloads. -/
def innerOp (C : Classes) : RelOp → Nat → Option RTy
  | .eq | .lt | .gt => C.orOp
  | .ne | .le | .ge => C.andOp

/-- Comparison of two optionals, if the type has not its own `||` (for `==`, `<`, `>`) or `&&` (for `!=`, `<=`, `>=`). The comparison then
even compiles if the type is only explicitly convertible to `bool`. Missing for the full claim: types with such operators, for
which it is false (`C74_false`, `C74_exact`). -/
theorem C74_between_partial (C : Classes) (op : RelOp) (v : Val) (h : userOp (innerOp C op) v.type = none) :
    ((betweenExpr op).compiles C v.type = v.type.contextual C) ∧
    ∀ l r, (betweenExpr op).returns C v l r = some (stdCompare C op v l r) := by
  refine ⟨?_, fun l r => ?_⟩
  · cases v with
    | bool b => cases op <;> rfl
    | obj k n =>
      cases op <;> simp only [innerOp, Val.type, userOp] at h <;> by_cases hc : C.conv k = .none <;>
        simp [betweenExpr, E.compiles, E.type, logicType, userOp, RTy.contextual, RTy.implicit, Val.type, h, hc]
  · cases v with
    | bool b => cases op <;> cases l <;> cases r <;> cases b <;> rfl
    | obj k n =>
      cases op <;> simp only [innerOp, Val.type, userOp] at h <;> by_cases hc : C.conv k = .none <;> cases l <;> cases r <;>
        simp [betweenExpr, E.returns, E.eval, E.type, logicType, userOp, RTy.contextual, Val.type, Val.toBool, stdCompare, stdRel, h, hc]

/-- Whenever `std::optional` can be compared, so can the library's, under the same condition. -/
theorem C74_compiles_partial (C : Classes) (op : RelOp) (v : Val) (h : userOp (innerOp C op) v.type = none)
    (hs : stdCompiles C v.type = true) : (betweenExpr op).compiles C v.type = true := by
  rw [(C74_between_partial C op v h).1]
  cases v with
  | bool b => rfl
  | obj k n => simp only [stdCompiles, RTy.implicit, Val.type, beq_iff_eq] at hs; simp [RTy.contextual, Val.type, hs]

/-- With such an operator, payloads that do not exist are compared in some state; so exactly the types without it are fine. -/
theorem C74_exact (C : Classes) (op : RelOp) (v : Val) (hc : (betweenExpr op).compiles C v.type = true) :
    (∀ l r, (betweenExpr op).returns C v l r ≠ none) ↔ userOp (innerOp C op) v.type = none := by
  constructor
  · intro h
    cases v with
    | bool b => rfl
    | obj k n =>
      cases hu : userOp (innerOp C op) (Val.obj k n).type with
      | none => rfl
      | some t =>
        exfalso
        cases op <;> simp only [innerOp, Val.type, userOp] at hu
        case eq => refine h false false ?_; cases t <;> simp [betweenExpr, E.returns, E.eval, E.type, logicType, userOp, Val.type, Val.toBool, hu]; split <;> rfl
        case ne => refine h false false ?_; cases t <;> simp [betweenExpr, E.returns, E.eval, E.type, logicType, userOp, Val.type, Val.toBool, hu]; split <;> rfl
        case lt => refine h false true ?_; cases t <;> simp [betweenExpr, E.returns, E.eval, E.type, logicType, userOp, Val.type, Val.toBool, hu]; split <;> rfl
        case le => refine h true false ?_; cases t <;> simp [betweenExpr, E.returns, E.eval, E.type, logicType, userOp, Val.type, Val.toBool, hu]; split <;> rfl
        case gt => refine h true false ?_; cases t <;> simp [betweenExpr, E.returns, E.eval, E.type, logicType, userOp, Val.type, Val.toBool, hu]; split <;> rfl
        case ge => refine h false true ?_; cases t <;> simp [betweenExpr, E.returns, E.eval, E.type, logicType, userOp, Val.type, Val.toBool, hu]; split <;> rfl
  · intro h l r
    rw [(C74_between_partial C op v h).2]
    simp

/-- Comparison with a value: `?:` evaluates only one of its operands, whatever their types. It compiles if the type can be converted
to `bool` and `bool` cannot be converted to the type. The standard has the same expression. -/
theorem C74_values (C : Classes) (op : RelOp) (v : Val) :
    ((withValueExpr op).compiles C v.type = true ↔ stdCompiles C v.type = true ∧ ∀ k, v.type = .cls k → C.fromBool k = false) ∧
    ((valueWithExpr op).compiles C v.type = true ↔ stdCompiles C v.type = true ∧ ∀ k, v.type = .cls k → C.fromBool k = false) ∧
    ((withValueExpr op).compiles C v.type = true → ∀ l, (withValueExpr op).returns C v l true = some (stdCompare C op v l true)) ∧
    ((valueWithExpr op).compiles C v.type = true → ∀ r, (valueWithExpr op).returns C v true r = some (stdCompare C op v true r)) := by
  cases v with
  | bool b =>
    refine ⟨?_, ?_, fun _ l => ?_, fun _ r => ?_⟩
    · cases op <;> simp [withValueExpr, E.compiles, E.type, condType, RTy.implicit, Val.type, stdCompiles]
    · cases op <;> simp [valueWithExpr, E.compiles, E.type, condType, RTy.implicit, Val.type, stdCompiles]
    · cases op <;> cases l <;> cases b <;> rfl
    · cases op <;> cases r <;> cases b <;> rfl
  | obj k n =>
    have hw : ∀ o, (E.type C (.cls k) (withValueExpr o)) = condType C (.cls k) .bool := by intro o; cases o <;> rfl
    have hv : ∀ o, (E.type C (.cls k) (valueWithExpr o)) = condType C (.cls k) .bool := by intro o; cases o <;> rfl
    have hcond : ∀ e, E.type C (.cls k) e = condType C (.cls k) .bool → (e.compiles C (.cls k) = true ↔
        stdCompiles C (.cls k) = true ∧ ∀ k', RTy.cls k = .cls k' → C.fromBool k' = false) := by
      intro e he
      have hs : (stdCompiles C (.cls k) = true ∧ ∀ k', RTy.cls k = .cls k' → C.fromBool k' = false) ↔
          C.conv k = .implicit ∧ C.fromBool k = false := by
        simp [stdCompiles, RTy.implicit]
      rw [hs]
      unfold E.compiles
      rw [he]
      have hi' : condType C (.cls k) .bool = match C.conv k, C.fromBool k with
          | .implicit, false => some .bool
          | .implicit, true => none
          | _, true => some (.cls k)
          | _, false => none := by
        simp only [condType]
        cases C.fromBool k <;> cases C.conv k <;> rfl
      rw [hi']
      cases hf : C.fromBool k <;> cases hi : C.conv k <;> simp [RTy.implicit, hi]
    have hb : stdCompiles C (.cls k) = true ∧ (∀ k', RTy.cls k = .cls k' → C.fromBool k' = false) →
        condType C (.cls k) .bool = some .bool := by
      rintro ⟨h1, h2⟩
      have h3 := h2 k rfl
      simp only [stdCompiles, RTy.implicit] at h1
      simp [condType, h1, h3]
    refine ⟨?_, ?_, fun hc l => ?_, fun hc r => ?_⟩
    · exact hcond _ (hw op)
    · exact hcond _ (hv op)
    · have := hb ((hcond _ (hw op)).1 hc)
      cases op <;> cases l <;>
        simp [withValueExpr, E.returns, E.eval, E.type, Val.type, Val.toBool, stdCompare, stdRel, this]
    · have := hb ((hcond _ (hv op)).1 hc)
      cases op <;> cases r <;>
        simp [valueWithExpr, E.returns, E.eval, E.type, Val.type, Val.toBool, stdCompare, stdRel, this]

/-- A class like `boost::logic::tribool` with an implicit conversion: `||` and `&&` are overloaded, and return it again. -/
def exTri : Classes where
  conv _ := .implicit
  fromBool _ := true
  orOp k := some (.cls k)
  andOp k := some (.cls k)
  toBool _ n := n == 1
  orFn _ b n := if b then 1 else n
  andFn _ b n := if b then n else 0

/-- The full claim is false: for such a class `std::optional` can be compared, and the payloads of two empty optionals (or of an empty
one and another one) are not touched; the library reads them. -/
theorem C74_false (op : RelOp) : ∃ (C : Classes) (v : Val), stdCompiles C v.type = true ∧ (betweenExpr op).compiles C v.type = true ∧
    ∃ l r, (l && r) = false ∧ (betweenExpr op).returns C v l r = none ∧ (stdCompare C op v l r).2 = 0 := by
  refine ⟨exTri, .obj 0 1, rfl, by cases op <;> rfl, ?_⟩
  cases op
  · exact ⟨false, false, rfl, rfl, rfl⟩
  · exact ⟨false, false, rfl, rfl, rfl⟩
  · exact ⟨false, true, rfl, rfl, rfl⟩
  · exact ⟨true, false, rfl, rfl, rfl⟩
  · exact ⟨true, false, rfl, rfl, rfl⟩
  · exact ⟨false, true, rfl, rfl, rfl⟩

/-- Types that are only explicitly convertible to `bool` are accepted, in contrast to `std::optional`. -/
theorem C74_explicit (C : Classes) (op : RelOp) {k : Nat} (h : innerOp C op k = none) (hk : C.conv k = .explicit) :
    (betweenExpr op).compiles C (.cls k) = true ∧ stdCompiles C (.cls k) = false := by
  refine ⟨?_, by simp [stdCompiles, RTy.implicit, hk]⟩
  have := (C74_between_partial C op (.obj k 0) h).1
  rw [show (Val.obj k 0).type = .cls k from rfl] at this
  rw [this]
  simp [RTy.contextual, hk]

/-! ## Cases -/

/-- A class like `std::true_type`. -/
def exConst : Classes where
  conv k := if k = 0 then .implicit else .explicit
  fromBool _ := false
  orOp _ := none
  andOp _ := none
  toBool _ n := n == 1
  orFn _ _ n := n
  andFn _ _ n := n

example (op : RelOp) : userOp (innerOp exConst op) (Val.obj 0 1).type = none := by cases op <;> rfl
example : (betweenExpr .lt).returns exConst (.obj 0 1) true true = some (true, 1) := by decide
example : (betweenExpr .lt).returns exConst (.obj 0 1) false true = some (true, 0) := by decide
example : (withValueExpr .eq).compiles exConst (.cls 0) = true ∧ (withValueExpr .eq).compiles exTri (.cls 0) = false := by decide
example (op : RelOp) : innerOp exConst op 1 = none ∧ exConst.conv 1 = .explicit := by cases op <;> exact ⟨rfl, rfl⟩
example := C74_between_partial exConst .lt (.obj 0 1) rfl
example := C74_compiles_partial exConst .lt (.obj 0 1) rfl (by decide)
example := C74_exact exTri .eq (.obj 0 1) (by decide)
example := C74_explicit exConst .eq (k := 1) rfl rfl

end Verif.Props
