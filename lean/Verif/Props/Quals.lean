import Verif.Model.Quals

/-!
# C56: constness and value categories
-/

namespace Verif.Props
open Verif Verif.Model

/-- What `o.m` is for a data member `m` of type `T` or `const T` (`mc`), [expr.ref]: const if the object or the member is, and of the same
value category as the object (an xvalue for a prvalue). -/
def memberAccess (mc : Bool) (o : Qual) : Qual := ⟨o.const || mc, o.rvalue⟩

/-- The result of a function that declares a result and returns an expression, if the expression has that type. -/
def resultOf (pc : Bool) : Sig × QDecl × QExpr → Option Qual
  | (s, d, e) => if e.type pc s.const = some (d.expr pc) then some (d.expr pc) else none

/-- C56. `o.value()` is the payload like a member of `o`, for every kind of `o`; the function that is selected returns an expression of its
declared result type. -/
theorem C56_value (pc : Bool) (o : Qual) : (selectFn valueFns o).bind (resultOf pc) = some (memberAccess pc o) := by
  obtain ⟨_ | _, _ | _⟩ := o <;> cases pc <;> rfl

/-- C56. The same for `*o`. -/
theorem C56_deref (pc : Bool) (o : Qual) : (selectFn derefFns o).bind (resultOf pc) = some (memberAccess pc o) := by
  obtain ⟨_ | _, _ | _⟩ := o <;> cases pc <;> rfl

/-- C56. `o->` points to the payload, with the same constness; what it points to is an lvalue. -/
theorem C56_arrow (pc : Bool) (o : Qual) : (selectFn arrowFns o).bind (resultOf pc) = some ⟨(memberAccess pc o).const, false⟩ := by
  obtain ⟨_ | _, _ | _⟩ := o <;> cases pc <;> rfl

/-- C56. `o.value_or(d)` is made from the payload as modifiable rvalue (if the payload type is not const) for modifiable rvalues
`o`, otherwise from the payload as const lvalue. -/
theorem C56_value_or (pc : Bool) (o : Qual) : (selectFn valueOrFns o).bind (fun f => f.2.type pc f.1.const) =
    some (if o = ⟨false, true⟩ then memberAccess pc o else ⟨true, false⟩) := by
  obtain ⟨_ | _, _ | _⟩ := o <;> cases pc <;> rfl

/-- What a function passes to `f`, if the type that the result type is computed from is that of the call. -/
def passes (pc : Bool) : Sig × QDecl × QExpr → Option Qual
  | (s, d, e) => if e.type pc s.const = some (d.expr pc) then e.type pc s.const else none

/-- C56. `and_then` passes the payload like a member of `o`, and computes the result type for that argument. -/
theorem C56_and_then (pc : Bool) (o : Qual) : (selectFn andThenFns o).bind (passes pc) = some (memberAccess pc o) := by
  obtain ⟨_ | _, _ | _⟩ := o <;> cases pc <;> rfl

/-- C56. The same for `transform`, whose argument takes a detour through three functions. -/
theorem C56_transform (pc : Bool) (o : Qual) :
    (selectFn transformFns o).bind (fun f => (passes pc f).map transformArg) = some (memberAccess pc o) := by
  obtain ⟨_ | _, _ | _⟩ := o <;> cases pc <;> rfl

/-- C56. The exception specification and the choice of the branch in `ConstructPayloadFromFunction` are computed for the argument
that `f` gets. -/
theorem C56_transform_noexcept (q : Qual) : (transformArgT q).expr false = transformArg q := by
  obtain ⟨_ | _, _ | _⟩ := q <;> rfl

/-- C56. `or_else` makes the result by moving for modifiable rvalues `o`, otherwise by copying, if `f` returns by value (C71 for references).
It is rejected exactly if the payload does not allow that. (Types that can be copied can be moved.) -/
theorem C56_or_else {copyable movable : Bool} (h : copyable = true → movable = true) (pc : Bool) (o : Qual) :
    (selectFn (orElseFns copyable movable) o).bind (fun f => f.2.type pc f.1.const) =
      if o = ⟨false, true⟩ then (if movable then some ⟨false, true⟩ else none)
      else (if copyable then some ⟨true, false⟩ else none) := by
  obtain ⟨_ | _, _ | _⟩ := o <;> cases copyable <;> cases movable <;> first | rfl | exact absurd (h rfl) nofun

example := C56_or_else (copyable := false) (movable := true) nofun false ⟨false, true⟩

/-! The hypotheses are void; a few instances in C++ terms. -/

/-- `std::move(o).value()` is a `T &&`. -/
example : (selectFn valueFns ⟨false, true⟩).bind (resultOf false) = some ⟨false, true⟩ := C56_value _ _
/-- `*std::as_const(o)` for an `optional<T>` is a `T const &`. -/
example : (selectFn derefFns ⟨true, false⟩).bind (resultOf false) = some ⟨true, false⟩ := C56_deref _ _
/-- `std::move(std::as_const(o)).value_or(d)` copies. -/
example : (selectFn valueOrFns ⟨true, true⟩).bind (fun f => f.2.type false f.1.const) = some ⟨true, false⟩ := C56_value_or _ _

/-- C56. No two overloads beat each other, so that the selection is no matter of the order of declarations. -/
theorem C56_asymm (s t : Sig) (h : s.better t = true) : t.better s = false := by
  revert h
  rcases s with ⟨_ | _, _ | _ | _⟩ <;> rcases t with ⟨_ | _, _ | _ | _⟩ <;> decide

example : Sig.better ⟨true, .lref⟩ ⟨false, .rref⟩ = false := C56_asymm ⟨false, .rref⟩ _ rfl

/-! ### Results of `f` -/

/-- What [optional.monadic] demands of `U = remove_cv_t<R>`: a non-array object type (no reference, no function, not void) other than
`in_place_t` and `nullopt_t`. -/
def StdTransformable (r : Ret) : Prop :=
  r.ref = .none ∧ r.kind ≠ .function ∧ r.kind ≠ .void ∧ r.kind ≠ .array ∧ r.kind ≠ .inPlace ∧ r.kind ≠ .nullopt

theorem C56_transform_accepts (r : Ret) : transformAccepts r = true ↔ StdTransformable r := by
  obtain ⟨k, _, _, ref⟩ := r
  cases k <;> cases ref <;> simp [transformAccepts, StdTransformable]

/-- C56. `and_then` accepts exactly the functions that return some optional, whatever its kind and however it is qualified. -/
theorem C56_and_then_accepts (r : Ret) : andThenAccepts r = true ↔ ∃ n, r.kind = .tiny n ∨ r.kind = .stdOptional n := by
  obtain ⟨k, _, _, _⟩ := r
  cases k <;> simp [andThenAccepts]

/-- C56. `or_else` accepts exactly the functions that return the optional's own type, possibly qualified or by reference. -/
theorem C56_or_else_accepts (self : Nat) (r : Ret) : orElseAccepts self r = true ↔ r.kind = .tiny self := by
  simp [orElseAccepts]

example : transformAccepts ⟨.object 3, true, false, .none⟩ = true := by decide
example : transformAccepts ⟨.object 3, true, false, .lref⟩ = false := by decide
example : andThenAccepts ⟨.stdOptional 3, true, false, .lref⟩ = true := by decide

end Verif.Props
