import Verif.Model.Conditional

/-!
# C71: the results of `value_or` and `or_else` are initialised as for `std::optional`
-/

namespace Verif.Props
open Verif Verif.Model Verif.Spec.Cond

/-- A modifiable rvalue. -/
def Spent (o : Qual) : Bool := !o.const && o.rvalue

/-- The claim for `or_else`. The concept `copy_constructible` of its constraint includes `move_constructible`. -/
def C71_or_else_claim (w : Wording) : Prop :=
  ∀ (c : Ctors) (o : Qual) (ret : QDecl), (c.copy = true → c.move = true) → orElseInit w c o ret = stdOrElse c (Spent o) ret.operand

/-- The claim for `value_or`. -/
def C71_value_or_claim (w : Wording) : Prop :=
  ∀ (c : Ctors) (pc : Bool) (o : Qual), valueOrInit w c pc o = stdValueOr c pc (Spent o)

/-- The callables for which `or_else` is different: for an rvalue optional those that return a const rvalue reference, and with the wording
of C++20 also a const lvalue reference; for an lvalue optional, with the wording of C++20, those that return an rvalue reference. -/
def Odd (w : Wording) (rv : Bool) (ret : QDecl) : Prop :=
  (rv = true ∧ ret.const = true ∧ (ret.ref = .rref ∨ ret.ref = .lref ∧ w = .glvalue)) ∨
  (rv = false ∧ ret = ⟨false, .rref⟩ ∧ w = .glvalue)

instance (w : Wording) (rv : Bool) (ret : QDecl) : Decidable (Odd w rv ret) := by unfold Odd; infer_instance

/-- C71. `or_else` is as prescribed exactly if the callable is not one of those above, or the payload cannot be copied (then both do not
compile). -/
theorem C71_or_else_exact {c : Ctors} (hc : c.copy = true → c.move = true) (w : Wording) (o : Qual) (ret : QDecl) :
    orElseInit w c o ret = stdOrElse c (Spent o) ret.operand ↔ ¬(c.copy = true ∧ Odd w (Spent o) ret) := by
  obtain ⟨_ | _, _ | _⟩ := c
  case true.false => exact absurd (hc rfl) nofun
  all_goals
    obtain ⟨_ | _, _ | _⟩ := o <;> obtain ⟨_ | _, _ | _ | _⟩ := ret <;> cases w <;> decide

/-- C71 for `or_else` with callables that return by value or a reference to a modifiable lvalue, and for rvalue optionals also those that
return a reference to a modifiable rvalue. Missing: the callables that return other references, for which it is false (`C71_false`). -/
theorem C71_or_else_partial {c : Ctors} (hc : c.copy = true → c.move = true) (w : Wording) (o : Qual) {ret : QDecl}
    (hr : ret.ref = .none ∨ ret = ⟨false, .lref⟩ ∨ ret = ⟨false, .rref⟩ ∧ Spent o = true) :
    orElseInit w c o ret = stdOrElse c (Spent o) ret.operand := by
  rw [C71_or_else_exact hc]
  rintro ⟨_, ⟨_, h, h'⟩ | ⟨h, rfl, _⟩⟩
  · rcases hr with hr | rfl | ⟨rfl, _⟩
    · rw [hr] at h'
      simp at h'
    · cases h
    · cases h
  · simp [h] at hr

/-- A callable that returns by value, and a move-only payload in an rvalue optional. -/
example : orElseInit .glvalue ⟨false, true⟩ ⟨false, true⟩ ⟨false, .none⟩ = some (.moved, .elided) :=
  C71_or_else_partial (by decide) _ _ (.inl rfl)

/-- A callable that returns an lvalue reference: the optional is moved, the other one is copied. -/
example : orElseInit .glvalue ⟨true, true⟩ ⟨false, true⟩ ⟨false, .lref⟩ = some (.moved, .copied) :=
  C71_or_else_partial (fun _ => rfl) _ _ (.inr (.inl rfl))

example := C71_or_else_exact (c := ⟨true, true⟩) (fun _ => rfl) .glvalue ⟨false, false⟩ ⟨false, .rref⟩

/-- C71. `value_or` is as prescribed exactly if the optional is not a modifiable rvalue with const payload, or the payload cannot be
copied. -/
theorem C71_value_or_exact (c : Ctors) (w : Wording) (pc : Bool) (o : Qual) :
    valueOrInit w c pc o = stdValueOr c pc (Spent o) ↔ ¬(c.copy = true ∧ pc = true ∧ Spent o = true) := by
  obtain ⟨_ | _, _ | _⟩ := c <;> obtain ⟨_ | _, _ | _⟩ := o <;> cases pc <;> cases w <;> decide

/-- C71 for `value_or` with payload types that are not const. Missing: const payload types, for which it is false (`C71_false`). -/
theorem C71_value_or_partial (c : Ctors) (w : Wording) (o : Qual) :
    valueOrInit w c false o = stdValueOr c false (Spent o) := by
  rw [C71_value_or_exact]
  exact fun h => absurd h.2.1 nofun

/-- `std::move(o).value_or(d)` for a move-only payload. -/
example : valueOrInit .glvalue ⟨false, true⟩ false ⟨false, true⟩ = some (.moved, .elided) := C71_value_or_partial _ _ _

/-- A payload that can be copied but not moved. -/
example : valueOrInit .glvalue ⟨true, false⟩ false ⟨true, false⟩ = some (.copied, .elided) := C71_value_or_partial _ _ _

example := C71_value_or_exact ⟨true, true⟩ .glvalue true ⟨false, true⟩

/-- C71. Nowhere is the conditional expression ill-formed or its result worse than a copy: both functions compile exactly if those of
`std::optional` do. For `or_else`: `copy_constructible` includes `move_constructible`. -/
theorem C71_compiles (c : Ctors) (w : Wording) (o : Qual) :
    ((c.copy = true → c.move = true) →
      ∀ ret : QDecl, (orElseInit w c o ret).isSome = (stdOrElse c (Spent o) ret.operand).isSome) ∧
    ∀ pc, (valueOrInit w c pc o).isSome = (stdValueOr c pc (Spent o)).isSome := by
  refine ⟨fun hc => ?_, ?_⟩
  · obtain ⟨_ | _, _ | _⟩ := c
    case true.false => exact absurd (hc rfl) nofun
    all_goals
      rintro ⟨_ | _, _ | _ | _⟩ <;> obtain ⟨_ | _, _ | _⟩ := o <;> cases w <;> rfl
  · obtain ⟨_ | _, _ | _⟩ := c <;> rintro (_ | _) <;> obtain ⟨_ | _, _ | _⟩ := o <;> cases w <;> rfl

example := C71_compiles ⟨false, true⟩ .glvalue ⟨false, true⟩

/-- C71 is false. The conditional operator gives both operands one type and value category. (1) `std::move(o).or_else(f)`, where `f` returns an
`optional const &`, copies the payload of an engaged `o` instead of moving it (C++20), likewise (2) for `optional const &&` (any
version). (3) `o.or_else(f)`, where `f` returns an `optional &&`, copies from its result instead of moving (C++20). (4)
`std::move(o).value_or(d)` with a const payload type makes a temporary of `d` and copies it. -/
theorem C71_false : (∀ w, ¬ C71_or_else_claim w) ∧ (∀ w, ¬ C71_value_or_claim w) ∧
    (orElseInit .glvalue ⟨true, true⟩ ⟨false, true⟩ ⟨true, .lref⟩ = some (.copied, .copied) ∧
      stdOrElse ⟨true, true⟩ true (QDecl.operand ⟨true, .lref⟩) = some (.moved, .copied)) ∧
    (∀ w, orElseInit w ⟨true, true⟩ ⟨false, true⟩ ⟨true, .rref⟩ = some (.copied, .copied) ∧
      stdOrElse ⟨true, true⟩ true (QDecl.operand ⟨true, .rref⟩) = some (.moved, .copied)) ∧
    (orElseInit .glvalue ⟨true, true⟩ ⟨false, false⟩ ⟨false, .rref⟩ = some (.copied, .copied) ∧
      stdOrElse ⟨true, true⟩ false (QDecl.operand ⟨false, .rref⟩) = some (.copied, .moved)) ∧
    ∀ w, valueOrInit w ⟨true, true⟩ true ⟨false, true⟩ = some (.copied, .tempCopied) ∧
      stdValueOr ⟨true, true⟩ true true = some (.copied, .elided) := by
  refine ⟨fun w h => ?_, fun w h => ?_, by decide, fun w => by cases w <;> decide, by decide, fun w => by cases w <;> decide⟩
  · have := h ⟨true, true⟩ ⟨false, true⟩ ⟨true, .rref⟩ (fun _ => rfl)
    cases w <;> exact absurd this (by decide)
  · have := h ⟨true, true⟩ true ⟨false, true⟩
    cases w <;> exact absurd this (by decide)

end Verif.Props
