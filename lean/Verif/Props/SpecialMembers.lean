import Verif.Model.SpecialMembers

/-!
# C38: special members follow the traits of the payload
-/

namespace Verif.Props
open Verif.Spec Verif.Model

/-- The four uses of special members. -/
def SameUses (a b : Members) : Prop :=
  a.ctorLvalue = b.ctorLvalue ∧ a.ctorRvalue = b.ctorRvalue ∧ a.assignLvalue = b.assignLvalue ∧
  a.assignRvalue = b.assignRvalue

theorem sameUses_trans {a b c : Members} (h1 : SameUses a b) (h2 : SameUses b c) : SameUses a c :=
  ⟨h1.1.trans h2.1, h1.2.1.trans h2.2.1, h1.2.2.1.trans h2.2.2.1, h1.2.2.2.trans h2.2.2.2⟩

theorem use_copy (o : Option (Action × Bool)) : (defaultedCopy o).use = o := by cases o <;> rfl

theorem use_move (o c : Option (Action × Bool)) (h : o = none → c = none) :
    (match defaultedMove o with | .absent => (defaultedCopy c).use | x => x.use) = o := by
  cases o with
  | none => rw [h rfl]; rfl
  | some p => rfl

/-- What can be done with an lvalue can be done with an rvalue. -/
def RvalueOK (m : Members) : Prop :=
  (m.ctorRvalue = none → m.ctorLvalue = none) ∧ (m.assignRvalue = none → m.assignLvalue = none)

/-- Deriving from a class and defaulting everything changes nothing. -/
theorem C38_derived {m : Members} (h : RvalueOK m) : SameUses (resolve m allDefaulted) m ∧ RvalueOK (resolve m allDefaulted) := by
  have h1 : SameUses (resolve m allDefaulted) m :=
    ⟨use_copy _, use_move _ _ h.1, use_copy _, use_move _ _ h.2⟩
  refine ⟨h1, ?_⟩
  unfold RvalueOK
  rw [h1.1, h1.2.1, h1.2.2.1, h1.2.2.2]
  exact h

/-- ... nor does deriving from it without declaring anything ("rule of zero"). -/
theorem C38_derived_implicit {m : Members} (h : RvalueOK m) :
    SameUses (resolve m ⟨.undeclared, .undeclared, .undeclared, .undeclared, false⟩) m :=
  ⟨use_copy _, use_move _ _ h.1, use_copy _, use_move _ _ h.2⟩

theorem impl_std (t : Traits) : SameUses (tinyOptionalImpl t) (stdOptional t) ∧ RvalueOK (tinyOptionalImpl t) := by
  obtain ⟨cc, mc, ca, ma, n1, n2⟩ := t
  cases cc <;> cases mc <;> cases ca <;> cases ma <;> cases n1 <;> cases n2 <;> (unfold SameUses RvalueOK; decide)

/-- C38. For all traits: `TinyOptionalImpl` and `optional` can be constructed from and assigned to from lvalues and rvalues
exactly when `std::optional` can, with the same effect on the payload and the same written noexcept specification (what follows from
triviality is in C75). -/
theorem C38_std (t : Traits) : SameUses (tinyOptionalImpl t) (stdOptional t) ∧ SameUses (optionalMembers t) (stdOptional t) :=
  ⟨(impl_std t).1, sameUses_trans (C38_derived (impl_std t).2).1 (impl_std t).1⟩

/-- The same for a class hierarchy of any depth derived from `optional` with defaulted members. -/
theorem C38_hierarchy (t : Traits) (n : Nat) :
    SameUses ((List.replicate n allDefaulted).foldl resolve (optionalMembers t)) (stdOptional t) := by
  have key : ∀ n (m : Members), SameUses m (stdOptional t) → RvalueOK m →
      SameUses ((List.replicate n allDefaulted).foldl resolve m) (stdOptional t) := by
    intro n
    induction n with
    | zero => intro m h _; exact h
    | succ n ih =>
      intro m h hr
      obtain ⟨h1, h2⟩ := C38_derived hr
      exact ih _ (sameUses_trans h1 h) h2
  exact key n _ (C38_std t).2 (C38_derived (impl_std t).2).2

/-- An rvalue of an optional of a copyable type that cannot be moved is copied. -/
theorem C38_fallback (t : Traits) (hm : t.moveConstructible = false) (hc : t.copyConstructible = true) :
    (optionalMembers t).ctorRvalue = some (.copyConstruct, false) ∧
    (t.copyAssignable = true → (optionalMembers t).assignRvalue = some (.copyAssign, false)) := by
  obtain ⟨_, h2, _, h4⟩ := (C38_std t).2
  rw [h2, h4]
  refine ⟨by simp [stdOptional, Members.ctorRvalue, hm, hc, Member.use], fun ha => ?_⟩
  simp [stdOptional, Members.assignRvalue, hm, hc, ha, Member.use]

/-- A move-only payload: the optional is move-only. A payload like `std::pair<const int, int>` (constructible, not
assignable): no assignment. -/
example : (optionalMembers ⟨false, true, false, true, true, true⟩).ctorLvalue = none ∧
    (optionalMembers ⟨false, true, false, true, true, true⟩).ctorRvalue = some (.moveConstruct, true) ∧
    (optionalMembers ⟨true, true, false, false, true, false⟩).ctorLvalue = some (.copyConstruct, false) ∧
    (optionalMembers ⟨true, true, false, false, true, false⟩).assignRvalue = none ∧
    (optionalMembers ⟨true, false, true, false, false, false⟩).ctorRvalue = some (.copyConstruct, false) := by decide

/-- `C38_fallback` for the last of these; `C38_derived` and `C38_derived_implicit` for the optional of a move-only type. -/
example : (optionalMembers ⟨true, false, true, false, false, false⟩).assignRvalue = some (.copyAssign, false) ∧
    (resolve (optionalMembers ⟨false, true, false, true, true, true⟩) allDefaulted).ctorRvalue = some (.moveConstruct, true) ∧
    (resolve (optionalMembers ⟨false, true, false, true, true, true⟩) ⟨.undeclared, .undeclared, .undeclared, .undeclared, false⟩).ctorLvalue =
      none :=
  ⟨(C38_fallback ⟨true, false, true, false, false, false⟩ rfl rfl).2 rfl,
    (C38_derived (m := optionalMembers ⟨false, true, false, true, true, true⟩) (by unfold RvalueOK; decide)).1.2.1.trans rfl,
    (C38_derived_implicit (m := optionalMembers ⟨false, true, false, true, true, true⟩) (by unfold RvalueOK; decide)).1.trans rfl⟩

end Verif.Props
