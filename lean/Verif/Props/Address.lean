import Verif.Model.Address

/-! # C78: types that overload the unary `&` or allocation functions -/

namespace Verif.Props
open Verif Verif.Spec.Address Verif.Model.Address

/-- C78. Payloads, and flags given by an explicit sentinel, are constructed at their own address by every new expression of the library, for all
types: whatever the unary `&` and the allocation functions of the type do, and also for `const` and `volatile` payloads. The part of the claim
that holds for constructions; missing is `sentinel_flag_manipulator` (`C78_false`). -/
theorem C78_constructs_partial (T : Ty) (a : Nat) (s : NewSite) (h : s ≠ .sentinelFlag) : (newExpr s).eval T a = some a := by
  rcases T with ⟨c, v, amp, cn, gn⟩
  cases s <;> first | exact absurd rfl h | (cases gn <;> cases cn <;> rfl)

/-- C78. The flag manipulators that copy and compare bytes, and `operator->`, use the address of the object, as a pointer of the type that they
need. -/
theorem C78_pointers (T : Ty) (a : Nat) (s : PtrSite) : (ptrExpr s).eval T a = some ⟨ptrNeeds T s, a⟩ := by
  cases s <;> rfl

/-- C78. None of these expressions throws. -/
theorem C78_nothrow (T : Ty) :
    (∀ s, (ptrExpr s).nothrow T = true) ∧ ∀ s, s ≠ .sentinelFlag → (newExpr s).placement.nothrow T = true := by
  constructor
  · intro s; cases s <;> rfl
  · intro s h
    cases s <;> first | exact absurd rfl h | rfl

/-- C78. `sentinel_flag_manipulator` constructs the flag in the right place for all types with the built-in `&`, without `const` and `volatile`
and without an allocation function of their own for pointers to them. -/
theorem C78_sentinel_partial (T : Ty) (a : Nat) (hc : T.isConst = false) (hv : T.isVolatile = false) (ha : T.amp = none)
    (hg : T.globalNew = none) : (newExpr .sentinelFlag).eval T a = some a := by
  rcases T with ⟨c, v, amp, cn, gn⟩
  simp only at hc hv ha hg
  subst hc hv ha hg
  cases cn <;> rfl

/-- C78. The conditions are needed: for the other types with the built-in `&` it does not compile, or constructs the flag in a wrong place. -/
theorem C78_sentinel_exact (T : Ty) (ha : T.amp = none) :
    (∀ a, (newExpr .sentinelFlag).eval T a = some a) ↔
      T.isConst = false ∧ T.isVolatile = false ∧ ∀ f, T.globalNew = some f → ∀ a, f a = a := by
  rcases T with ⟨c, v, amp, cn, gn⟩
  simp only at ha
  subst ha
  cases c <;> cases v <;> cases gn <;> cases cn <;>
    simp [newExpr, NewExpr.eval, Expr.eval, globalAlloc, Ptr.convertsToVoid]

/-- C78. For `sentinel_flag_manipulator` the claim is false: there is a type with an overloaded `&` (for example a class whose `&` yields the address of a
member) for which it compiles and constructs the flag elsewhere; one whose `&` yields a proxy, for which it does not compile; and one
with a global allocation function for which it constructs the flag elsewhere. -/
theorem C78_false :
    (∃ T : Ty, T.isConst = false ∧ T.isVolatile = false ∧ T.globalNew = none ∧ T.classNew = none ∧
      ∀ a, ∃ b, b ≠ a ∧ (newExpr .sentinelFlag).eval T a = some b) ∧
    (∃ T : Ty, T.isConst = false ∧ T.isVolatile = false ∧ T.globalNew = none ∧ T.classNew = none ∧
      ∀ a, (newExpr .sentinelFlag).eval T a = none) ∧
    (∃ T : Ty, T.isConst = false ∧ T.isVolatile = false ∧ T.amp = none ∧ T.classNew = none ∧
      ∀ a, ∃ b, b ≠ a ∧ (newExpr .sentinelFlag).eval T a = some b) :=
  ⟨⟨⟨false, false, some ⟨.pointer (· + 8), true⟩, none, none⟩, rfl, rfl, rfl, rfl, fun a => ⟨a + 8, by omega, rfl⟩⟩,
    ⟨⟨false, false, some ⟨.other, true⟩, none, none⟩, rfl, rfl, rfl, rfl, fun _ => rfl⟩,
    ⟨⟨false, false, none, none, some (· + 8)⟩, rfl, rfl, rfl, rfl, fun a => ⟨a + 8, by omega, rfl⟩⟩⟩

/-- C78. The `static_assert` on the assignment operator of a flag says what its message says if the type has the built-in `&`. -/
theorem C78_check_partial (T : Ty) (nt : Bool) (ha : T.amp = none) : assignCheck T nt = some nt := by
  simp [assignCheck, checkedExpr, Expr.eval, Expr.nothrow, ha]

/-- C78. Otherwise it may reject a type whose assignment operator is noexcept: if the overloaded `&` is not noexcept, or does not return a
pointer. -/
theorem C78_check_false :
    (∃ T : Ty, T.isConst = false ∧ T.isVolatile = false ∧ assignCheck T true = some false) ∧
    ∃ T : Ty, T.isConst = false ∧ T.isVolatile = false ∧ assignCheck T true = none :=
  ⟨⟨⟨false, false, some ⟨.pointer id, false⟩, none, none⟩, rfl, rfl, rfl⟩, ⟨⟨false, false, some ⟨.other, true⟩, none, none⟩, rfl, rfl, rfl⟩⟩

/-- C78. It never accepts a type whose assignment operator is not noexcept, and whenever an optional with an explicit sentinel compiles, its flag is
constructed in the right place. -/
theorem C78_check_sound (T : Ty) (nt : Bool) :
    (assignCheck T nt = some true → nt = true) ∧ ∀ a b, assignmentInit T nt a = some b → nt = true ∧ b = a := by
  have h1 : assignCheck T nt = some true → nt = true := by
    unfold assignCheck
    rcases checkedExpr.eval T 0 with _ | p <;> cases nt <;> simp
  refine ⟨h1, fun a b h => ?_⟩
  unfold assignmentInit at h
  split at h
  · rename_i hc
    rw [C78_constructs_partial T a _ (by decide)] at h
    exact ⟨h1 hc, by injection h with h; exact h.symm⟩
  · exact nomatch h

/-! ### The claims at work -/

/-- A `const` payload whose class overloads `&` so that it does not yield a pointer, and has its own `operator new`; there is also a global allocation function for
pointers to it. -/
private def hostile : Ty := ⟨true, false, some ⟨.other, false⟩, some (· + 1), some (· + 2)⟩

example : (newExpr .payload).eval hostile 40 = some 40 := C78_constructs_partial _ _ _ (by decide)
example : (ptrExpr .arrow).eval hostile 40 = some ⟨.object true false, 40⟩ := C78_pointers _ _ .arrow
/-- What `new (…)`, `&` and a missing cast would have done. -/
example : (⟨false, .toVoid .addressof⟩ : NewExpr).eval hostile 40 = some 41 ∧ (⟨true, .toVoid .amp⟩ : NewExpr).eval hostile 40 = none ∧
    (⟨true, .addressof⟩ : NewExpr).eval hostile 40 = none ∧
    (⟨true, .addressof⟩ : NewExpr).eval { hostile with isConst := false } 40 = some 42 := ⟨rfl, rfl, rfl, rfl⟩

/-- A class that has its own `operator new`: `sentinel_flag_manipulator` works. For a `const` payload it does not. -/
example : (newExpr .sentinelFlag).eval ⟨false, false, none, some (· + 1), none⟩ 40 = some 40 := C78_sentinel_partial _ _ rfl rfl rfl rfl
example : ¬ ∀ a, (newExpr .sentinelFlag).eval ⟨true, false, none, none, none⟩ a = some a :=
  fun h => by simpa using (C78_sentinel_exact _ rfl).1 h
example : assignCheck ⟨true, true, none, none, none⟩ false = some false := C78_check_partial _ _ rfl
example : assignmentInit ⟨true, true, some ⟨.pointer (· + 8), true⟩, none, none⟩ true 40 = some 40 := rfl

end Verif.Props
