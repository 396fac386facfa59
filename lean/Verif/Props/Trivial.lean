import Verif.Model.SpecialMembers

/-!
# C67: no special member function is trivial
-/

namespace Verif.Props
open Verif.Spec Verif.Model

/-- None of the traits holds. -/
def noTraits : TrivialTraits := ⟨false, false, false, false, false, false, false⟩

/-- The members are those of C38. -/
theorem C67_members (t : Traits) : (optionalTrivial t).1 = optionalMembers t ∧ (tinyOptionalImplTrivial t).1 = tinyOptionalImpl t := by
  constructor <;> rfl

/-- C67. For all payloads: no special member function of an optional is trivial, and `std::is_trivially_…` as well as
`std::is_trivially_copyable` are false. -/
theorem C67_not_trivial (t : Traits) :
    traitsOf (tinyOptionalImplTrivial t) = noTraits ∧ traitsOf (optionalTrivial t) = noTraits ∧
    (optionalTrivial t).2 = ⟨false, false, false, false, false, false⟩ := by
  obtain ⟨cc, mc, ca, ma, n1, n2⟩ := t
  cases cc <;> cases mc <;> cases ca <;> cases ma <;> cases n1 <;> cases n2 <;> decide

/-- The same for classes derived from an optional, in any number of steps, whatever they declare. -/
theorem C67_derived (t : Traits) (ds : List FullDecl) :
    traitsOf (ds.foldl resolveTrivial (optionalTrivial t)) = noTraits ∧
    (ds.foldl resolveTrivial (optionalTrivial t)).2 = ⟨false, false, false, false, false, false⟩ := by
  have tm : ∀ d m, trivialMember d m false = false := by
    intro d m
    cases d <;> cases m <;> rfl
  have key : ∀ (ds : List FullDecl) (c : Members × Trivial), c.2 = ⟨false, false, false, false, false, false⟩ →
      (ds.foldl resolveTrivial c).2 = ⟨false, false, false, false, false, false⟩ := by
    intro ds
    induction ds with
    | nil => intro c h; exact h
    | cons d ds ih =>
      intro c h
      refine ih _ ?_
      have h1 : c.2.ctorRvalue c.1 = false := by rw [h]; simp only [Trivial.ctorRvalue]; split <;> rfl
      have h2 : c.2.assignRvalue c.1 = false := by rw [h]; simp only [Trivial.assignRvalue]; split <;> rfl
      simp only [resolveTrivial, h1, h2, tm]
      simp [h, tm]
  have h := key ds (optionalTrivial t) (C67_not_trivial t).2.2
  refine ⟨?_, h⟩
  have h1 : ∀ m : Members, Trivial.assignRvalue m ⟨false, false, false, false, false, false⟩ = false := by
    intro m; simp only [Trivial.assignRvalue]; split <;> rfl
  simp [traitsOf, h, h1, noTraits]

/-- The limitation that README:154 names: `std::optional` of a trivial type is trivially copyable. -/
theorem C67_std_false :
    ¬ ∀ t p, traitsOf (optionalTrivial t) = traitsOf (stdTrivial t p) := by
  intro h
  have h1 := h ⟨true, true, true, true, true, true⟩ ⟨true, true, true, true, true, true, true⟩
  rw [(C67_not_trivial _).2.1] at h1
  exact absurd h1 (by decide)

/-- The difference is exactly this: `std::optional` is trivially copyable if the payload is and can be copied or moved. -/
theorem C67_std_copyable (t : Traits) (p : TrivialTraits)
    (hp : p.copyConstructible = true ∧ p.moveConstructible = true ∧ p.copyAssignable = true ∧ p.moveAssignable = true ∧ p.destructible = true) :
    (traitsOf (stdTrivial t p)).copyable = (t.copyConstructible || t.moveConstructible) := by
  obtain ⟨cc, mc, ca, ma, n1, n2⟩ := t
  obtain ⟨p0, p1, p2, p3, p4, p5, p6⟩ := p
  obtain ⟨rfl, rfl, rfl, rfl, rfl⟩ := hp
  cases cc <;> cases mc <;> cases ca <;> cases ma <;> cases n1 <;> cases n2 <;> rfl

example := C67_std_copyable ⟨true, true, true, true, true, true⟩ ⟨true, true, true, true, true, true, true⟩ (by decide)

/-- `int` -/
example : (traitsOf (stdTrivial ⟨true, true, true, true, true, true⟩ ⟨true, true, true, true, true, true, true⟩)).copyable = true ∧
    (traitsOf (optionalTrivial ⟨true, true, true, true, true, true⟩)).copyable = false := by decide

/-- The calculus can say yes: a class without any declarations derived from a trivial one. -/
example : let base : Members × Trivial := ((stdOptional ⟨true, true, true, true, true, true⟩), ⟨true, true, true, true, true, true⟩)
    (resolveTrivial base ⟨⟨.undeclared, .undeclared, .undeclared, .undeclared, false⟩, false, false⟩).2 = base.2 := by decide

end Verif.Props
