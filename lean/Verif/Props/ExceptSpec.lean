import Verif.Model.ExceptSpec
import Verif.Props.FreeSwap
import Verif.Props.Trivial

/-!
# C75: the exception specifications are those of `std::optional`
-/

namespace Verif.Props
open Verif.Spec Verif.Model

/-- The two kinds of optionals of the library. -/
def LibraryOptional (o : OpTy) : Prop := ∃ p v, o = .tiny p v ∨ o = .impl p v

/-- Copies of the payload, by which the specifications can differ; moves count if the payload can only be copied. -/
def Copies (t : PayloadTraits) : OptExpr → Prop
  | .ctorCopy | .assignCopy => True
  | .ctorMove => t.members.moveConstructible = false
  | .assignMove => (t.members.moveConstructible && t.members.moveAssignable) = false
  | _ => False

theorem special_uses (t : Traits) {o : OpTy} (ho : LibraryOptional o) :
    SameUses (specialOf t o).1 (stdOptional t) ∧ (specialOf t o).2 = ⟨false, false, false, false, false, false⟩ := by
  obtain ⟨p, v, rfl | rfl⟩ := ho
  · exact ⟨(C38_std t).2, (C67_not_trivial t).2.2⟩
  · refine ⟨(C38_std t).1, ?_⟩
    change (tinyOptionalImplTrivial t).2 = _
    obtain ⟨cc, mc, ca, ma, n1, n2⟩ := t
    cases cc <;> cases mc <;> cases ca <;> cases ma <;> cases n1 <;> cases n2 <;> decide

theorem rvalue_not_trivial (m : Members) :
    (⟨false, false, false, false, false, false⟩ : Trivial).ctorRvalue m = false ∧
    (⟨false, false, false, false, false, false⟩ : Trivial).assignRvalue m = false := by
  constructor
  · unfold Trivial.ctorRvalue; split <;> rfl
  · unfold Trivial.assignRvalue; split <;> rfl

theorem tiny_special (t : PayloadTraits) {o : OpTy} (ho : LibraryOptional o) :
    tinyNoexcept o t .ctorCopy = noexceptOf (stdOptional t.members).ctorLvalue false ∧
    tinyNoexcept o t .ctorMove = noexceptOf (stdOptional t.members).ctorRvalue false ∧
    tinyNoexcept o t .assignCopy = noexceptOf (stdOptional t.members).assignLvalue false ∧
    tinyNoexcept o t .assignMove = noexceptOf (stdOptional t.members).assignRvalue false := by
  obtain ⟨⟨h1, h2, h3, h4⟩, h5⟩ := special_uses t.members ho
  simp only [tinyNoexcept, h1, h2, h3, h4, h5, rvalue_not_trivial, and_self]

/-- C75, for everything but copies of the payload and the unqualified `swap`: the value of `noexcept(e)`, and whether `e` is well-formed, are
those of `std::optional`, for all payloads. Missing: the excluded expressions, for which the claim is false (`C75_false`). -/
theorem C75_same_partial {o : OpTy} (ho : LibraryOptional o) {t : PayloadTraits} (ht : t.OK) {e : OptExpr} (he : ¬ Copies t e)
    (hs : e ≠ .freeSwap) : tinyNoexcept o t e = stdNoexcept t e := by
  obtain ⟨_, h2, _, h4⟩ := tiny_special t ho
  have hm := ht.moveCtor
  have hma := ht.moveAssign
  cases e <;> first
    | rfl
    | exact absurd trivial he
    | exact absurd rfl hs
    | skip
  case ctorMove =>
    rw [h2]
    simp only [Copies, Bool.not_eq_false] at he
    simp only [stdNoexcept, stdTrivial, stdOptional, Members.ctorRvalue, Trivial.ctorRvalue, he, if_true, Member.use, noexceptOf,
      Option.map_some, Bool.true_and, Bool.or_false]
    cases h : t.trivial.moveConstructible <;> simp_all
  case assignMove =>
    rw [h4]
    simp only [Copies, Bool.not_eq_false] at he
    simp only [stdNoexcept, stdTrivial, stdOptional, Members.assignRvalue, Trivial.assignRvalue, he, if_true, Member.use, noexceptOf,
      Option.map_some, Bool.true_and, Bool.or_false]
    cases h : t.trivial.moveConstructible <;> cases h' : t.trivial.moveAssignable <;> simp_all
  case relNullopt op => cases op <;> rfl

/-- Copying an optional: never `noexcept`, and different from `std::optional` exactly if the latter's function has to be trivial. -/
theorem C75_copy {o : OpTy} (ho : LibraryOptional o) {t : PayloadTraits} (ht : t.OK) :
    tinyNoexcept o t .ctorCopy ≠ some true ∧ tinyNoexcept o t .assignCopy ≠ some true ∧
    (tinyNoexcept o t .ctorCopy ≠ stdNoexcept t .ctorCopy ↔ t.trivial.copyConstructible = true) ∧
    (tinyNoexcept o t .assignCopy ≠ stdNoexcept t .assignCopy ↔
      t.trivial.copyConstructible = true ∧ t.trivial.copyAssignable = true ∧ t.trivial.destructible = true) := by
  obtain ⟨h1, _, h3, _⟩ := tiny_special t ho
  have hc := ht.copyCtor
  have ha := ht.copyAssign
  rw [h1, h3]
  simp only [stdNoexcept, stdTrivial, stdOptional, Members.ctorLvalue, Members.assignLvalue]
  generalize t.trivial.copyConstructible = a at *
  generalize t.trivial.copyAssignable = b at *
  generalize t.trivial.destructible = c at *
  generalize t.members.copyConstructible = d at *
  generalize t.members.copyAssignable = e at *
  clear h1 h3
  revert a b c d e
  decide

/-- Rvalues of payloads that can be copied but not moved: the same difference. -/
theorem C75_rvalue {o : OpTy} (ho : LibraryOptional o) {t : PayloadTraits} (ht : t.OK) :
    (t.members.moveConstructible = false →
      (tinyNoexcept o t .ctorMove ≠ stdNoexcept t .ctorMove ↔ t.trivial.copyConstructible = true)) ∧
    ((t.members.moveConstructible && t.members.moveAssignable) = false →
      (tinyNoexcept o t .assignMove ≠ stdNoexcept t .assignMove ↔
        t.trivial.copyConstructible = true ∧ t.trivial.copyAssignable = true ∧ t.trivial.destructible = true)) := by
  obtain ⟨_, h2, _, h4⟩ := tiny_special t ho
  have hc := ht.copyCtor
  have ha := ht.copyAssign
  rw [h2, h4]
  constructor <;> intro hm <;>
    simp only [stdNoexcept, stdTrivial, stdOptional, Members.ctorRvalue, Members.assignRvalue, Trivial.ctorRvalue, Trivial.assignRvalue, hm,
      Bool.false_eq_true, if_false] <;>
    generalize t.trivial.copyConstructible = a at * <;>
    generalize t.trivial.copyAssignable = b at * <;>
    generalize t.trivial.destructible = c at * <;>
    generalize t.members.copyConstructible = d at * <;>
    generalize t.members.copyAssignable = e at * <;>
    clear h2 h4 hm <;>
    revert a b c d e <;>
    decide

/-- `noexcept` is promised only where `std::optional` promises it, apart from the unqualified `swap`. -/
theorem C75_no_more {o : OpTy} (ho : LibraryOptional o) {t : PayloadTraits} (ht : t.OK) {e : OptExpr} (hs : e ≠ .freeSwap)
    (h : tinyNoexcept o t e = some true) : stdNoexcept t e = some true := by
  obtain ⟨h1, h2, h3, h4⟩ := tiny_special t ho
  have key : ∀ {f : Option (Action × Bool)} {b : Bool}, noexceptOf f false = some true → noexceptOf f b = some true := by
    intro f b hf
    cases f with
    | none => simp [noexceptOf] at hf
    | some p => simp_all [noexceptOf]
  by_cases he : Copies t e
  · cases e <;> simp only [Copies] at he
    · rw [h1] at h; exact key h
    · rw [h2] at h; exact key h
    · rw [h3] at h; exact key h
    · rw [h4] at h; exact key h
  · rw [← C75_same_partial ho ht he hs]; exact h

/-- `std::is_nothrow_swappable`, for payloads that can be swapped. `TinyOptionalImpl` agrees with `std::optional`; `tiny::optional` differs
exactly if `std::swap` is selected (C53), the payload's move construction does not throw, and its move assignment and swap differ. -/
theorem C75_swap {t : PayloadTraits} (ht : t.OK) (hm : t.members.moveConstructible = true) (hsw : t.swappable = true) (p : OpTy) (v : Nat) :
    tinyNoexcept (.impl p v) t .freeSwap = stdNoexcept t .freeSwap ∧
    (tinyNoexcept (.tiny p v) t .freeSwap ≠ stdNoexcept t .freeSwap ↔
      (t.members.moveAssignable = true ∨ t.members.copyConstructible = true ∧ t.members.copyAssignable = true) ∧
      t.members.nothrowMoveConstructible = true ∧ t.members.nothrowMoveAssignable ≠ t.nothrowSwappable) := by
  have hc : CanSwap ⟨t.members, t.swappable, t.nothrowSwappable⟩ := ⟨hm, hsw⟩
  constructor
  · obtain ⟨h1, h2⟩ := C53_impl_partial true _ hc p v
    simp only [tinyNoexcept, h1, Option.map_some, h2]
    simp only [stdNoexcept, hm, hsw, Bool.and_self, if_true]
  · have hg := C53_generic_iff _ hc p v
    obtain ⟨m1, m2⟩ := members_tiny t.members p v
    have hna := ht.nothrowMoveAssign
    have hstd : stdNoexcept t .freeSwap = some (t.members.nothrowMoveConstructible && t.nothrowSwappable) := by
      simp [stdNoexcept, hm, hsw]
    rw [hstd]
    simp only [tinyNoexcept]
    cases hsel : selectSwap true ⟨t.members, t.swappable, t.nothrowSwappable⟩ (.tiny p v) (.tiny p v) with
    | none =>
      exfalso
      have h3 : tinySwapViable ⟨t.members, t.swappable, t.nothrowSwappable⟩ (.tiny p v) (.tiny p v) = some (1, 1) := by
        simp [tinySwapViable, implBase, hm, hsw]
      unfold selectSwap at hsel
      rw [h3] at hsel
      cases hv : genericSwapViable true ⟨t.members, t.swappable, t.nothrowSwappable⟩ (.tiny p v) (.tiny p v) <;> simp [hv] at hsel
    | some f =>
      cases f with
      | tiny =>
        rw [hsel] at hg
        have : ¬ (t.members.moveAssignable = true ∨ t.members.copyConstructible = true ∧ t.members.copyAssignable = true) := by
          intro h; exact absurd (hg.mpr h) (by decide)
        simp [swapNoexcept, this]
      | generic =>
        have h := hg.mp hsel
        simp only [Option.map_some, swapNoexcept, m1, m2, h, true_and]
        simp only at h
        simp only [stdOptional, Members.ctorRvalue, Members.assignRvalue, hm, Bool.true_and, if_true]
        generalize t.members.moveAssignable = a at *
        generalize t.members.copyConstructible = b at *
        generalize t.members.copyAssignable = c at *
        generalize t.members.nothrowMoveConstructible = d at *
        generalize t.members.nothrowMoveAssignable = e at *
        generalize t.nothrowSwappable = f at *
        clear hg m1 m2 hstd hsel ht hc
        revert a b c d e f
        decide

/-- Containers that grow treat the optionals alike if the payload can be moved: the elements are moved for both or copied for both. They are
moved if moving the payload does not throw or the payload cannot be copied. -/
theorem C75_growth {o : OpTy} (ho : LibraryOptional o) {t : PayloadTraits} (ht : t.OK) (hm : t.members.moveConstructible = true) :
    movesOnGrowth (tinyNoexcept o t .ctorCopy) (tinyNoexcept o t .ctorMove) =
      movesOnGrowth (stdNoexcept t .ctorCopy) (stdNoexcept t .ctorMove) ∧
    (movesOnGrowth (stdNoexcept t .ctorCopy) (stdNoexcept t .ctorMove) = true ↔
      t.members.nothrowMoveConstructible = true ∨ t.members.copyConstructible = false) := by
  constructor
  · rw [C75_same_partial ho ht (e := .ctorMove) (by simp [Copies, hm]) (by decide), (tiny_special t ho).1]
    simp only [movesOnGrowth, stdNoexcept, noexceptOf, Option.isNone_map]
  · obtain ⟨⟨a, b, c, d, e, f⟩, ⟨p, q, r, u, v, w, x⟩, sw, nsw⟩ := t
    obtain ⟨h1, h2, h3, h4, h5, h6, h7⟩ := ht
    simp only at hm h1 h2 h3 h4 h5 h6 h7 ⊢
    subst hm
    revert h1 h2 h3 h4 h5 h6 h7
    clear ho o
    revert a c d e f p q r u v w x sw nsw
    decide +kernel

/-- `int`. -/
def intPayload : PayloadTraits := ⟨⟨true, true, true, true, true, true⟩, ⟨true, true, true, true, true, true, true⟩, true, true⟩
/-- `std::string`. -/
def stringPayload : PayloadTraits :=
  ⟨⟨true, true, true, true, true, true⟩, ⟨false, false, false, false, false, false, false⟩, true, true⟩
/-- A class whose move assignment may throw, with its own `noexcept` swap. -/
def ownSwapPayload : PayloadTraits :=
  ⟨⟨true, true, true, true, true, false⟩, ⟨false, false, false, false, false, false, false⟩, true, true⟩
/-- A class with trivial copies whose moves are deleted. -/
def onlyCopied : PayloadTraits :=
  ⟨⟨true, false, true, false, false, false⟩, ⟨true, true, false, true, false, true, true⟩, false, false⟩

theorem intPayload_ok : intPayload.OK := by constructor <;> decide
theorem stringPayload_ok : stringPayload.OK := by constructor <;> decide
theorem ownSwapPayload_ok : ownSwapPayload.OK := by constructor <;> decide
theorem onlyCopied_ok : onlyCopied.OK := by constructor <;> decide

/-- C75 is violated: copying `tiny::optional<int>` is not `noexcept`, copying `std::optional<int>` is; and a payload with its own swap makes
`std::is_nothrow_swappable` differ. -/
theorem C75_false :
    (intPayload.OK ∧ tinyNoexcept (.tiny (.other 1) 0) intPayload .ctorCopy = some false ∧ stdNoexcept intPayload .ctorCopy = some true ∧
      tinyNoexcept (.tiny (.other 1) 0) intPayload .assignCopy = some false ∧ stdNoexcept intPayload .assignCopy = some true) ∧
    (ownSwapPayload.OK ∧ tinyNoexcept (.tiny (.other 1) 0) ownSwapPayload .freeSwap = some false ∧
      stdNoexcept ownSwapPayload .freeSwap = some true) :=
  ⟨⟨intPayload_ok, by decide⟩, ⟨ownSwapPayload_ok, by decide⟩⟩

/-! Instances. -/

theorem tinyLibrary : LibraryOptional (.tiny (.other 1) 0) := ⟨_, _, .inl rfl⟩

example : tinyNoexcept (.tiny (.other 1) 0) stringPayload .assignMove = some true ∧ stdNoexcept stringPayload .assignMove = some true :=
  ⟨by decide, by rw [← C75_same_partial tinyLibrary stringPayload_ok (e := .assignMove) (by simp [Copies, stringPayload]) (by decide)]; decide⟩
example : tinyNoexcept (.tiny (.other 1) 0) stringPayload .ctorCopy = stdNoexcept stringPayload .ctorCopy :=
  Classical.not_not.mp fun h => absurd ((C75_copy tinyLibrary stringPayload_ok).2.2.1.mp h) (by decide)
example : tinyNoexcept (.tiny (.other 1) 0) onlyCopied .ctorMove ≠ stdNoexcept onlyCopied .ctorMove :=
  ((C75_rvalue tinyLibrary onlyCopied_ok).1 rfl).mpr rfl
example : stdNoexcept ownSwapPayload .ctorMove = some true :=
  C75_no_more tinyLibrary ownSwapPayload_ok (by decide) (by decide)
example : tinyNoexcept (.tiny (.other 1) 0) ownSwapPayload .freeSwap ≠ stdNoexcept ownSwapPayload .freeSwap :=
  (C75_swap ownSwapPayload_ok rfl rfl _ _).2.mpr ⟨.inl rfl, rfl, by decide⟩
example : movesOnGrowth (tinyNoexcept (.tiny (.other 1) 0) stringPayload .ctorCopy) (tinyNoexcept (.tiny (.other 1) 0) stringPayload .ctorMove) =
    true := by rw [(C75_growth tinyLibrary stringPayload_ok rfl).1]; decide

end Verif.Props
