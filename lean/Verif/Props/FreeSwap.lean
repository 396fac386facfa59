import Verif.Model.FreeSwap
import Verif.Lemmas.Step
import Verif.Props.SpecialMembers
import Verif.Props.Reserved

/-!
# C53: the free function `swap`
-/

namespace Verif.Props
open Verif Verif.Model Verif.Spec Verif.Examples

/-! ### Which function is called -/

/-- The traits that make the member `swap` compile. -/
def CanSwap (t : SwapTraits) : Prop := t.members.moveConstructible = true ∧ t.swappable = true

/-- C53, for `optional_inplace`, `optional_sentinel_via_type` and the like: the member is called, whether `std::swap` is visible or
not, and the exception specification is the member's. -/
theorem C53_impl_partial (visible : Bool) (t : SwapTraits) (h : CanSwap t) (p : OpTy) (v : Nat) :
    selectSwap visible t (.impl p v) (.impl p v) = some .tiny ∧
    swapNoexcept t (.impl p v) .tiny = (t.members.nothrowMoveConstructible && t.nothrowSwappable) := by
  refine ⟨?_, rfl⟩
  unfold selectSwap
  have : tinySwapViable t (.impl p v) (.impl p v) = some (0, 0) := by simp [tinySwapViable, implBase, h.1, h.2]
  rw [this]
  cases genericSwapViable visible t (.impl p v) (.impl p v) <;> rfl

/-- C53, for `tiny::optional` as long as `std::swap` is not visible. -/
theorem C53_adl_partial (t : SwapTraits) (h : CanSwap t) (p : OpTy) (v : Nat) :
    selectSwap false t (.tiny p v) (.tiny p v) = some .tiny := by
  simp [selectSwap, tinySwapViable, implBase, h.1, h.2, genericSwapViable]

theorem members_tiny (t : Traits) (p : OpTy) (v : Nat) :
    (membersOf t (.tiny p v)).ctorRvalue = (stdOptional t).ctorRvalue ∧
    (membersOf t (.tiny p v)).assignRvalue = (stdOptional t).assignRvalue :=
  ⟨(C38_std t).2.2.1, (C38_std t).2.2.2.2⟩

/-- The exact condition, for `tiny::optional`: with `std::swap` visible the generic function is called exactly if the payload can be
assigned, by moving or by copying. -/
theorem C53_generic_iff (t : SwapTraits) (h : CanSwap t) (p : OpTy) (v : Nat) :
    selectSwap true t (.tiny p v) (.tiny p v) = some .generic ↔
      t.members.moveAssignable = true ∨ t.members.copyConstructible = true ∧ t.members.copyAssignable = true := by
  obtain ⟨h1, h2⟩ := members_tiny t.members p v
  have h3 : tinySwapViable t (.tiny p v) (.tiny p v) = some (1, 1) := by simp [tinySwapViable, implBase, h.1, h.2]
  unfold selectSwap
  rw [h3]
  have h4 : genericSwapViable true t (.tiny p v) (.tiny p v) =
      (t.members.moveAssignable || (t.members.copyConstructible && t.members.copyAssignable)) := by
    unfold genericSwapViable
    rw [h1, h2]
    obtain ⟨⟨cc, mc, ca, ma, n1, n2⟩, sw, ns⟩ := t
    have := h.1
    simp only at this
    subst this
    cases cc <;> cases ca <;> cases ma <;> simp [stdOptional, Members.ctorRvalue, Members.assignRvalue, Member.use]
  rw [h4]
  cases t.members.moveAssignable <;> cases t.members.copyConstructible <;> cases t.members.copyAssignable <;> simp

/-- A payload that cannot be swapped: `impl::swap` is not offered. Only the generic function can be called, if it is visible and the
optional can be move constructed and move assigned; otherwise the call does not compile. -/
theorem C53_not_swappable (visible : Bool) (t : SwapTraits) (h : ¬ CanSwap t) (p : OpTy) (v : Nat) :
    selectSwap visible t (.tiny p v) (.tiny p v) =
      (if visible = true ∧ (t.members.moveConstructible = true ∧ t.members.moveAssignable = true ∨
          t.members.copyConstructible = true ∧ t.members.copyAssignable = true)
        then some .generic else none) := by
  obtain ⟨h1, h2⟩ := members_tiny t.members p v
  have h3 : tinySwapViable t (.tiny p v) (.tiny p v) = none := by
    unfold tinySwapViable
    simp only [implBase, true_and]
    exact if_neg h
  have h4 : genericSwapViable visible t (.tiny p v) (.tiny p v) =
      (visible && ((t.members.moveConstructible && t.members.moveAssignable) ||
        (t.members.copyConstructible && t.members.copyAssignable))) := by
    unfold genericSwapViable
    rw [h1, h2]
    obtain ⟨⟨cc, mc, ca, ma, n1, n2⟩, sw, ns⟩ := t
    cases cc <;> cases mc <;> cases ca <;> cases ma <;> simp [stdOptional, Members.ctorRvalue, Members.assignRvalue, Member.use]
  unfold selectSwap
  rw [h3, h4]
  cases visible <;> cases t.members.moveConstructible <;> cases t.members.moveAssignable <;>
    cases t.members.copyConstructible <;> cases t.members.copyAssignable <;> rfl

/-- Operands of different types: the generic function is never called. For a `tiny::optional` and its own base class the member is,
if the payload can be swapped. -/
theorem C53_mixed (visible : Bool) (t : SwapTraits) (l r : OpTy) (hne : l ≠ r) :
    selectSwap visible t l r ≠ some .generic ∧
    (∀ p v, l = .tiny p v → r = .impl p v → (selectSwap visible t l r = some .tiny ↔ CanSwap t)) := by
  have h4 : genericSwapViable visible t l r = false := by simp [genericSwapViable, hne]
  unfold selectSwap
  rw [h4]
  constructor
  · cases tinySwapViable t l r <;> simp
  · rintro p v rfl rfl
    unfold tinySwapViable
    simp only [implBase, true_and]
    by_cases h : t.members.moveConstructible = true ∧ t.swappable = true
    · simp [CanSwap, h.1, h.2]
    · rw [if_neg h]
      exact ⟨fun h' => (by cases h'), fun h' => absurd h' h⟩

/-- The optional types of the library, and classes derived from them in any number of steps. -/
inductive OptionalLike : OpTy → Prop where
  | tiny (p : OpTy) (v : Nat) : OptionalLike (.tiny p v)
  | impl (p : OpTy) (v : Nat) : OptionalLike (.impl p v)
  | derived {b : OpTy} (n : Nat) : OptionalLike b → OptionalLike (.derived b n)

private theorem members_like (t : Traits) {o : OpTy} (h : OptionalLike o) :
    SameUses (membersOf t o) (stdOptional t) ∧ RvalueOK (membersOf t o) := by
  induction h with
  | tiny p v => exact ⟨(C38_std t).2, (C38_derived (impl_std t).2).2⟩
  | impl p v => exact impl_std t
  | @derived b n hb ih =>
    have h1 := C38_derived_implicit ih.2
    refine ⟨sameUses_trans h1 ih.1, ?_⟩
    show RvalueOK (resolve (membersOf t b) _)
    unfold RvalueOK
    rw [h1.1, h1.2.1, h1.2.2.1, h1.2.2.2]
    exact ih.2

private theorem implBase_like {o : OpTy} (h : OptionalLike o) :
    ∃ a n, implBase o = some (a, n) ∧ (n = 0 ↔ ∃ p v, o = .impl p v) := by
  induction h with
  | tiny p v => exact ⟨_, 1, rfl, by simp⟩
  | impl p v => exact ⟨_, 0, rfl, by simp⟩
  | @derived b n hb ih =>
    obtain ⟨a, m, h1, _⟩ := ih
    exact ⟨a, m + 1, by simp [implBase, h1], by simp⟩

/-- The exact condition for two operands of the same type, including classes of the user that are derived from an optional: with
`std::swap` visible the generic function is called exactly if the payload can be assigned and the type is not `TinyOptionalImpl`
itself; the member is called in all other cases. -/
theorem C53_hierarchy (t : SwapTraits) (h : CanSwap t) {o : OpTy} (ho : OptionalLike o) :
    selectSwap false t o o = some .tiny ∧
    (selectSwap true t o o = some .generic ↔ (∀ p v, o ≠ .impl p v) ∧
      (t.members.moveAssignable = true ∨ t.members.copyConstructible = true ∧ t.members.copyAssignable = true)) ∧
    (selectSwap true t o o = some .generic ∨ selectSwap true t o o = some .tiny) := by
  obtain ⟨⟨_, h1, _, h2⟩, _⟩ := members_like t.members ho
  obtain ⟨a, n, h3, h4⟩ := implBase_like ho
  have h5 : tinySwapViable t o o = some (n, n) := by simp [tinySwapViable, h3, h.1, h.2]
  have h6 : ∀ visible, genericSwapViable visible t o o =
      (visible && (t.members.moveAssignable || (t.members.copyConstructible && t.members.copyAssignable))) := by
    intro visible
    unfold genericSwapViable
    rw [h1, h2]
    obtain ⟨⟨cc, mc, ca, ma, n1, n2⟩, sw, ns⟩ := t
    have := h.1
    simp only at this
    subst this
    cases cc <;> cases ca <;> cases ma <;> simp [stdOptional, Members.ctorRvalue, Members.assignRvalue, Member.use]
  have h7 : (∀ p v, o ≠ .impl p v) ↔ n ≠ 0 := by
    rw [Ne, h4]
    exact ⟨fun h ⟨p, v, e⟩ => h p v e, fun h p v e => h ⟨p, v, e⟩⟩
  unfold selectSwap
  rw [h5, h6, h6]
  refine ⟨rfl, ?_⟩
  simp only [h7, Bool.true_and]
  by_cases hn : n = 0
  · subst hn
    cases t.members.moveAssignable || t.members.copyConstructible && t.members.copyAssignable <;> simp
  · cases t.members.moveAssignable <;> cases t.members.copyConstructible <;> cases t.members.copyAssignable <;> simp [hn]

/-- The exception specifications of both functions. The generic one does not throw if the optional's own moves do not, where an
optional that cannot be moved, but copied, is copied, which may throw. -/
theorem C53_noexcept (t : SwapTraits) {o : OpTy} (ho : OptionalLike o) (f : SwapFn) :
    swapNoexcept t o f = true ↔
      match f with
      | .tiny => t.members.nothrowMoveConstructible = true ∧ t.nothrowSwappable = true
      | .generic => t.members.moveConstructible = true ∧ t.members.moveAssignable = true ∧
          t.members.nothrowMoveConstructible = true ∧ t.members.nothrowMoveAssignable = true := by
  obtain ⟨⟨_, h1, _, h2⟩, _⟩ := members_like t.members ho
  cases f with
  | tiny => simp [swapNoexcept]
  | generic =>
    simp only [swapNoexcept, h1, h2]
    obtain ⟨⟨cc, mc, ca, ma, n1, n2⟩, sw, ns⟩ := t
    cases cc <;> cases mc <;> cases ca <;> cases ma <;> cases n1 <;> cases n2 <;>
      simp [stdOptional, Members.ctorRvalue, Members.assignRvalue, Member.use]

/-- `int`. -/
def intSwap : SwapTraits := ⟨⟨true, true, true, true, true, true⟩, true, true⟩

/-- A class that can be swapped without exceptions, but whose move assignment may throw. -/
def swapOnly : SwapTraits := ⟨⟨true, true, true, true, true, false⟩, true, true⟩

/-- `struct D : tiny::optional<int> {};` -/
example : selectSwap true intSwap (.derived (.tiny (.other 1) 0) 3) (.derived (.tiny (.other 1) 0) 3) = some .generic :=
  ((C53_hierarchy intSwap ⟨rfl, rfl⟩ (.derived 3 (.tiny _ _))).2.1).mpr ⟨nofun, .inl rfl⟩

/-- `struct D : tiny::optional<T> {};` for a payload whose move assignment may throw. -/
example : swapNoexcept swapOnly (.derived (.tiny (.other 1) 0) 3) .generic ≠ true := by
  rw [Ne, C53_noexcept swapOnly (.derived 3 (.tiny _ _))]
  decide

example := C53_impl_partial true intSwap ⟨rfl, rfl⟩ (.other 1) 0
example := C53_adl_partial intSwap ⟨rfl, rfl⟩ (.other 1) 0
example : selectSwap true ⟨⟨true, true, false, false, true, false⟩, true, true⟩ (.tiny (.other 1) 0) (.tiny (.other 1) 0) ≠ some .generic :=
  fun h => by
    have := (C53_generic_iff ⟨⟨true, true, false, false, true, false⟩, true, true⟩ ⟨rfl, rfl⟩ (.other 1) 0).mp h
    revert this; decide

/-- A class with deleted `swap` that can be copied. -/
example : selectSwap true ⟨⟨true, true, true, true, true, true⟩, false, false⟩ (.tiny (.other 1) 0) (.tiny (.other 1) 0) = some .generic := by
  rw [C53_not_swappable _ _ (fun h => absurd h.2 (by decide))]; decide
example : selectSwap false ⟨⟨true, true, true, true, true, true⟩, false, false⟩ (.tiny (.other 1) 0) (.tiny (.other 1) 0) = none := by
  rw [C53_not_swappable _ _ (fun h => absurd h.2 (by decide))]; decide
example : selectSwap true intSwap (.tiny (.other 1) 0) (.impl (.other 1) 0) = some .tiny :=
  ((C53_mixed true intSwap _ _ (by decide)).2 _ _ rfl rfl).mpr ⟨rfl, rfl⟩

/-- C53 is violated: for `tiny::optional<int>` with `std::swap` visible the generic function is called, not the member. -/
theorem C53_false : CanSwap intSwap ∧ selectSwap true intSwap (.tiny (.other 1) 0) (.tiny (.other 1) 0) = some .generic :=
  ⟨⟨rfl, rfl⟩, by decide⟩

/-- The exception specification may then differ from the member's. -/
theorem C53_false_noexcept : CanSwap swapOnly ∧
    selectSwap true swapOnly (.tiny (.other 1) 0) (.tiny (.other 1) 0) = some .generic ∧
    swapNoexcept swapOnly (.tiny (.other 1) 0) .generic = false ∧ swapNoexcept swapOnly (.tiny (.other 1) 0) .tiny = true :=
  ⟨⟨rfl, rfl⟩, by decide, by decide, by decide⟩

/-! ### What the generic function does -/

variable {V G : Type} {Γ : Env V G} {w : World V G}

/-- The moves of the payload of `x` transfer the value, do not throw, and leave a value behind that is not reserved. -/
structure MovesTransfer (Γ : Env V G) (x : Nat) : Prop where
  ctor : ∀ v g, ∃ m g', (Γ x).ops.moveCtor v g = (.ok v, m, g') ∧ (Γ x).cfg.Storable m
  assign : ∀ d s g, ∃ m g', (Γ x).ops.moveAssign d s g = (none, s, m, g') ∧ (Γ x).cfg.Storable m

/-- The optional `x` has the content `c`. -/
def Contains (Γ : Env V G) (x : Nat) (c : Option V) (w : World V G) : Prop :=
  match c with
  | none => IsEmpty Γ x w
  | some v => Holds Γ x v w ∧ (Γ x).cfg.Storable v

theorem of_unit {m : M V G Unit} {w' : World V G} (h : (do m; pure Obs.unit : M V G (Obs V)) w = (.ok .unit, w')) :
    m w = (.ok (), w') := by
  change M.bind m (fun _ => M.pure Obs.unit) w = _ at h
  unfold M.bind at h
  split at h
  · next a w'' he => rw [he]; cases h; rfl
  · cases h
  · cases h

theorem sees_clear {sw : SWorld V G} (h : Sees Γ w sw) : Sees Γ w ⟨sw.vars, sw.user, []⟩ := h

/-- C53. With payloads whose moves transfer the value, the generic function exchanges the contents of two different optionals too. -/
theorem C53_generic_exchanges (hΓ : EnvWF Γ) (hw : Reach Γ w) {x y tmp : Nat} {a b : Option V} (hxy : Γ x = Γ y) (hxt : Γ x = Γ tmp)
    (hne : x ≠ y) (ht : Absent tmp w) (htr : MovesTransfer Γ x) (hx : Contains Γ x a w) (hy : Contains Γ y b w) :
    ∃ w', freeSwap Γ x y tmp .generic w = (.ok (), w') ∧ Reach Γ w' ∧ Contains Γ x b w' ∧ Contains Γ y a w' ∧ Absent tmp w' := by
  obtain ⟨vars, hs⟩ := hw.view hΓ
  have ht' : vars tmp = none := hs.abs ht
  have hnt : x ≠ tmp := by
    rintro rfl
    cases a with
    | none => rw [Contains, IsEmpty, hasValue_absent ht] at hx; simp at hx
    | some u => have := hx.1.1; rw [hasValue_absent ht] at this; simp at this
  have hnt2 : y ≠ tmp := by
    rintro rfl
    cases b with
    | none => rw [Contains, IsEmpty, hasValue_absent ht] at hy; simp at hy
    | some u => have := hy.1.1; rw [hasValue_absent ht] at this; simp at this
  have hyx : y ≠ x := hne.symm
  have htx : tmp ≠ x := hnt.symm
  have hty : tmp ≠ y := hnt2.symm
  have hx' : vars x = some a := by
    cases a with
    | none => exact hs.emp hx
    | some u => exact hs.full hx.1
  have hy' : vars y = some b := by
    cases b with
    | none => exact hs.emp hy
    | some u => exact hs.full hy.1
  have hsx : ∀ v, a = some v → (Γ x).cfg.Storable v := by rintro v rfl; exact hx.2
  have hsy : ∀ v, b = some v → (Γ x).cfg.Storable v := by rintro v rfl; exact hxy ▸ hy.2
  have hfin : ∀ (w₁ w₂ w₃ w₄ : World V G), execOp Γ (.ctorMove tmp x) w = (.ok .unit, w₁) →
      execOp Γ (.assignMove x y) w₁ = (.ok .unit, w₂) → execOp Γ (.assignMove y tmp) w₂ = (.ok .unit, w₃) →
      execOp Γ (.dtor tmp) w₃ = (.ok .unit, w₄) → freeSwap Γ x y tmp .generic w = (.ok (), w₄) := by
    intro w₁ w₂ w₃ w₄ h1 h2 h3 h4
    have k1 := of_unit h1
    have k2 := of_unit h2
    have k3 := of_unit h3
    have k4 := of_unit h4
    show genericSwap Γ x y tmp w = _
    unfold genericSwap
    rw [bind_ok k1]
    have : Model.onThrow (do moveAssign Γ x y; moveAssign Γ y tmp) (dtor Γ tmp) w₁ = (.ok (), w₃) := by
      unfold Model.onThrow
      rw [bind_ok k2, k3]
    rw [bind_ok this, k4]
  have hcont : ∀ {z : Nat} {c : Option V} {sw : SWorld V G} {w' : World V G}, Γ x = Γ z → Sees Γ w' sw → sw.vars z = some c →
      (∀ v, c = some v → (Γ x).cfg.Storable v) → Contains Γ z c w' := by
    intro z c sw w' hz h1 h2 h3
    cases c with
    | none => exact h1.isEmpty h2
    | some v => exact ⟨h1.holds h2, hz ▸ h3 v rfl⟩
  cases a with
  | none =>
    obtain ⟨w₁, h1, r1, v1⟩ := hw.call hΓ hs (op := .ctorMove tmp x) (r := .ok .unit) hxt.symm
      (by spec_eval [ht', hx', hnt, htx]; rfl) (by simp) (by simp [NoReserved])
    replace v1 := sees_clear v1; dsimp only at v1
    cases b with
    | none =>
      obtain ⟨w₂, h2, r2, v2⟩ := r1.call hΓ v1 (op := .assignMove x y) (r := .ok .unit) hxy
        (by spec_eval [hx', hy', hnt, hnt2, htx, hty]; rfl) (by simp) (by simp [NoReserved])
      replace v2 := sees_clear v2; dsimp only at v2
      obtain ⟨w₃, h3, r3, v3⟩ := r2.call hΓ v2 (op := .assignMove y tmp) (r := .ok .unit) (hxy.symm.trans hxt)
        (by spec_eval [hx', hy', hnt, hnt2, htx, hty]; rfl) (by simp) (by simp [NoReserved])
      replace v3 := sees_clear v3; dsimp only at v3
      obtain ⟨w₄, h4, r4, v4⟩ := r3.call hΓ v3 (op := .dtor tmp) (r := .ok .unit) trivial
        (by spec_eval [hx', hy', hnt, hnt2, htx, hty]; rfl) (by simp) (by simp [NoReserved])
      exact ⟨w₄, hfin _ _ _ _ h1 h2 h3 h4, r4, hcont rfl v4 (by simp [hnt, hx']) hsy,
        hcont hxy v4 (by simp [hnt2, hy']) hsx, v4.absent (by simp)⟩
    | some u =>
      obtain ⟨m₂, g₂, e₂, s₂⟩ := htr.ctor u w.user
      obtain ⟨w₂, h2, r2, v2⟩ := r1.call hΓ v1 (op := .assignMove x y) (r := .ok .unit) hxy
        (by spec_eval [hx', hy', hne, hyx, hnt, hnt2, htx, hty, e₂]; rfl) (by simp)
        (by simp only [NoReserved]; intro p hp; simp at hp; rcases hp with rfl | rfl
            · exact hxy ▸ s₂
            · exact hsy _ rfl)
      replace v2 := sees_clear v2; dsimp only at v2
      obtain ⟨w₃, h3, r3, v3⟩ := r2.call hΓ v2 (op := .assignMove y tmp) (r := .ok .unit) (hxy.symm.trans hxt)
        (by spec_eval [hx', hy', hne, hyx, hnt, hnt2, htx, hty]; rfl) (by simp) (by simp [NoReserved])
      replace v3 := sees_clear v3; dsimp only at v3
      obtain ⟨w₄, h4, r4, v4⟩ := r3.call hΓ v3 (op := .dtor tmp) (r := .ok .unit) trivial
        (by spec_eval [hx', hy', hne, hyx, hnt, hnt2, htx, hty]; rfl) (by simp) (by simp [NoReserved])
      exact ⟨w₄, hfin _ _ _ _ h1 h2 h3 h4, r4, hcont rfl v4 (by simp [hne, hnt]) hsy,
        hcont hxy v4 (by simp [hnt2]) hsx, v4.absent (by simp)⟩
  | some u =>
    obtain ⟨m₁, g₁, e₁, s₁⟩ := htr.ctor u w.user
    obtain ⟨w₁, h1, r1, v1⟩ := hw.call hΓ hs (op := .ctorMove tmp x) (r := .ok .unit) hxt.symm
      (by spec_eval [ht', hx', hnt, htx, ← hxt, e₁]; rfl) (by simp)
      (by simp only [NoReserved]; intro p hp; simp at hp; rcases hp with rfl | rfl
          · exact s₁
          · exact hxt ▸ hsx _ rfl)
    replace v1 := sees_clear v1; dsimp only at v1
    cases b with
    | none =>
      obtain ⟨w₂, h2, r2, v2⟩ := r1.call hΓ v1 (op := .assignMove x y) (r := .ok .unit) hxy
        (by spec_eval [hx', hy', hne, hyx, hnt, hnt2, htx, hty]; rfl) (by simp) (by simp [NoReserved])
      replace v2 := sees_clear v2; dsimp only at v2
      obtain ⟨m₂, g₂, e₂, s₂⟩ := htr.ctor u ((Γ x).ops.dtor m₁ g₁)
      obtain ⟨w₃, h3, r3, v3⟩ := r2.call hΓ v2 (op := .assignMove y tmp) (r := .ok .unit) (hxy.symm.trans hxt)
        (by spec_eval [hx', hy', hne, hyx, hnt, hnt2, htx, hty, ← hxy, e₂]; rfl) (by simp)
        (by simp only [NoReserved]; intro p hp; simp at hp; rcases hp with rfl | rfl
            · exact hxt ▸ s₂
            · exact hxy ▸ hsx _ rfl)
      replace v3 := sees_clear v3; dsimp only at v3
      obtain ⟨w₄, h4, r4, v4⟩ := r3.call hΓ v3 (op := .dtor tmp) (r := .ok .unit) trivial
        (by spec_eval [hx', hy', hne, hyx, hnt, hnt2, htx, hty]; rfl) (by simp) (by simp [NoReserved])
      exact ⟨w₄, hfin _ _ _ _ h1 h2 h3 h4, r4, hcont rfl v4 (by simp [hne, hnt]) hsy,
        hcont hxy v4 (by simp [hnt2]) hsx, v4.absent (by simp)⟩
    | some u' =>
      obtain ⟨m₂, g₂, e₂, s₂⟩ := htr.assign m₁ u' g₁
      obtain ⟨w₂, h2, r2, v2⟩ := r1.call hΓ v1 (op := .assignMove x y) (r := .ok .unit) hxy
        (by spec_eval [hx', hy', hne, hyx, hnt, hnt2, htx, hty, e₂]; rfl) (by simp)
        (by simp only [NoReserved]; intro p hp; simp at hp; rcases hp with rfl | rfl
            · exact hsy _ rfl
            · exact hxy ▸ s₂)
      replace v2 := sees_clear v2; dsimp only at v2
      obtain ⟨m₃, g₃, e₃, s₃⟩ := htr.assign m₂ u g₂
      obtain ⟨w₃, h3, r3, v3⟩ := r2.call hΓ v2 (op := .assignMove y tmp) (r := .ok .unit) (hxy.symm.trans hxt)
        (by spec_eval [hx', hy', hne, hyx, hnt, hnt2, htx, hty, ← hxy, e₃]; rfl) (by simp)
        (by simp only [NoReserved]; intro p hp; simp at hp; rcases hp with rfl | rfl
            · exact hxy ▸ hsx _ rfl
            · exact hxt ▸ s₃)
      replace v3 := sees_clear v3; dsimp only at v3
      obtain ⟨w₄, h4, r4, v4⟩ := r3.call hΓ v3 (op := .dtor tmp) (r := .ok .unit) trivial
        (by spec_eval [hx', hy', hne, hyx, hnt, hnt2, htx, hty]; rfl) (by simp) (by simp [NoReserved])
      exact ⟨w₄, hfin _ _ _ _ h1 h2 h3 h4, r4, hcont rfl v4 (by simp [hne, hnt]) hsy,
        hcont hxy v4 (by simp [hnt2]) hsx, v4.absent (by simp)⟩

/-! Example: 20 holds 5, 21 holds 7, 22 is empty. -/

def swapEnv : Env (BitVec 8) (List String) := env _ loggingOps false
def swapHist : List (Op (BitVec 8) (List String)) := [.ctorInPlace 20 (lit 5#8), .ctorInPlace 21 (lit 7#8), .ctorDefault 22]
def swapWorld : World (BitVec 8) (List String) := (run swapEnv swapHist (.init [])).2

theorem swapEnv_wf : EnvWF swapEnv := env_wf loggingOps_lawful false

theorem swap_reach : Reach swapEnv swapWorld := by
  refine .of_legal swapEnv_wf ⟨?_, rfl, ?_, ?_⟩
  · intro op hop
    simp only [swapHist, List.mem_cons, List.not_mem_nil, or_false] at hop
    rcases hop with rfl | rfl | rfl <;> first | exact trivial | exact lit_lawful _
  · intro p hp
    simp [Spec.SWorld.init] at hp
    rcases hp with rfl | rfl <;> simp [Config.Storable, swapEnv, env, sentCfg, Config.loc]
  · intro p hp
    simp [swapHist] at hp
    rcases hp with rfl | rfl | rfl <;> trivial

theorem swap_transfers : MovesTransfer swapEnv 20 where
  ctor v g := ⟨0#8, g ++ ["move"], rfl, by simp [Config.Storable, swapEnv, env, sentCfg, Config.loc]⟩
  assign d s g := ⟨0#8, g ++ ["move="], rfl, by simp [Config.Storable, swapEnv, env, sentCfg, Config.loc]⟩

theorem swap20 : Contains swapEnv 20 (some 5#8) swapWorld := ⟨⟨rfl, rfl⟩, by simp [Config.Storable, swapEnv, env, sentCfg, Config.loc]⟩
theorem swap21 : Contains swapEnv 21 (some 7#8) swapWorld := ⟨⟨rfl, rfl⟩, by simp [Config.Storable, swapEnv, env, sentCfg, Config.loc]⟩
theorem swap22 : Contains swapEnv 22 none swapWorld := rfl

example := C53_generic_exchanges swapEnv_wf swap_reach (x := 20) (y := 21) (tmp := 25) rfl rfl (by decide) rfl swap_transfers swap20 swap21
example := C53_generic_exchanges swapEnv_wf swap_reach (x := 20) (y := 22) (tmp := 25) rfl rfl (by decide) rfl swap_transfers swap20 swap22

/-- C53 is violated: the generic function does not use the payload's `swap`; what it does instead is visible. -/
theorem C53_false_payload : ∃ (Γ : Env (BitVec 8) (List String)) (w : World (BitVec 8) (List String)) (x y tmp : Nat),
    EnvWF Γ ∧ Reach Γ w ∧ (∃ a b, Holds Γ x a w ∧ Holds Γ y b w) ∧
    (freeSwap Γ x y tmp .tiny w).2.user = w.user ++ ["swap"] ∧
    (freeSwap Γ x y tmp .generic w).2.user = w.user ++ ["move", "move=", "move=", "dtor"] :=
  ⟨swapEnv, swapWorld, 20, 21, 25, swapEnv_wf, swap_reach, ⟨_, _, swap20.1, swap21.1⟩, rfl, rfl⟩

/-- C53 is violated: if the moved-from state of the payload is the reserved value, the member `swap` works, but the generic function
stops at an assertion, or (NDEBUG) loses a payload without destroying it. -/
theorem C53_false_moved_from : ∃ (Γ : Bool → Env (BitVec 8) (List String)) (w : Bool → World (BitVec 8) (List String)) (x y tmp : Nat) (a b : BitVec 8),
    (∀ n, EnvWF (Γ n) ∧ Reach (Γ n) (w n) ∧ Holds (Γ n) x a (w n) ∧ Holds (Γ n) y b (w n)) ∧
    (∀ n, (freeSwap (Γ n) x y tmp .tiny (w n)).1 = .ok () ∧ Holds (Γ n) x b (freeSwap (Γ n) x y tmp .tiny (w n)).2 ∧
      Holds (Γ n) y a (freeSwap (Γ n) x y tmp .tiny (w n)).2) ∧
    (freeSwap (Γ false) x y tmp .generic (w false)).1 = .abort .assertFail ∧
    (freeSwap (Γ true) x y tmp .generic (w true)).1 = .ok () ∧
    ∃ id, leaked (freeSwap (Γ true) x y tmp .generic (w true)).2.log id = 1 := by
  refine ⟨movedOutEnv, movedOutWorld, 0, 3, 9, 5#8, 7#8, fun n => ⟨movedOutEnv_wf n, movedOut_reach n, movedOut0 n, movedOut3 n⟩, ?_, rfl, rfl, ?_⟩
  · intro n
    cases n <;> exact ⟨rfl, ⟨rfl, rfl⟩, ⟨rfl, rfl⟩⟩
  · exact ⟨6, rfl⟩

end Verif.Props
