import Verif.Lemmas.Reentrant
import Verif.Spec.Reachable

/-! Helper lemmas about reachable worlds. -/

namespace Verif.Model
open Verif.Spec (SM SWorld SRes)
variable {V G : Type} {Γ : Env V G}

theorem ReachAs.rel (hΓ : EnvWF Γ) {w : World V G} {sw : SWorld V G} (h : ReachAs Γ w sw) : RW Γ none w sw ∧ NoReserved Γ sw.trace := by
  induction h with
  | init g => exact ⟨R_init g, fun _ h => by cases h⟩
  | call op _ hop he hu ht hst ih =>
    obtain ⟨w', hw', hR'⟩ := execOp_sims hΓ op hop _ _ ih.1 (by rw [he]; exact hu) (by rw [he]; exact ht) (by rw [he]; exact hst)
    rw [hw']
    rw [he] at hR'
    exact ⟨hR', ht⟩
  | program p _ hp he hu ht ih =>
    rw [exclusions] at he
    obtain ⟨w', hw', hR'⟩ := (sim_prog hΓ rfl p hp []).sim _ _ ih.1 (by simp) (by rw [he]; exact hu) (by rw [he]; exact ht)
    rw [he] at hR'
    rw [hw'.eq]
    exact ⟨hR', ht⟩

/-- Reachable worlds represent a specification state. -/
theorem Reach.rel (hΓ : EnvWF Γ) {w : World V G} (h : Reach Γ w) : ∃ sw : SWorld V G, RW Γ none w sw ∧ NoReserved Γ sw.trace := by
  obtain ⟨sw, h⟩ := h
  exact ⟨sw, h.rel hΓ⟩

theorem Sees.rw (hΓ : EnvWF Γ) {w : World V G} {sw : SWorld V G} (hw : Reach Γ w) (h : Sees Γ w sw) : RW Γ none w sw := by
  obtain ⟨sw', hR, _⟩ := hw.rel hΓ
  have hv := h.vars_eq (hR.sees hΓ)
  have hu : sw.user = sw'.user := h.1.symm.trans hR.user
  rw [RW, hv, hu]
  exact hR

/-- A reachable world together with one more legal call is reachable, and the call behaves as specified. -/
theorem Reach.step (hΓ : EnvWF Γ) {w : World V G} {sw : SWorld V G} (hw : Reach Γ w) (hs : Sees Γ w sw) {op : Op V G}
    (hop : OpOK Γ op) (hu : (Spec.specOp (fun x => (Γ x).ops) op sw).1 ≠ .undef)
    (ht : NoReserved Γ (Spec.specOp (fun x => (Γ x).ops) op sw).2.trace)
    (hst : StepOK op (Spec.specOp (fun x => (Γ x).ops) op sw).1) :
    ∃ w', execOp Γ op w = (lift (Spec.specOp (fun x => (Γ x).ops) op sw).1, w') ∧ Reach Γ w' ∧
      Sees Γ w' (Spec.specOp (fun x => (Γ x).ops) op sw).2 := by
  have hR := hs.rw hΓ hw
  obtain ⟨w', hw', hR'⟩ := execOp_sims hΓ op hop w sw hR hu ht hst
  refine ⟨w', hw', ?_, hR'.sees hΓ⟩
  obtain ⟨sw₀, h0⟩ := hw
  obtain ⟨hR0, ht0⟩ := h0.rel hΓ
  have hv : sw.vars = sw₀.vars := hs.vars_eq (hR0.sees hΓ)
  have hg : sw.user = sw₀.user := hs.1.symm.trans hR0.user
  obtain ⟨r, vars', user', l, hm⟩ := mono_specOp (fun x => (Γ x).ops) op sw.vars sw.user
  have hm1 : Spec.specOp (fun x => (Γ x).ops) op sw = _ := hm sw.trace
  have hm2 : Spec.specOp (fun x => (Γ x).ops) op sw₀ = (r, ⟨vars', user', sw₀.trace ++ l⟩) := by
    have := hm sw₀.trace
    rw [hv, hg] at this
    exact this
  rw [hm1] at hu ht hst
  have := ReachAs.call op h0 hop hm2 hu (fun p hp => by
    rcases List.mem_append.1 hp with hp | hp
    · exact ht0 p hp
    · exact ht p (by simp [hp])) hst
  rw [hw'] at this
  exact ⟨_, this⟩

theorem ReachAs.run (hΓ : EnvWF Γ) {h : List (Op V G)} : ∀ {w : World V G} {sw sw' : SWorld V G} {rs}, ReachAs Γ w sw →
    (∀ op ∈ h, OpOK Γ op) → Spec.specRun (fun x => (Γ x).ops) h sw = some (rs, sw') → NoReserved Γ sw'.trace →
    (∀ p ∈ h.zip rs, StepOK p.1 p.2) → ReachAs Γ (run Γ h w).2 sw' := by
  induction h with
  | nil =>
    intro w sw sw' rs h0 _ hr _ _
    simp only [Spec.specRun, Option.some.injEq, Prod.mk.injEq] at hr
    rw [← hr.2]
    exact h0
  | cons op rest ih =>
    intro w sw sw' rs h0 hop hr ht hst
    rcases he : Spec.specOp (fun x => (Γ x).ops) op sw with ⟨r, sw₁⟩
    simp only [Spec.specRun, he] at hr
    have go : r ≠ .undef → ∀ rs', Spec.specRun (fun x => (Γ x).ops) rest sw₁ = some (rs', sw') → rs = r :: rs' →
        ReachAs Γ (Model.run Γ (op :: rest) w).2 sw' := by
      intro hu rs' hr' hrs
      subst hrs
      obtain ⟨l, hl⟩ := specRun_mono hr'
      have ht1 : NoReserved Γ sw₁.trace := fun p hp => ht p (by rw [hl]; simp [hp])
      have hs1 : StepOK op r := hst (op, r) (by simp)
      have h1 := ReachAs.call op h0 (hop op (by simp)) he hu ht1 hs1
      obtain ⟨w', hw', _⟩ := execOp_sims hΓ op (hop op (by simp)) w sw (h0.rel hΓ).1 (by rw [he]; exact hu) (by rw [he]; exact ht1)
        (by rw [he]; exact hs1)
      have h2 := ih h1 (fun o ho => hop o (by simp [ho])) hr' ht (fun p hp => hst p (by simp [hp]))
      rw [hw'] at h2
      simp only [Model.run, hw', he]
      cases r with
      | ok a => exact h2
      | throw e => exact h2
      | undef => exact absurd rfl hu
    cases r with
    | undef => simp at hr
    | ok a =>
      rcases hr' : Spec.specRun (fun x => (Γ x).ops) rest sw₁ with _ | ⟨rs', sw₂⟩ <;> simp only [hr'] at hr
      · simp at hr
      · simp only [Option.some.injEq, Prod.mk.injEq] at hr
        obtain ⟨rfl, rfl⟩ := hr
        exact go (by simp) rs' hr' rfl
    | throw e =>
      rcases hr' : Spec.specRun (fun x => (Γ x).ops) rest sw₁ with _ | ⟨rs', sw₂⟩ <;> simp only [hr'] at hr
      · simp at hr
      · simp only [Option.some.injEq, Prod.mk.injEq] at hr
        obtain ⟨rfl, rfl⟩ := hr
        exact go (by simp) rs' hr' rfl

/-- What a legal history leaves behind is reachable. -/
theorem Reach.of_legal (hΓ : EnvWF Γ) {g : G} {h : List (Op V G)} {rs sw} (hl : Legal Γ g h rs sw) : Reach Γ (Model.run Γ h (.init g)).2 :=
  ⟨sw, (ReachAs.init g).run hΓ hl.1 hl.2.1 hl.2.2.1 hl.2.2.2⟩

theorem Reach.life {w : World V G} (h : Reach Γ w) : Life w := by
  obtain ⟨sw, h⟩ := h
  induction h with
  | init g => exact life_init g
  | call op _ _ _ _ _ _ ih => exact (life_closed Γ).execOp op (fun _ _ => trivial) (fun _ _ => trivial) _ ih
  | program p _ _ _ _ _ ih => exact (life_closed Γ).runProg (fun x _ => life_destroyPayload _ _ x) p p.changes_all _ ih

end Verif.Model
