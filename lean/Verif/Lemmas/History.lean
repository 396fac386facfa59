import Verif.Lemmas.SimOps

/-! Helper lemmas: simulation of whole histories. -/

namespace Verif.Model
open Verif.Spec (SM SWorld SRes)

section
variable {V G α β : Type} {Γ : Env V G} {x y : Nat}

/-! ### The ghost trace only grows -/

theorem mono_payloadAssign (o : Ops V G) (x : Nat) (a : AArg V G) : Mono (Spec.payloadAssign o x a) := by
  cases a with
  | ext f nt c =>
    exact (mono_getVal x).bind fun v => (mono_user _).bind fun p => (mono_put _ _).bind fun _ => mono_check _
  | copyOf y =>
    exact (mono_getVal x).bind fun v => (mono_getVal y).bind fun s =>
      (mono_user _).bind fun p => (mono_put _ _).bind fun _ => mono_check _
  | moveOf y =>
    refine (mono_getVal x).bind fun v => (mono_getVal y).bind fun s => ?_
    split
    · exact (mono_user _).bind fun p => (mono_put _ _).bind fun _ => mono_check _
    · exact (mono_user _).bind fun p => (mono_put _ _).bind fun _ => (mono_put _ _).bind fun _ => mono_check _

theorem mono_onThrow {m : SM V G α} {h : SM V G Unit} (hm : Mono m) (hh : Mono h) : Mono (Spec.onThrow m h) := by
  intro vars user
  unfold Spec.onThrow
  obtain ⟨r, vars', user', l, hl⟩ := hm vars user
  cases r with
  | ok a => exact ⟨.ok a, vars', user', l, fun tr => by simp only [hl]⟩
  | undef => exact ⟨.undef, vars', user', l, fun tr => by simp only [hl]⟩
  | throw e =>
    obtain ⟨r', vars'', user'', l', hl'⟩ := hh vars' user'
    cases r' with
    | ok a => exact ⟨.throw e, vars'', user'', l ++ l', fun tr => by simp only [hl, hl', List.append_assoc]⟩
    | undef => exact ⟨.undef, vars'', user'', l ++ l', fun tr => by simp only [hl, hl', List.append_assoc]⟩
    | throw e' => exact ⟨.undef, vars'', user'', l ++ l', fun tr => by simp only [hl, hl', List.append_assoc]⟩

theorem mono_ctorInPlace (o : Ops V G) (x : Nat) (a : Arg V G) : Mono (Spec.ctorInPlace o x a) :=
  (mono_fresh x).bind fun _ => (mono_argVal o a).bind fun v => mono_put x v

theorem mono_dtor (o : Ops V G) (x : Nat) : Mono (Spec.dtor o x) := by
  refine (mono_get x).bind fun r => ?_
  cases r
  · exact mono_remove x
  · exact (mono_destroyVal o x).bind fun _ => mono_remove x

theorem mono_assignMove (o : Ops V G) (x y : Nat) : Mono (Spec.assignMove o x y) := by
  refine (mono_get x).bind fun r => (mono_get y).bind fun s => ?_
  cases r <;> cases s
  · exact mono_pure ()
  · exact mono_init o x _
  · exact mono_destroyVal o x
  · exact mono_payloadAssign o x _

theorem mono_specOp (ops : Nat → Ops V G) (op : Op V G) : Mono (Spec.specOp ops op) := by
  cases op with
  | ctorDefault x => exact ((mono_fresh x).bind fun _ => mono_setEmpty x).bind fun _ => mono_pure _
  | ctorInPlace x a => exact (mono_ctorInPlace _ x a).bind fun _ => mono_pure _
  | ctorCopy x y =>
    refine Mono.bind ((mono_fresh x).bind fun _ => (mono_get y).bind fun r => ?_) fun _ => mono_pure _
    cases r
    · exact mono_setEmpty x
    · exact (mono_argVal _ _).bind fun v => mono_put x v
  | ctorMove x y =>
    refine Mono.bind ((mono_fresh x).bind fun _ => (mono_get y).bind fun r => ?_) fun _ => mono_pure _
    cases r
    · exact mono_setEmpty x
    · exact (mono_argVal _ _).bind fun v => mono_put x v
  | dtor x => exact (mono_dtor _ x).bind fun _ => mono_pure _
  | reset x => exact (mono_reset _ x).bind fun _ => mono_pure _
  | assignNullopt x => exact (mono_reset _ x).bind fun _ => mono_pure _
  | assignVal x a =>
    refine Mono.bind ((mono_get x).bind fun r => ?_) fun _ => mono_pure _
    cases r
    · exact mono_init _ x _
    · exact mono_payloadAssign _ x a
  | assignScalar x tmp a =>
    exact ((mono_ctorInPlace _ tmp a).bind fun _ =>
      (mono_onThrow (mono_assignMove _ x tmp) (mono_dtor _ tmp)).bind fun _ => mono_dtor _ tmp).bind fun _ => mono_pure _
  | assignCopy x y =>
    refine Mono.bind ((mono_get x).bind fun r => (mono_get y).bind fun s => ?_) fun _ => mono_pure _
    cases r <;> cases s
    · exact mono_pure ()
    · exact mono_init _ x _
    · exact mono_destroyVal _ x
    · exact mono_payloadAssign _ x _
  | assignMove x y => exact (mono_assignMove _ x y).bind fun _ => mono_pure _
  | emplace x a =>
    exact Mono.bind ((mono_reset _ x).bind fun _ => (mono_init _ x a).bind fun _ => mono_getVal x) fun _ => mono_pure _
  | swap x y =>
    refine Mono.bind ((mono_get x).bind fun r => (mono_get y).bind fun s => ?_) fun _ => mono_pure _
    cases r <;> cases s
    · exact mono_pure ()
    · exact (mono_init _ x _).bind fun _ => mono_destroyVal _ y
    · exact (mono_init _ y _).bind fun _ => mono_destroyVal _ x
    · dsimp only
      split
      · exact (mono_user _).bind fun p => (mono_put _ _).bind fun _ => mono_check _
      · exact (mono_user _).bind fun p => (mono_put _ _).bind fun _ => (mono_put _ _).bind fun _ => mono_check _
  | hasValue x =>
    refine Mono.bind ((mono_get x).bind fun r => ?_) fun _ => mono_pure _
    cases r <;> exact mono_pure _
  | deref x => exact (mono_getVal x).bind fun _ => mono_pure _
  | value x =>
    refine Mono.bind ((mono_get x).bind fun r => ?_) fun _ => mono_pure _
    cases r
    · exact mono_throw _
    · exact mono_pure _
  | valueOr rv x d =>
    refine Mono.bind ((mono_get x).bind fun r => ?_) fun _ => mono_pure _
    cases r
    · exact mono_user _
    · exact mono_argVal _ _
  | modify x f =>
    exact Mono.bind ((mono_getVal x).bind fun v =>
      (mono_user _).bind fun p => (mono_put _ _).bind fun _ => mono_check _) fun _ => mono_pure _
  | andThen x dst f =>
    refine Mono.bind ((mono_fresh dst).bind fun _ => (mono_get x).bind fun r => ?_) fun _ => mono_pure _
    cases r
    · exact mono_setEmpty dst
    · refine (mono_user _).bind fun p => (mono_put _ _).bind fun _ => ?_
      rcases p with ⟨e | (_ | u), v'⟩
      · exact mono_throw e
      · exact mono_setEmpty dst
      · exact mono_put dst u
  | transform nt x dst f =>
    refine Mono.bind ((mono_fresh dst).bind fun _ => (mono_get x).bind fun r => ?_) fun _ => mono_pure _
    cases r
    · exact mono_setEmpty dst
    · refine (mono_user _).bind fun p => (mono_put _ _).bind fun _ => ?_
      rcases p with ⟨e | u, v'⟩
      · exact mono_throw e
      · exact mono_put dst u
  | orElse rv x dst f =>
    refine Mono.bind ((mono_fresh dst).bind fun _ => (mono_get x).bind fun r => ?_) fun _ => mono_pure _
    cases r
    · refine (mono_user _).bind fun p => ?_
      cases p
      · exact mono_setEmpty dst
      · exact mono_put dst _
    · exact (mono_argVal _ _).bind fun v => mono_put dst v

/-! ### Combinators -/

alsoAny
theorem Sims.bind {m : M V G α} {f : α → M V G β} {sm : SM V G α} {sf : α → SM V G β} (hm : Sims Γ m sm)
    (hf : ∀ a, Sims Γ (f a) (sf a)) (hmono : ∀ a, Mono (sf a)) : Sims Γ (m >>= f) (sm >>= sf) := by
  intro w sw h hu ht
  rw [sm_bind] at hu ht ⊢
  rcases hs : sm sw with ⟨a | e | _, sw'⟩ <;> rw [hs] at hu ht
  · obtain ⟨w', hw', hR⟩ := hm w sw h (by rw [hs]; simp) (by rw [hs]; exact NoReserved.of_mono (hmono a) ht)
    rw [hs] at hw' hR
    rw [bind_ok hw']
    exact hf a w' sw' hR hu ht
  · obtain ⟨w', hw', hR⟩ := hm w sw h (by rw [hs]; simp) (by rw [hs]; exact ht)
    rw [hs] at hw' hR
    rw [bind_throw hw']
    exact ⟨w', rfl, hR⟩
  · exact absurd rfl hu

alsoAny
theorem Sims.pure (a : α) : Sims Γ (Pure.pure a : M V G α) (SM.pure a) :=
  fun w _ h _ _ => ⟨w, rfl, h⟩

alsoAny
theorem Sims.onThrow {m : M V G α} {c : M V G Unit} {sm : SM V G α} {sc : SM V G Unit} (hm : Sims Γ m sm)
    (hc : Sims Γ c sc) (hmono : Mono sc) : Sims Γ (onThrow m c) (Spec.onThrow sm sc) := by
  intro w sw h hu ht
  unfold Spec.onThrow at hu ht ⊢
  rcases hs : sm sw with ⟨a | e | _, sw'⟩ <;> rw [hs] at hu ht
  · obtain ⟨w', hw', hR⟩ := hm w sw h (by rw [hs]; simp) (by rw [hs]; exact ht)
    rw [hs] at hw' hR
    exact ⟨w', onThrow_ok hw', hR⟩
  · simp only [] at hu ht
    rcases hs' : sc sw' with ⟨a | e' | _, sw''⟩ <;> simp only [hs'] at hu ht
    · obtain ⟨w', hw', hR⟩ := hm w sw h (by rw [hs]; simp) (by
        rw [hs]; exact NoReserved.of_mono hmono (by rw [hs']; exact ht))
      rw [hs] at hw' hR
      obtain ⟨w'', hw'', hR'⟩ := hc w' sw' hR (by rw [hs']; simp) (by rw [hs']; exact ht)
      rw [hs'] at hw'' hR'
      simp only [hs']
      exact ⟨w'', onThrow_throw hw' hw'', hR'⟩
    · exact absurd rfl hu
    · exact absurd rfl hu
  · exact absurd rfl hu

alsoAny
theorem Sims.unit {m : M V G Unit} {sm : SM V G Unit} (hm : Sims Γ m sm) (o : Obs V) :
    Sims Γ (m >>= fun _ => Pure.pure o) (sm >>= fun _ => SM.pure o) :=
  hm.bind (fun _ => .pure o) fun _ => mono_pure o

alsoAny
theorem Sims.res {m : M V G α} {sm : SM V G α} (hm : Sims Γ m sm) (f : α → Obs V) :
    Sims Γ (m >>= fun a => Pure.pure (f a)) (sm >>= fun a => SM.pure (f a)) :=
  hm.bind (fun a => .pure (f a)) fun a => mono_pure (f a)

alsoAny
theorem assignScalar_sims (hΓ : EnvWF Γ) {tmp : Nat} {a : Arg V G} (ha : ArgLawful a) :
    Sims Γ (assignScalar Γ x tmp a) (Spec.assignViaTemp (Γ x).ops (Γ tmp).ops x tmp a) :=
  (inPlaceCtor_sims hΓ ha).bind
    (fun _ => (Sims.onThrow (moveAssign_sims hΓ) (dtor_sims hΓ) (mono_dtor _ _)).bind
      (fun _ => dtor_sims hΓ) fun _ => mono_dtor _ _)
    (fun _ => (mono_onThrow (mono_assignMove _ _ _) (mono_dtor _ _)).bind fun _ => mono_dtor _ _)

alsoAny
/-- Every call of the public interface simulates `std::optional`. -/
theorem execOp_sims (hΓ : EnvWF Γ) (op : Op V G) (hop : OpOK Γ op) (w : World V G) (sw : SWorld V G) (h : RW Γ none w sw)
    (hu : (Spec.specOp (fun x => (Γ x).ops) op sw).1 ≠ .undef)
    (ht : TraceOK Γ (Spec.specOp (fun x => (Γ x).ops) op sw).2.trace)
    (hst : StepOK op (Spec.specOp (fun x => (Γ x).ops) op sw).1) :
    ∃ w', execOp Γ op w = (lift (Spec.specOp (fun x => (Γ x).ops) op sw).1, w') ∧
      RW Γ none w' (Spec.specOp (fun x => (Γ x).ops) op sw).2 := by
  revert w sw
  have key : ∀ sm : SM V G (Obs V), Sims Γ (execOp Γ op) sm → ∀ (w : World V G) (sw : SWorld V G), RW Γ none w sw →
      (sm sw).1 ≠ .undef → TraceOK Γ (sm sw).2.trace → StepOK op (sm sw).1 →
      ∃ w', execOp Γ op w = (lift (sm sw).1, w') ∧ RW Γ none w' (sm sw).2 :=
    fun sm hs w sw h hu ht _ => hs w sw h hu ht
  cases op with
  | transform nt x dst f =>
    intro w sw h hu ht hst
    simp only [Spec.specOp, sm_bind] at hu ht hst ⊢
    have h1 := transform_sims (x := x) (y := dst) hΓ nt f h (by
      intro h0; rcases hs : Spec.transform x dst f sw with ⟨u | e | _, sw'⟩ <;> simp_all) (by
      rcases hs : Spec.transform x dst f sw with ⟨u | e | _, sw'⟩ <;> simp only [hs] at ht <;> exact ht) (by
      intro hn e h0; rcases hs : Spec.transform x dst f sw with ⟨u | e | _, sw'⟩ <;> simp only [hs] at h0 hst <;>
        simp_all [StepOK])
    obtain ⟨w', h2, h3⟩ := h1
    rcases hs : Spec.transform x dst f sw with ⟨u | e | _, sw'⟩ <;> simp only [hs] at h2 h3 ⊢
    · exact ⟨w', bind_ok h2, h3⟩
    · exact ⟨w', bind_throw h2, h3⟩
    · simp only [hs] at hu; exact absurd rfl hu
  | ctorDefault x => exact key _ ((defaultCtor_sims hΓ).unit _)
  | ctorInPlace x a => exact key _ ((inPlaceCtor_sims hΓ hop).unit _)
  | ctorCopy x y => exact key _ ((copyCtor_sims hΓ).unit _)
  | ctorMove x y => exact key _ ((moveCtor_sims hΓ).unit _)
  | dtor x => exact key _ ((dtor_sims hΓ).unit _)
  | reset x => exact key _ ((reset_sims hΓ).unit _)
  | assignNullopt x => exact key _ ((assignNullopt_sims hΓ).unit _)
  | assignVal x a => exact key _ ((assignVal_sims hΓ hop).unit _)
  | assignScalar x tmp a => exact key _ ((assignScalar_sims hΓ hop.2).unit _)
  | assignCopy x y => exact key _ ((copyAssign_sims hΓ).unit _)
  | assignMove x y => exact key _ ((moveAssign_sims hΓ).unit _)
  | emplace x a => exact key _ ((emplace_sims hΓ hop).res .val)
  | swap x y => exact key _ ((swap_sims hΓ (congrArg Ty.ops hop)).unit _)
  | hasValue x => exact key _ ((hasValue_sims hΓ).res .bool)
  | deref x => exact key _ ((deref_sims hΓ).res .val)
  | value x => exact key _ ((value_sims hΓ).res .val)
  | valueOr rv x d => exact key _ ((valueOr_sims hΓ rv d).res .val)
  | modify x f => exact key _ ((modify_sims hΓ f).unit _)
  | andThen x dst f => exact key _ ((andThen_sims hΓ f).unit _)
  | orElse rv x dst f => exact key _ ((orElse_sims hΓ (congrArg Ty.ops hop) rv f).unit _)

theorem Mono.grows {sm : SM V G α} (h : Mono sm) (sw : SWorld V G) : ∃ l, (sm sw).2.trace = sw.trace ++ l := by
  obtain ⟨r, vars', user', l, hl⟩ := h sw.vars sw.user
  have hs : sm sw = _ := hl sw.trace
  exact ⟨l, by rw [hs]⟩

theorem specRun_mono {ops : Nat → Ops V G} {h : List (Op V G)} {sw rs sw'} (hr : Spec.specRun ops h sw = some (rs, sw')) :
    ∃ l, sw'.trace = sw.trace ++ l := by
  induction h generalizing sw rs with
  | nil => simp only [Spec.specRun, Option.some.injEq, Prod.mk.injEq] at hr; exact ⟨[], by simp [hr.2]⟩
  | cons op rest ih =>
    simp only [Spec.specRun] at hr
    obtain ⟨l, hl⟩ := (mono_specOp ops op).grows sw
    rcases hs : Spec.specOp ops op sw with ⟨a | e | _, sw₁⟩ <;> simp only [hs] at hr hl
    · rcases hr' : Spec.specRun ops rest sw₁ with _ | ⟨rs', sw₂⟩ <;> simp only [hr'] at hr
      · simp at hr
      · simp only [Option.some.injEq, Prod.mk.injEq] at hr
        obtain ⟨l', hl'⟩ := ih (hr.2 ▸ hr')
        exact ⟨l ++ l', by rw [hl', hl, List.append_assoc]⟩
    · rcases hr' : Spec.specRun ops rest sw₁ with _ | ⟨rs', sw₂⟩ <;> simp only [hr'] at hr
      · simp at hr
      · simp only [Option.some.injEq, Prod.mk.injEq] at hr
        obtain ⟨l', hl'⟩ := ih (hr.2 ▸ hr')
        exact ⟨l ++ l', by rw [hl', hl, List.append_assoc]⟩
    · simp at hr

theorem specRun_length {ops : Nat → Ops V G} {h : List (Op V G)} {sw rs sw'} (hr : Spec.specRun ops h sw = some (rs, sw')) :
    rs.length = h.length := by
  induction h generalizing sw rs with
  | nil => simp only [Spec.specRun, Option.some.injEq, Prod.mk.injEq] at hr; simp [← hr.1]
  | cons op rest ih =>
    simp only [Spec.specRun] at hr
    rcases hs : Spec.specOp ops op sw with ⟨a | e | _, sw₁⟩ <;> simp only [hs] at hr
    · rcases hr' : Spec.specRun ops rest sw₁ with _ | ⟨rs', sw₂⟩ <;> simp only [hr'] at hr
      · simp at hr
      · simp only [Option.some.injEq, Prod.mk.injEq] at hr
        rw [← hr.1, List.length_cons, List.length_cons, ih (hr.2 ▸ hr')]
    · rcases hr' : Spec.specRun ops rest sw₁ with _ | ⟨rs', sw₂⟩ <;> simp only [hr'] at hr
      · simp at hr
      · simp only [Option.some.injEq, Prod.mk.injEq] at hr
        rw [← hr.1, List.length_cons, List.length_cons, ih (hr.2 ▸ hr')]
    · simp at hr

alsoAny
/-- Histories simulate. -/
theorem run_sim (hΓ : EnvWF Γ) {h : List (Op V G)} (hop : ∀ op ∈ h, OpOK Γ op) {w sw rs sw'} (hR : RW Γ none w sw)
    (hr : Spec.specRun (fun x => (Γ x).ops) h sw = some (rs, sw')) (ht : NoReserved Γ sw'.trace)
    (hst : ∀ p ∈ h.zip rs, StepOK p.1 p.2) :
    (run Γ h w).1 = rs.map lift ∧ RW Γ none (run Γ h w).2 sw' := by
  induction h generalizing sw rs w with
  | nil =>
    simp only [Spec.specRun, Option.some.injEq, Prod.mk.injEq] at hr
    rw [← hr.1, ← hr.2]
    exact ⟨rfl, hR⟩
  | cons op rest ih =>
    simp only [Spec.specRun] at hr
    have key := execOp_sims hΓ op (hop op (by simp)) w sw hR
    have hop' : ∀ o ∈ rest, OpOK Γ o := fun o ho => hop o (by simp [ho])
    rcases hs : Spec.specOp (fun x => (Γ x).ops) op sw with ⟨a | e | _, sw₁⟩ <;> simp only [hs] at hr key
    · rcases hr' : Spec.specRun (fun x => (Γ x).ops) rest sw₁ with _ | ⟨rs', sw₂⟩ <;> simp only [hr'] at hr
      · simp at hr
      · simp only [Option.some.injEq, Prod.mk.injEq] at hr
        obtain ⟨rfl, rfl⟩ := hr
        obtain ⟨l, hl⟩ := specRun_mono hr'
        obtain ⟨w₁, h1, hR1⟩ := key (by simp) (fun p hp => ht p (by rw [hl]; simp [hp])) (hst (op, _) (by simp))
        obtain ⟨e1, e2⟩ := ih hop' hR1 hr' (fun p hp => hst p (by simp [hp]))
        simp only [run, h1, SResToRes]
        exact ⟨by rw [e1]; rfl, e2⟩
    · rcases hr' : Spec.specRun (fun x => (Γ x).ops) rest sw₁ with _ | ⟨rs', sw₂⟩ <;> simp only [hr'] at hr
      · simp at hr
      · simp only [Option.some.injEq, Prod.mk.injEq] at hr
        obtain ⟨rfl, rfl⟩ := hr
        obtain ⟨l, hl⟩ := specRun_mono hr'
        obtain ⟨w₁, h1, hR1⟩ := key (by simp) (fun p hp => ht p (by rw [hl]; simp [hp])) (hst (op, _) (by simp))
        obtain ⟨e1, e2⟩ := ih hop' hR1 hr' (fun p hp => hst p (by simp [hp]))
        simp only [run, h1, SResToRes]
        exact ⟨by rw [e1]; rfl, e2⟩
    · simp at hr

theorem R_init (g : G) : RW Γ none (.init g) (.init g) :=
  ⟨fun _ => trivial, rfl, by simp [World.init]⟩

theorem Any.R_init {Γ : Any.Env V G} (g : G) : Any.RW Γ none (.init g) (.init g) :=
  ⟨fun _ => trivial, rfl, rfl, fun _ h => by cases h⟩

theorem specRun_append {ops : Nat → Ops V G} (h₁ h₂ : List (Op V G)) (sw : SWorld V G) :
    Spec.specRun ops (h₁ ++ h₂) sw =
      (Spec.specRun ops h₁ sw).bind fun p => (Spec.specRun ops h₂ p.2).map fun q => (p.1 ++ q.1, q.2) := by
  induction h₁ generalizing sw with
  | nil => simp [Spec.specRun]
  | cons op rest ih =>
    simp only [List.cons_append, Spec.specRun]
    rcases hs : Spec.specOp ops op sw with ⟨a | e | _, sw₁⟩ <;> simp only []
    · rw [ih]
      rcases Spec.specRun ops rest sw₁ with _ | ⟨rs, sw₂⟩ <;> simp only [Option.bind_none, Option.bind_some]
      rcases Spec.specRun ops h₂ sw₂ with _ | ⟨rs', sw₃⟩ <;> rfl
    · rw [ih]
      rcases Spec.specRun ops rest sw₁ with _ | ⟨rs, sw₂⟩ <;> simp only [Option.bind_none, Option.bind_some]
      rcases Spec.specRun ops h₂ sw₂ with _ | ⟨rs', sw₃⟩ <;> rfl
    · rfl

alsoAny
theorem run_append_legal (hΓ : EnvWF Γ) (h₁ h₂ : List (Op V G)) (hop : ∀ op ∈ h₁, OpOK Γ op) {w sw rs sw'}
    (hR : RW Γ none w sw) (hr : Spec.specRun (fun x => (Γ x).ops) h₁ sw = some (rs, sw')) (ht : NoReserved Γ sw'.trace)
    (hst : ∀ p ∈ h₁.zip rs, StepOK p.1 p.2) :
    run Γ (h₁ ++ h₂) w = ((run Γ h₁ w).1 ++ (run Γ h₂ (run Γ h₁ w).2).1, (run Γ h₂ (run Γ h₁ w).2).2) := by
  induction h₁ generalizing sw rs w with
  | nil => simp [run]
  | cons op rest ih =>
    simp only [Spec.specRun] at hr
    have key := execOp_sims hΓ op (hop op (by simp)) w sw hR
    have hop' : ∀ o ∈ rest, OpOK Γ o := fun o ho => hop o (by simp [ho])
    rcases hs : Spec.specOp (fun x => (Γ x).ops) op sw with ⟨a | e | _, sw₁⟩ <;> simp only [hs] at hr key
    · rcases hr' : Spec.specRun (fun x => (Γ x).ops) rest sw₁ with _ | ⟨rs', sw₂⟩ <;> simp only [hr'] at hr
      · simp at hr
      · simp only [Option.some.injEq, Prod.mk.injEq] at hr
        obtain ⟨rfl, rfl⟩ := hr
        obtain ⟨l, hl⟩ := specRun_mono hr'
        obtain ⟨w₁, h1, hR1⟩ := key (by simp) (fun p hp => ht p (by rw [hl]; simp [hp])) (hst (op, _) (by simp))
        have := ih hop' hR1 hr' (fun p hp => hst p (by simp [hp]))
        simp only [List.cons_append, run, h1, SResToRes, this]
    · rcases hr' : Spec.specRun (fun x => (Γ x).ops) rest sw₁ with _ | ⟨rs', sw₂⟩ <;> simp only [hr'] at hr
      · simp at hr
      · simp only [Option.some.injEq, Prod.mk.injEq] at hr
        obtain ⟨rfl, rfl⟩ := hr
        obtain ⟨l, hl⟩ := specRun_mono hr'
        obtain ⟨w₁, h1, hR1⟩ := key (by simp) (fun p hp => ht p (by rw [hl]; simp [hp])) (hst (op, _) (by simp))
        have := ih hop' hR1 hr' (fun p hp => hst p (by simp [hp]))
        simp only [List.cons_append, run, h1, SResToRes, this]
    · simp at hr

/-! ### What callers see of a represented state -/

alsoAny
theorem hasValue_absent {w : World V G} (h : w.mem x = none) : hasValue Γ x w = (.abort (.ub .noOptional), w) := by
  unfold hasValue
  exact bind_abort (by simp [readStorage, h])

alsoAny
theorem R.isEmpty_iff (hΓ : EnvWF Γ) {w : World V G} {vars g} (h : R Γ none w vars g) :
    IsEmpty Γ x w ↔ vars x = some none := by
  constructor
  · intro he
    rcases hx : vars x with _ | (_ | v)
    · rw [IsEmpty, hasValue_absent (h.absent hx)] at he
      simp at he
    · rfl
    · rw [IsEmpty, h.hasValueFull hΓ hx] at he
      simp at he
  · intro hx; exact h.hasValueEmp hΓ hx

alsoAny
theorem R.holds_iff (hΓ : EnvWF Γ) {w : World V G} {vars g v} (h : R Γ none w vars g) :
    Holds Γ x v w ↔ vars x = some (some v) := by
  constructor
  · rintro ⟨he, hd⟩
    rcases hx : vars x with _ | (_ | u)
    · rw [hasValue_absent (h.absent hx)] at he
      simp at he
    · rw [h.hasValueEmp hΓ hx] at he
      simp at he
    · rw [deref_run hΓ h hx] at hd
      simp at hd
      rw [hd]
  · intro hx; exact ⟨h.hasValueFull hΓ hx, deref_run hΓ h hx⟩

alsoAny
theorem R.absent_iff {w : World V G} {vars g} (h : R Γ none w vars g) :
    Absent x w ↔ vars x = none := by
  constructor
  · intro he
    have := h.rel x
    simp only [Absent] at he
    rw [he] at this
    revert this
    rcases vars x with _ | (_ | u) <;> simp [VarRelH, VarRel]
  · exact h.absent

alsoAny
theorem R.sees (hΓ : EnvWF Γ) {w : World V G} {sw : SWorld V G} (h : RW Γ none w sw) : Sees Γ w sw :=
  ⟨h.user, fun _ => ⟨h.absent_iff, h.isEmpty_iff hΓ, fun _ => h.holds_iff hΓ⟩⟩

alsoAny
/-- What the caller sees determines the represented state. -/
theorem Sees.vars_eq {w : World V G} {sw sw' : SWorld V G} (h : Sees Γ w sw) (h' : Sees Γ w sw') : sw.vars = sw'.vars := by
  funext x
  rcases hx : sw.vars x with _ | (_ | v)
  · exact (((h'.2 x).1.1 ((h.2 x).1.2 hx))).symm
  · exact (((h'.2 x).2.1.1 ((h.2 x).2.1.2 hx))).symm
  · exact ((((h'.2 x).2.2 v).1 (((h.2 x).2.2 v).2 hx))).symm

end
end Verif.Model
