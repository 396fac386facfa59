import Verif.Lemmas.Nested

/-! Helper lemmas: optionals nested to any depth. The payload operations on both sides only correspond to each other through a relation
`R` (in `Lemmas/Nested.lean` they are the same). -/

namespace Verif.Model
open Verif.Spec
variable {V U G : Type} {T : Ty V G} {R : V → U → Prop} {o' : Ops U G}

/-- The storage `s` represents an optional whose payload corresponds to the payload of `c`. -/
def RepVia (T : Ty V G) (R : V → U → Prop) (s : Storage V) (c : Option U) : Prop := ∃ m, Represents T s m ∧ ORel R m c

theorem relW_scratch (g : G) {a b : Option (Option V)} {a' b' : Option (Option U)} (ha : ORel (ORel R) a a') (hb : ORel (ORel R) b b') :
    RelW R Eq (Spec.scratch g a b) (Spec.scratch g a' b') := by
  refine ⟨fun x => ?_, rfl, trivial⟩
  simp only [Spec.scratch]
  split
  · exact ha
  · split
    · exact hb
    · exact trivial

/-- One inner operation on operands that represent corresponding contents. -/
theorem inner_sim_via {m : M V G Unit} {sm : SM V G Unit} {sm' : SM U G Unit} (hs : Sims (fun _ => T) m sm)
    (hrel : RelM R Eq (fun _ _ => True) sm sm') (hP : ∀ v u, R v u → T.cfg.Storable v) (g : G) {a b : Option (Storage V)}
    {a₁ b₁ : Option (Option V)} {a₂ b₂ : Option (Option U)} (ha : VarRel T.cfg a a₁) (hb : VarRel T.cfg b b₁)
    (ha' : ORel (ORel R) a₁ a₂) (hb' : ORel (ORel R) b₁ b₂) (hu : (sm' (Spec.scratch g a₂ b₂)).1 ≠ .undef) :
    (m (scratch g a b)).1.exn = (sm' (Spec.scratch g a₂ b₂)).1.exn ∧
    (m (scratch g a b)).2.user = (sm' (Spec.scratch g a₂ b₂)).2.user ∧
    ∀ x c, (sm' (Spec.scratch g a₂ b₂)).2.vars x = some c → ∀ s d,
      RepVia T R ((m (scratch g a b)).2.at x s) ((sm' (Spec.scratch g a₂ b₂)).2.at x d) := by
  obtain ⟨h1, h2⟩ := hrel _ _ (relW_scratch g ha' hb')
  have hu₁ : (sm (Spec.scratch g a₁ b₁)).1 ≠ .undef := by
    intro e
    rw [e] at h1
    rcases e' : (sm' (Spec.scratch g a₂ b₂)).1 with _ | _ | _ <;> rw [e'] at h1
    · exact h1
    · exact h1
    · exact hu e'
  obtain ⟨w', q1, q2⟩ := hs _ _ (scratch_rel g ha hb) hu₁ (by
    intro p hp
    obtain ⟨q, _, _, h⟩ := h2.trace.left hp
    exact hP _ _ h)
  rw [q1]
  refine ⟨?_, q2.user.trans h2.user, ?_⟩
  · rw [exn_lift]
    rcases e : (sm (Spec.scratch g a₁ b₁)).1 with _ | _ | _ <;> rcases e' : (sm' (Spec.scratch g a₂ b₂)).1 with _ | _ | _ <;>
      rw [e, e'] at h1 <;> first | rfl | exact absurd h1 id | (exact congrArg some h1) | exact absurd e hu₁
  · intro x c hc s d
    have hv := h2.vars x
    rw [hc] at hv
    rcases e : (sm (Spec.scratch g a₁ b₁)).2.vars x with _ | c₁ <;> rw [e] at hv
    · exact absurd hv id
    · refine ⟨c₁, ?_, ?_⟩
      · have := at_rel (T := T) q2 e s c₁
        simpa only [SWorld.at, e, Option.getD_some] using this
      · simp only [SWorld.at, hc, Option.getD_some]
        exact hv

theorem ctorResult_via {r₁ : Res Unit × World V G} {r₂ : SRes Unit × SWorld U G} {s : Storage V} {c : Option U}
    (he : r₁.1.exn = r₂.1.exn) (hu : r₂.1 ≠ .undef) (hf : r₂.1 = .ok () → ∃ d, r₂.2.vars 1 = some d)
    (hr : ∀ x d, r₂.2.vars x = some d → ∀ s d, RepVia T R (r₁.2.at x s) (r₂.2.at x d)) :
    ERel (RepVia T R) (ctorResult 1 s r₁) (Spec.ctorResult 1 c r₂) := by
  simp only [ctorResult, Spec.ctorResult, he]
  rcases e : r₂.1 with _ | _ | _
  · obtain ⟨d, hd⟩ := hf e
    exact hr 1 d hd s c
  · rfl
  · exact absurd e hu

variable (hT : T.cfg.WF) (hl : T.ops.Lawful) (hP : ∀ v u, R v u → T.cfg.Storable v) (hd : RelOpsNoSwap R Eq T.ops o')
include hT hl hP hd

/-- The special members of the inner optional correspond to those of `std::optional`, if those of its payload do. -/
theorem nested_ops_via (k : SwapFn) : RelOpsNoSwap (RepVia T R) Eq (nestedOps k T) (Spec.nestedOps o') := by
  have hΓ := constEnv_wf hT hl
  refine ⟨?_, ?_, ?_, ?_, ?_, ?_, ?_⟩
  · rintro s c ⟨m, h, hm⟩ g _ rfl
    obtain ⟨⟨hu, _⟩, hf2⟩ := fine_ctorCopy o' c g
    obtain ⟨h1, h2, h3⟩ := inner_sim_via (copyCtor_sims hΓ) (.ctorCopy hd 1 0) hP g (a := some s) (b := none) (a₁ := some m) (b₁ := none)
      (a₂ := some c) (b₂ := none) h trivial hm trivial hu
    exact ⟨ctorResult_via h1 hu hf2 h3, h2⟩
  · rintro s c g _ ⟨m, h, hm⟩ rfl
    obtain ⟨⟨hu, c', hc'⟩, hf2⟩ := fine_ctorMove o' c g
    obtain ⟨h1, h2, h3⟩ := inner_sim_via (moveCtor_sims hΓ) (.ctorMove hd 1 0) hP g (a := some s) (b := none) (a₁ := some m) (b₁ := none)
      (a₂ := some c) (b₂ := none) h trivial hm trivial hu
    exact ⟨ctorResult_via h1 hu hf2 h3, h3 _ _ hc' s c, h2⟩
  · rintro s c t d g _ ⟨m, h, hm⟩ ⟨n, h', hn⟩ rfl
    obtain ⟨hu, c', hc'⟩ := fine_assignCopy o' c d g
    obtain ⟨h1, h2, h3⟩ := inner_sim_via (copyAssign_sims hΓ) (.assignCopy hd 0 1) hP g (a := some s) (b := some t) (a₁ := some m)
      (b₁ := some n) (a₂ := some c) (b₂ := some d) h h' hm hn hu
    exact ⟨h1, h3 _ _ hc' s c, h2⟩
  · rintro s c t d g _ ⟨m, h, hm⟩ ⟨n, h', hn⟩ rfl
    obtain ⟨⟨hu, c', hc'⟩, d', hd'⟩ := fine_assignMove o' c d g
    obtain ⟨h1, h2, h3⟩ := inner_sim_via (moveAssign_sims hΓ) (.assignMove hd 0 1) hP g (a := some s) (b := some t) (a₁ := some m)
      (b₁ := some n) (a₂ := some c) (b₂ := some d) h h' hm hn hu
    exact ⟨h1, h3 _ _ hc' s c, h3 _ _ hd' t d, h2⟩
  · rintro s c g _ ⟨m, h, hm⟩ rfl
    obtain ⟨hu, c', hc'⟩ := fine_selfCopy o' c g
    obtain ⟨h1, h2, h3⟩ := inner_sim_via (copyAssign_sims hΓ) (.assignCopy hd 0 0) hP g (a := some s) (b := none) (a₁ := some m)
      (b₁ := none) (a₂ := some c) (b₂ := none) h trivial hm trivial hu
    exact ⟨h1, h3 _ _ hc' s c, h2⟩
  · rintro s c g _ ⟨m, h, hm⟩ rfl
    obtain ⟨hu, c', hc'⟩ := fine_selfMove o' c g
    obtain ⟨h1, h2, h3⟩ := inner_sim_via (moveAssign_sims hΓ) (.assignMove hd 0 0) hP g (a := some s) (b := none) (a₁ := some m)
      (b₁ := none) (a₂ := some c) (b₂ := none) h trivial hm trivial hu
    exact ⟨h1, h3 _ _ hc' s c, h2⟩
  · rintro s c g _ ⟨m, h, hm⟩ rfl
    exact (inner_sim_via (dtor_sims hΓ) (.dtor hd 0) hP g (a := some s) (b := none) (a₁ := some m) (b₁ := none)
      (a₂ := some c) (b₂ := none) h trivial hm trivial (fine_dtor o' c g)).2.1

/-- So does `swap`, if the member function is called. -/
theorem nested_swap_via (hsw : RelSwap R Eq T.ops o') : RelSwap (RepVia T R) Eq (nestedOps .tiny T) (Spec.nestedOps o') := by
  have hΓ := constEnv_wf hT hl
  refine ⟨?_, ?_⟩
  · rintro s c t d g _ ⟨m, h, hm⟩ ⟨n, h', hn⟩ rfl
    obtain ⟨⟨hu, c', hc'⟩, d', hd'⟩ := fine_swap o' c d g
    obtain ⟨h1, h2, h3⟩ := inner_sim_via (swap_sims hΓ rfl) (.swap hd hsw 0 1) hP g (a := some s) (b := some t) (a₁ := some m)
      (b₁ := some n) (a₂ := some c) (b₂ := some d) h h' hm hn hu
    exact ⟨h1, h3 _ _ hc' s c, h3 _ _ hd' t d, h2⟩
  · rintro s c g _ ⟨m, h, hm⟩ rfl
    obtain ⟨hu, c', hc'⟩ := fine_selfSwap o' c g
    obtain ⟨h1, h2, h3⟩ := inner_sim_via (swap_sims hΓ rfl) (.swap hd hsw 0 0) hP g (a := some s) (b := none) (a₁ := some m)
      (b₁ := none) (a₂ := some c) (b₂ := none) h trivial hm trivial hu
    exact ⟨h1, h3 _ _ hc' s c, h2⟩

/-- Any call on optional 0 through user code. -/
theorem inner_exec_via {op : Op V G} {op' : Op U G} (hc : CallRel R Eq op op') (hop : OpOK (fun _ => T) op) (hsw : isSwap op = false)
    (hnt : ∀ nt x d f, op ≠ .transform nt x d f) (g : G) {a : Option (Storage V)} {a₁ : Option (Option V)} {a₂ : Option (Option U)}
    (ha : VarRel T.cfg a a₁) (ha' : ORel (ORel R) a₁ a₂) (hu : (specOp (fun _ => o') op' (Spec.scratch g a₂ none)).1 ≠ .undef) :
    (execOp (fun _ => T) op (scratch g a none)).1.exn = (specOp (fun _ => o') op' (Spec.scratch g a₂ none)).1.exn ∧
    (execOp (fun _ => T) op (scratch g a none)).2.user = (specOp (fun _ => o') op' (Spec.scratch g a₂ none)).2.user ∧
    ∀ x c, (specOp (fun _ => o') op' (Spec.scratch g a₂ none)).2.vars x = some c → ∀ s d,
      RepVia T R ((execOp (fun _ => T) op (scratch g a none)).2.at x s) ((specOp (fun _ => o') op' (Spec.scratch g a₂ none)).2.at x d) := by
  obtain ⟨h1, h2⟩ := relM_specOp (ops₁ := fun _ => T.ops) (ops₂ := fun _ => o') (fun _ => hd) (by rw [hsw]; nofun) hc _ _
    (relW_scratch g (b := none) (b' := none) ha' trivial)
  have hu₁ : (specOp (fun _ => T.ops) op (Spec.scratch g a₁ none)).1 ≠ .undef := by
    intro e
    rw [e] at h1
    rcases e' : (specOp (fun _ => o') op' (Spec.scratch g a₂ none)).1 with _ | _ | _ <;> rw [e'] at h1
    · exact h1
    · exact h1
    · exact hu e'
  obtain ⟨w', q1, q2⟩ := execOp_sims (constEnv_wf hT hl) op hop _ _ (scratch_rel (T := T) g ha (b := none) (b' := none) trivial) hu₁ (by
      intro p hp
      obtain ⟨q, _, _, h⟩ := h2.trace.left hp
      exact hP _ _ h) (by
      unfold StepOK
      split
      · exact absurd rfl (hnt _ _ _ _)
      · trivial)
  rw [q1]
  refine ⟨?_, q2.user.trans h2.user, ?_⟩
  · show (lift _).exn = _
    rcases e : (specOp (fun _ => T.ops) op (Spec.scratch g a₁ none)).1 with _ | _ | _ <;>
      rcases e' : (specOp (fun _ => o') op' (Spec.scratch g a₂ none)).1 with _ | _ | _ <;>
      rw [e, e'] at h1 <;> first | rfl | exact absurd h1 id | (exact congrArg some h1) | exact absurd e hu₁
  · intro x c hc s d
    have hv := h2.vars x
    rw [hc] at hv
    rcases e : (specOp (fun _ => T.ops) op (Spec.scratch g a₁ none)).2.vars x with _ | c₁ <;> rw [e] at hv
    · exact absurd hv id
    · refine ⟨c₁, ?_, ?_⟩
      · have := at_rel (T := T) q2 e s c₁
        simpa only [SWorld.at, e, Option.getD_some] using this
      · simp only [SWorld.at, hc, Option.getD_some]
        exact hv

end Verif.Model
