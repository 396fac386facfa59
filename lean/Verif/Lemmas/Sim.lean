import Verif.Lemmas.AnyBasic

/-! Helper lemmas: each model operation simulates its `std::optional` specification. -/

namespace Verif.Model
open Verif.Spec (SM SWorld SRes)

section
variable {V G α β : Type}

abbrev lift : SRes α → Res α := SResToRes

alsoAny
abbrev TraceOK (Γ : Env V G) (tr : List (Nat × V)) : Prop := NoReserved Γ tr

alsoAny
abbrev RW (Γ : Env V G) (H : Hole V) (w : World V G) (sw : SWorld V G) : Prop := R Γ H w sw.vars sw.user

alsoAny
theorem sm_bind (m : SM V G α) (f : α → SM V G β) (sw : SWorld V G) :
    (m >>= f) sw = match m sw with
      | (.ok a, w') => f a w'
      | (.throw e, w') => (.throw e, w')
      | (.undef, w') => (.undef, w') := rfl

theorem sm_pure (a : α) (sw : SWorld V G) : (SM.pure a : SM V G α) sw = (.ok a, sw) := rfl
theorem sm_pure' (a : α) (sw : SWorld V G) : (pure a : SM V G α) sw = (.ok a, sw) := rfl

variable {Γ : Env V G} {H : Hole V} {w : World V G} {sw : SWorld V G} {x y : Nat}

/-! ### Constructor arguments -/

alsoAny
theorem evalArg_sim (o : Ops V G) (a : Arg V G) (h : RW Γ H w sw)
    (hu : (Spec.argVal o a sw).1 ≠ .undef) (ht : TraceOK Γ (Spec.argVal o a sw).2.trace) :
    ∃ w', evalArg Γ o a w = (lift (Spec.argVal o a sw).1, w') ∧ RW Γ H w' (Spec.argVal o a sw).2 := by
  cases a with
  | ext nt c =>
    simp only [evalArg, Spec.argVal, userCall, Spec.user, h.user]
    rcases hc : c sw.user with ⟨r | r, g'⟩ <;> simp only [lift, SResToRes] <;> exact ⟨_, rfl, h.user_upd g'⟩
  | copyOf y =>
    simp only [evalArg, Spec.argVal, sm_bind, Spec.getVal] at hu ⊢
    rcases hy : sw.vars y with _ | (_ | v) <;> simp only [hy] at hu ⊢
    · exact absurd rfl hu
    · exact absurd rfl hu
    · rw [bind_ok (h.getPayload hy)]
      simp only [userCall, Spec.user, h.user]
      rcases hc : o.copyCtor v sw.user with ⟨r | r, g'⟩ <;> simp only [lift, SResToRes] <;> exact ⟨_, rfl, h.user_upd g'⟩
  | moveOf y =>
    simp only [evalArg, Spec.argVal] at hu ht ⊢
    rcases hy : sw.vars y with _ | (_ | v) <;> simp only [hy] at hu ht ⊢
    · exact absurd rfl hu
    · exact absurd rfl hu
    · rw [bind_ok (h.getPayload hy), bind_ok (userPure_run _ h.user)]
      rcases hc : o.moveCtor v sw.user with ⟨r, v', g'⟩
      simp only [hc] at hu ht ⊢
      have hst : (Γ y).cfg.Storable v' := by
        cases r <;> exact ht (y, v') (by simp)
      obtain ⟨w', hw', hR⟩ := (h.user_upd g').setPayload hy hst
      rw [bind_ok hw']
      cases r <;> exact ⟨_, rfl, hR⟩

theorem nothrowArg_spec {o : Ops V G} (ho : o.Lawful) {a : Arg V G}
    (ha : ∀ nt c, a = .ext nt c → nt = true → ∀ g, ∃ v, (c g).1 = .ok v)
    {e sw'} (h : Spec.argVal o a sw = (.throw e, sw')) : nothrowArg o a = false := by
  cases a with
  | ext nt c =>
    cases nt
    · rfl
    · exfalso
      obtain ⟨v, hv⟩ := ha _ _ rfl rfl sw.user
      simp only [Spec.argVal, Spec.user] at h
      rcases hc : c sw.user with ⟨r | r, g'⟩ <;> simp_all
  | copyOf y =>
    simp only [nothrowArg]
    cases hn : o.nothrowCopyCtor
    · rfl
    · exfalso
      simp only [Spec.argVal, sm_bind, Spec.getVal] at h
      rcases hy : sw.vars y with _ | (_ | v) <;> simp only [hy] at h
      · simp at h
      · simp at h
      · obtain ⟨v', hv⟩ := ho.copyCtor hn v sw.user
        simp only [Spec.user] at h
        rcases hc : o.copyCtor v sw.user with ⟨r | r, g'⟩ <;> simp_all
  | moveOf y =>
    simp only [nothrowArg]
    cases hn : o.nothrowMoveCtor
    · rfl
    · exfalso
      simp only [Spec.argVal] at h
      rcases hy : sw.vars y with _ | (_ | v) <;> simp only [hy] at h
      · simp at h
      · simp at h
      · obtain ⟨v', hv⟩ := ho.moveCtor hn v sw.user
        rcases hc : o.moveCtor v sw.user with ⟨r | r, v'', g'⟩ <;> simp_all

/-! ### ConstructPayload -/

alsoAny
theorem constructWith_ok {vars vars' : Nat → Option (Option V)} {g g' : G} {nt : Bool} {mk : M V G V} {v : V}
    (hΓ : EnvWF Γ) (h : R Γ none w vars g) (hx : vars x = some none) (hst : (Γ x).cfg.Storable v)
    (hmk : ∀ w₁, R Γ (some (x, Raw (Γ x).cfg)) w₁ vars g →
      ∃ w₂, mk w₁ = (.ok v, w₂) ∧ R Γ (some (x, Raw (Γ x).cfg)) w₂ vars' g') :
    ∃ w', constructWith Γ x nt mk w = (.ok (), w') ∧ R Γ none w' (upd vars' x (some (some v))) g' := by
  obtain ⟨w₁, h1, hR1⟩ := h.invalidate hΓ hx
  obtain ⟨w₂, h2, hR2⟩ := hmk w₁ hR1
  obtain ⟨w₃, h3, hR3⟩ := hR2.newPayload hst
  have hA := hR3.assertHasFull hΓ (x := x) (upd_same _ _ _)
  refine ⟨w₃, ?_, hR3⟩
  unfold constructWith
  apply noexceptIf_ok
  rw [bind_ok (h.assertHasEmp hΓ hx), bind_ok h1]
  have hbody : (mk >>= fun v => newPayload (Γ x).cfg x v) w₁ = (.ok (), w₃) := by rw [bind_ok h2, h3]
  cases nt
  · simp only [Bool.false_eq_true, if_false]
    rw [bind_ok (onThrow_ok hbody)]
    exact hA
  · simp only [if_true]
    rw [bind_ok h2, bind_ok h3]
    exact hA

alsoAny
theorem constructWith_throw {vars vars' : Nat → Option (Option V)} {g g' : G} {mk : M V G V} {e : Exn}
    (hΓ : EnvWF Γ) (h : R Γ none w vars g) (hx : vars x = some none)
    (hmk : ∀ w₁, R Γ (some (x, Raw (Γ x).cfg)) w₁ vars g →
      ∃ w₂, mk w₁ = (.throw e, w₂) ∧ R Γ (some (x, Raw (Γ x).cfg)) w₂ vars' g') :
    ∃ w', constructWith Γ x false mk w = (.throw e, w') ∧ R Γ none w' vars' g' := by
  obtain ⟨w₁, h1, hR1⟩ := h.invalidate hΓ hx
  obtain ⟨w₂, h2, hR2⟩ := hmk w₁ hR1
  obtain ⟨w₃, h3, hR3⟩ := hR2.initEmptyFlag hΓ (fun s hs => hs.1)
  refine ⟨w₃, ?_, hR3⟩
  unfold constructWith
  apply noexceptIf_throw_false
  rw [bind_ok (h.assertHasEmp hΓ hx), bind_ok h1]
  have hbody : (mk >>= fun v => newPayload (Γ x).cfg x v) w₁ = (.throw e, w₂) := bind_throw h2
  simp only [Bool.false_eq_true, if_false]
  rw [bind_throw (onThrow_throw hbody h3)]

alsoAny
theorem constructWith_terminate {vars : Nat → Option (Option V)} {g : G} {mk : M V G V}
    (hΓ : EnvWF Γ) (h : R Γ none w vars g) (hx : vars x = some none)
    (hmk : ∀ w₁, R Γ (some (x, Raw (Γ x).cfg)) w₁ vars g → ∃ e w₂, mk w₁ = (.throw e, w₂)) :
    ∃ w', constructWith Γ x true mk w = (.abort .terminate, w') := by
  obtain ⟨w₁, h1, hR1⟩ := h.invalidate hΓ hx
  obtain ⟨e, w₂, h2⟩ := hmk w₁ hR1
  refine ⟨w₂, ?_⟩
  unfold constructWith
  apply noexceptIf_throw_true (e := e)
  rw [bind_ok (h.assertHasEmp hΓ hx), bind_ok h1]
  simp only [if_true]
  rw [bind_throw h2]

alsoAny
theorem constructWith_abort {vars : Nat → Option (Option V)} {g : G} {nt : Bool} {mk : M V G V} {k : Abort}
    (hΓ : EnvWF Γ) (h : R Γ none w vars g) (hx : vars x = some none)
    (hmk : ∀ w₁, R Γ (some (x, Raw (Γ x).cfg)) w₁ vars g → ∃ w₂, mk w₁ = (.abort k, w₂)) :
    ∃ w', constructWith Γ x nt mk w = (.abort k, w') := by
  obtain ⟨w₁, h1, hR1⟩ := h.invalidate hΓ hx
  obtain ⟨w₂, h2⟩ := hmk w₁ hR1
  refine ⟨w₂, ?_⟩
  unfold constructWith
  apply noexceptIf_abort
  rw [bind_ok (h.assertHasEmp hΓ hx), bind_ok h1]
  have hbody : (mk >>= fun v => newPayload (Γ x).cfg x v) w₁ = (.abort k, w₂) := bind_abort h2
  cases nt
  · simp only [Bool.false_eq_true, if_false]
    rw [bind_abort (onThrow_abort hbody)]
  · simp only [if_true]
    rw [bind_abort h2]

alsoAny
/-- `ConstructPayload` on an empty optional simulates direct initialisation. -/
theorem constructPayload_sim (hΓ : EnvWF Γ) {a : Arg V G} (ha : ArgLawful a) (h : RW Γ none w sw)
    (hx : sw.vars x = some none)
    (hu : (Spec.init (Γ x).ops x a sw).1 ≠ .undef) (ht : TraceOK Γ (Spec.init (Γ x).ops x a sw).2.trace) :
    ∃ w', constructPayload Γ x a w = (lift (Spec.init (Γ x).ops x a sw).1, w') ∧
      RW Γ none w' (Spec.init (Γ x).ops x a sw).2 := by
  unfold constructPayload
  simp only [Spec.init, sm_bind] at hu ht ⊢
  rcases hav : Spec.argVal (Γ x).ops a sw with ⟨v | e | _, sw'⟩
  · simp only [hav, Spec.put] at hu ht ⊢
    have hst : (Γ x).cfg.Storable v := ht (x, v) (by simp)
    have ht' : TraceOK Γ sw'.trace := fun p hp => ht p (by simp [hp])
    refine constructWith_ok hΓ h hx hst fun w₁ hw₁ => ?_
    have := evalArg_sim (Γ x).ops a (sw := sw) hw₁ (by simp [hav]) (by simpa [hav] using ht')
    simpa [hav, lift, SResToRes] using this
  · simp only [hav] at hu ht ⊢
    have hn := nothrowArg_spec (hΓ.ops x) (a := a) (by rintro nt c rfl; exact ha) hav
    rw [hn]
    refine constructWith_throw hΓ h hx fun w₁ hw₁ => ?_
    have := evalArg_sim (Γ x).ops a (sw := sw) hw₁ (by simp [hav]) (by simpa [hav] using ht)
    simpa [hav, lift, SResToRes] using this
  · simp [hav] at hu

/-! ### reset -/

alsoAny
theorem reset_full (hΓ : EnvWF Γ) {vars g v} (h : R Γ none w vars g) (hx : vars x = some (some v)) :
    ∃ w', reset Γ x w = (.ok (), w') ∧ R Γ none w' (upd vars x (some none)) ((Γ x).ops.dtor v g) := by
  obtain ⟨w₁, h1, hR1⟩ := h.destroyPayload hx
  obtain ⟨w₂, h2, hR2⟩ := hR1.initEmptyFlag hΓ (fun s hs => hs.1)
  refine ⟨w₂, ?_, hR2⟩
  unfold reset
  apply noexceptIf_ok
  rw [bind_ok (h.hasValueFull hΓ hx)]
  simp only [if_true]
  rw [bind_ok h1, bind_ok h2]
  exact hR2.assertHasEmp hΓ (x := x) (upd_same _ _ _)

alsoAny
theorem reset_empty (hΓ : EnvWF Γ) {vars g} (h : R Γ none w vars g) (hx : vars x = some none) :
    reset Γ x w = (.ok (), w) := by
  unfold reset
  apply noexceptIf_ok
  rw [bind_ok (h.hasValueEmp hΓ hx)]
  rfl

alsoAny
theorem reset_sim (hΓ : EnvWF Γ) (h : RW Γ none w sw) (hu : (Spec.reset (Γ x).ops x sw).1 ≠ .undef) :
    ∃ w', reset Γ x w = (lift (Spec.reset (Γ x).ops x sw).1, w') ∧
      RW Γ none w' (Spec.reset (Γ x).ops x sw).2 := by
  simp only [Spec.reset, sm_bind, Spec.get] at hu ⊢
  rcases hx : sw.vars x with _ | (_ | v) <;> simp only [hx] at hu ⊢
  · exact absurd rfl hu
  · exact ⟨w, reset_empty hΓ h hx, h⟩
  · simp only [Spec.destroyVal, hx]
    exact reset_full hΓ h hx

/-! ### Payload assignment -/

alsoAny
theorem checkE_run (e : Option Exn) (w : World V G) :
    checkE e w = (match e with | none => .ok () | some e => .throw e, w) := by
  cases e <;> rfl

theorem check_run (e : Option Exn) (sw : SWorld V G) :
    (Spec.check e : SM V G Unit) sw = (match e with | none => .ok () | some e => .throw e, sw) := by
  cases e <;> rfl

alsoAny
/-- One in-place user operation on one engaged variable. -/
theorem inplace1 {vars g v} {f : G → (Option Exn × V) × G} (h : R Γ H w vars g) (hx : vars x = some (some v))
    (hst : (Γ x).cfg.Storable (f g).1.2) :
    ∃ w', (userPure f >>= fun (p : Option Exn × V) => setPayload (Γ x).cfg x p.2 >>= fun _ => checkE p.1) w =
        (match (f g).1.1 with | none => .ok () | some e => .throw e, w') ∧
      R Γ H w' (upd vars x (some (some (f g).1.2))) (f g).2 := by
  rw [bind_ok (userPure_run f h.user)]
  obtain ⟨w', hw', hR⟩ := (h.user_upd (f g).2).setPayload hx hst
  refine ⟨w', ?_, hR⟩
  rw [bind_ok hw', checkE_run]

alsoAny
/-- One in-place user operation on two different engaged variables. -/
theorem inplace2 {vars g v s} {f : G → (Option Exn × V × V) × G} (h : R Γ H w vars g)
    (hx : vars x = some (some v)) (hy : vars y = some (some s)) (hxy : x ≠ y)
    (hstx : (Γ x).cfg.Storable (f g).1.2.1) (hsty : (Γ y).cfg.Storable (f g).1.2.2) :
    ∃ w', (userPure f >>= fun (p : Option Exn × V × V) =>
        setPayload (Γ x).cfg x p.2.1 >>= fun _ => setPayload (Γ y).cfg y p.2.2 >>= fun _ => checkE p.1) w =
        (match (f g).1.1 with | none => .ok () | some e => .throw e, w') ∧
      R Γ H w' (upd (upd vars x (some (some (f g).1.2.1))) y (some (some (f g).1.2.2))) (f g).2 := by
  rw [bind_ok (userPure_run f h.user)]
  obtain ⟨w', hw', hR⟩ := (h.user_upd (f g).2).setPayload hx hstx
  obtain ⟨w'', hw'', hR'⟩ := hR.setPayload (x := y) (v := s) (by rw [upd_other _ _ (Ne.symm hxy), hy]) hsty
  refine ⟨w'', ?_, hR'⟩
  rw [bind_ok hw', bind_ok hw'', checkE_run]

alsoAny
theorem payloadAssign_sim {a : AArg V G} {v} (h : RW Γ H w sw) (hx : sw.vars x = some (some v))
    (hu : (Spec.payloadAssign (Γ x).ops x a sw).1 ≠ .undef)
    (ht : TraceOK Γ (Spec.payloadAssign (Γ x).ops x a sw).2.trace) :
    ∃ w', payloadAssign Γ x a w = (lift (Spec.payloadAssign (Γ x).ops x a sw).1, w') ∧
      RW Γ H w' (Spec.payloadAssign (Γ x).ops x a sw).2 ∧
      ∃ v', (Spec.payloadAssign (Γ x).ops x a sw).2.vars x = some (some v') := by
  cases a with
  | ext f nt c =>
    simp only [payloadAssign, Spec.payloadAssign, sm_bind, Spec.getVal, hx, Spec.user, Spec.put, check_run] at hu ht ⊢
    rw [bind_ok (h.getPayload hx)]
    rcases hc : f v sw.user with ⟨e, v', g'⟩
    simp only [hc] at ht ⊢
    have := inplace1 (f := fun g => ((( f v g).1, (f v g).2.1), (f v g).2.2)) h hx
      (by rw [hc]; exact ht (x, v') (by simp))
    simp only [hc] at this
    obtain ⟨w', hw', hR⟩ := this
    refine ⟨w', ?_, hR, v', by simp⟩
    cases e <;> exact hw'
  | copyOf y =>
    simp only [payloadAssign, Spec.payloadAssign, sm_bind, Spec.getVal, hx] at hu ht ⊢
    rcases hy : sw.vars y with _ | (_ | s) <;> simp only [hy] at hu ht ⊢
    · exact absurd rfl hu
    · exact absurd rfl hu
    simp only [Spec.user, Spec.put, check_run] at hu ht ⊢
    rw [bind_ok (h.getPayload hx), bind_ok (h.getPayload hy)]
    rcases hc : (if x = y then (Γ x).ops.selfCopyAssign v sw.user else (Γ x).ops.copyAssign v s sw.user) with ⟨e, v', g'⟩
    simp only [hc] at ht ⊢
    have := inplace1 (f := fun g =>
      (((if x = y then (Γ x).ops.selfCopyAssign v g else (Γ x).ops.copyAssign v s g).1,
        (if x = y then (Γ x).ops.selfCopyAssign v g else (Γ x).ops.copyAssign v s g).2.1),
       (if x = y then (Γ x).ops.selfCopyAssign v g else (Γ x).ops.copyAssign v s g).2.2)) h hx
      (by rw [hc]; exact ht (x, v') (by simp))
    simp only [hc] at this
    obtain ⟨w', hw', hR⟩ := this
    refine ⟨w', ?_, hR, v', by simp⟩
    cases e <;> exact hw'
  | moveOf y =>
    simp only [payloadAssign, Spec.payloadAssign, sm_bind, Spec.getVal, hx] at hu ht ⊢
    rcases hy : sw.vars y with _ | (_ | s) <;> simp only [hy] at hu ht ⊢
    · exact absurd rfl hu
    · exact absurd rfl hu
    rw [bind_ok (h.getPayload hx), bind_ok (h.getPayload hy)]
    by_cases hxy : x = y
    · simp only [if_pos hxy, sm_bind, Spec.user, Spec.put, check_run] at hu ht ⊢
      rcases hc : (Γ x).ops.selfMoveAssign v sw.user with ⟨e, v', g'⟩
      simp only [hc] at ht ⊢
      have := inplace1 (f := fun g => (((  (Γ x).ops.selfMoveAssign v g).1, ((Γ x).ops.selfMoveAssign v g).2.1),
        ((Γ x).ops.selfMoveAssign v g).2.2)) h hx (by rw [hc]; exact ht (x, v') (by simp))
      simp only [hc] at this
      obtain ⟨w', hw', hR⟩ := this
      refine ⟨w', ?_, hR, v', by simp⟩
      cases e <;> exact hw'
    · simp only [if_neg hxy, sm_bind, Spec.user, Spec.put, check_run] at hu ht ⊢
      rcases hc : (Γ x).ops.moveAssign v s sw.user with ⟨e, v', s', g'⟩
      simp only [hc] at ht ⊢
      have := inplace2 (f := fun g => ((((Γ x).ops.moveAssign v s g).1, ((Γ x).ops.moveAssign v s g).2.1,
        ((Γ x).ops.moveAssign v s g).2.2.1), ((Γ x).ops.moveAssign v s g).2.2.2)) h hx hy hxy
        (by rw [hc]; exact ht (x, v') (by simp)) (by rw [hc]; exact ht (y, s') (by simp))
      simp only [hc] at this
      obtain ⟨w', hw', hR⟩ := this
      refine ⟨w', ?_, hR, v', by simp⟩
      cases e <;> exact hw'

end
end Verif.Model
