import Verif.Lemmas.Sim

/-! Helper lemmas: simulation of the complete public operations. -/

namespace Verif.Model
open Verif.Spec (SM SWorld SRes)

section
variable {V G α β : Type}

alsoAny
/-- `m` behaves like `sm` whenever `sm` is defined and stores no reserved value. -/
def Sims (Γ : Env V G) (m : M V G α) (sm : SM V G α) : Prop :=
  ∀ w sw, RW Γ none w sw → (sm sw).1 ≠ .undef → TraceOK Γ (sm sw).2.trace →
    ∃ w', m w = (lift (sm sw).1, w') ∧ RW Γ none w' (sm sw).2

/-- The ghost trace is only appended to, and nothing depends on it. -/
def Mono (sm : SM V G α) : Prop :=
  ∀ vars user, ∃ r vars' user' l, ∀ tr, sm ⟨vars, user, tr⟩ = (r, ⟨vars', user', tr ++ l⟩)

theorem Mono.bind {m : SM V G α} {f : α → SM V G β} (hm : Mono m) (hf : ∀ a, Mono (f a)) : Mono (m >>= f) := by
  intro vars user
  obtain ⟨r, vars', user', l, h⟩ := hm vars user
  cases r with
  | ok a =>
    obtain ⟨r', vars'', user'', l', h'⟩ := hf a vars' user'
    exact ⟨r', vars'', user'', l ++ l', fun tr => by rw [sm_bind, h tr]; simp only [h', List.append_assoc]⟩
  | throw e => exact ⟨.throw e, vars', user', l, fun tr => by rw [sm_bind, h tr]⟩
  | undef => exact ⟨.undef, vars', user', l, fun tr => by rw [sm_bind, h tr]⟩

theorem Mono.of_eq {sm : SM V G α} (h : ∀ vars user, ∃ r vars' user', ∀ tr, sm ⟨vars, user, tr⟩ = (r, ⟨vars', user', tr⟩)) :
    Mono sm := by
  intro vars user
  obtain ⟨r, vars', user', h⟩ := h vars user
  exact ⟨r, vars', user', [], fun tr => by rw [h tr, List.append_nil]⟩

theorem mono_pure (a : α) : Mono (SM.pure a : SM V G α) := .of_eq fun _ _ => ⟨_, _, _, fun _ => rfl⟩
theorem mono_put (x : Nat) (v : V) : Mono (Spec.put x v : SM V G Unit) := fun vars user =>
  ⟨.ok (), fun z => if z = x then some (some v) else vars z, user, [(x, v)], fun _ => rfl⟩
theorem mono_user (f : G → Except Exn α × G) : Mono (Spec.user f : SM V G α) := .of_eq fun vars user => by
  unfold Spec.user
  rcases hf : f user with ⟨r | r, g⟩ <;> exact ⟨_, _, _, fun tr => by simp only [hf]; rfl⟩
theorem mono_get (x : Nat) : Mono (Spec.get x : SM V G _) := .of_eq fun vars user => by
  unfold Spec.get
  rcases hx : vars x with _ | o <;> exact ⟨_, _, _, fun tr => by simp only [hx]; rfl⟩
theorem mono_getVal (x : Nat) : Mono (Spec.getVal x : SM V G _) := .of_eq fun vars user => by
  unfold Spec.getVal
  rcases hx : vars x with _ | (_ | v) <;> exact ⟨_, _, _, fun tr => by simp only [hx]; rfl⟩
theorem mono_fresh (x : Nat) : Mono (Spec.fresh x : SM V G _) := .of_eq fun vars user => by
  unfold Spec.fresh
  rcases hx : vars x with _ | o <;> exact ⟨_, _, _, fun tr => by simp only [hx]; rfl⟩
theorem mono_check (e : Option Exn) : Mono (Spec.check e : SM V G _) := by
  cases e <;> exact .of_eq fun _ _ => ⟨_, _, _, fun _ => rfl⟩
theorem mono_throw (e : Exn) : Mono (Spec.throw e : SM V G α) := .of_eq fun _ _ => ⟨_, _, _, fun _ => rfl⟩
theorem mono_setEmpty (x : Nat) : Mono (Spec.setEmpty x : SM V G _) := .of_eq fun vars user =>
  ⟨.ok (), fun z => if z = x then some none else vars z, user, fun _ => rfl⟩
theorem mono_remove (x : Nat) : Mono (Spec.remove x : SM V G _) := .of_eq fun vars user =>
  ⟨.ok (), fun z => if z = x then none else vars z, user, fun _ => rfl⟩
theorem mono_destroyVal (o : Ops V G) (x : Nat) : Mono (Spec.destroyVal o x : SM V G _) := .of_eq fun vars user => by
  unfold Spec.destroyVal
  rcases hx : vars x with _ | (_ | v) <;> exact ⟨_, _, _, fun tr => by simp only [hx]; rfl⟩

theorem mono_argVal (o : Ops V G) (a : Arg V G) : Mono (Spec.argVal o a) := by
  cases a with
  | ext nt c => exact mono_user c
  | copyOf y => exact (mono_getVal y).bind fun v => mono_user _
  | moveOf y =>
    intro vars user
    simp only [Spec.argVal]
    rcases hx : vars y with _ | (_ | v)
    · exact ⟨_, _, _, [], fun tr => by simp only [List.append_nil]; rfl⟩
    · exact ⟨_, _, _, [], fun tr => by simp only [List.append_nil]; rfl⟩
    · rcases hc : o.moveCtor v user with ⟨r | r, v', g'⟩ <;> exact ⟨_, _, _, [(y, v')], fun tr => by simp only [hc]; rfl⟩

theorem mono_init (o : Ops V G) (x : Nat) (a : Arg V G) : Mono (Spec.init o x a) :=
  (mono_argVal o a).bind fun v => mono_put x v

theorem mono_reset (o : Ops V G) (x : Nat) : Mono (Spec.reset o x) := by
  refine (mono_get x).bind fun r => ?_
  cases r
  · exact mono_pure ()
  · exact mono_destroyVal o x

alsoAny
theorem NoReserved.of_mono {Γ : Env V G} {sm : SM V G α} (h : Mono sm) {sw : SWorld V G}
    (ht : TraceOK Γ (sm sw).2.trace) : NoReserved Γ sw.trace := by
  obtain ⟨r, vars', user', l, hl⟩ := h sw.vars sw.user
  have hs : sm sw = _ := hl sw.trace
  intro p hp
  exact ht p (by rw [hs]; simp [hp])

variable {Γ : Env V G} {w : World V G} {sw : SWorld V G} {x y : Nat}

/-! ### Observers -/

alsoAny
theorem hasValue_sims (hΓ : EnvWF Γ) : Sims Γ (hasValue Γ x) (Spec.hasValue x) := by
  intro w sw h hu ht
  simp only [Spec.hasValue, sm_bind, Spec.get] at hu ⊢
  rcases hx : sw.vars x with _ | o <;> simp only [hx] at hu ⊢
  · exact absurd rfl hu
  · refine ⟨w, ?_, ?_⟩
    · rw [h.hasValue hΓ hx]; cases o <;> rfl
    · cases o <;> exact h

alsoAny
theorem deref_run (hΓ : EnvWF Γ) {H : Hole V} {vars : Nat → Option (Option V)} {g : G} {v : V}
    (h : R Γ H w vars g) (hx : vars x = some (some v)) :
    deref Γ x w = (.ok v, w) := by
  unfold deref
  apply noexceptIf_ok
  rw [bind_ok (h.assertHasFull hΓ hx), h.getPayload hx]

alsoAny
theorem deref_sims (hΓ : EnvWF Γ) : Sims Γ (deref Γ x) (Spec.deref x) := by
  intro w sw h hu ht
  simp only [Spec.deref, Spec.getVal] at hu ⊢
  rcases hx : sw.vars x with _ | (_ | v) <;> simp only [hx] at hu ⊢
  · exact absurd rfl hu
  · exact absurd rfl hu
  · exact ⟨w, deref_run hΓ h hx, h⟩

alsoAny
theorem value_sims (hΓ : EnvWF Γ) : Sims Γ (value Γ x) (Spec.value x) := by
  intro w sw h hu ht
  simp only [Spec.value, sm_bind, Spec.get] at hu ⊢
  unfold value
  rcases hx : sw.vars x with _ | (_ | v) <;> simp only [hx] at hu ⊢
  · exact absurd rfl hu
  · rw [bind_ok (h.hasValueEmp hΓ hx)]
    exact ⟨w, rfl, h⟩
  · rw [bind_ok (h.hasValueFull hΓ hx)]
    simp only [if_true]
    rw [h.getPayload hx]
    exact ⟨w, rfl, h⟩

alsoAny
theorem userCall_sims (f : G → Except Exn α × G) : Sims Γ (userCall f) (Spec.user f) := by
  intro w sw h hu ht
  simp only [userCall, Spec.user, h.user]
  rcases hc : f sw.user with ⟨r | r, g'⟩ <;> exact ⟨_, rfl, h.user_upd g'⟩

alsoAny
theorem valueOr_sims (hΓ : EnvWF Γ) (rv : Bool) (d : G → Except Exn V × G) :
    Sims Γ (valueOr Γ rv x d) (Spec.valueOr (Γ x).ops rv x d) := by
  intro w sw h hu ht
  simp only [Spec.valueOr, sm_bind, Spec.get] at hu ht ⊢
  unfold valueOr
  rcases hx : sw.vars x with _ | (_ | v) <;> simp only [hx] at hu ht ⊢
  · exact absurd rfl hu
  · rw [bind_ok (h.hasValueEmp hΓ hx)]
    exact userCall_sims d w sw h hu ht
  · rw [bind_ok (h.hasValueFull hΓ hx)]
    exact evalArg_sim (Γ x).ops _ h hu ht

alsoAny
theorem modify_sims (hΓ : EnvWF Γ) (f : V → G → Option Exn × V × G) :
    Sims Γ (modify Γ x f) (Spec.modify x f) := by
  intro w sw h hu ht
  simp only [modify, Spec.modify, sm_bind, Spec.getVal] at hu ht ⊢
  rcases hx : sw.vars x with _ | (_ | v) <;> simp only [hx] at hu ht ⊢
  · exact absurd rfl hu
  · exact absurd rfl hu
  simp only [Spec.user, Spec.put, check_run] at hu ht ⊢
  rw [bind_ok (deref_run hΓ h hx)]
  rcases hc : f v sw.user with ⟨e, v', g'⟩
  simp only [hc] at ht ⊢
  have := inplace1 (f := fun g => ((( f v g).1, (f v g).2.1), (f v g).2.2)) h hx
    (by rw [hc]; exact ht (x, v') (by simp))
  simp only [hc] at this
  obtain ⟨w', hw', hR⟩ := this
  refine ⟨w', ?_, hR⟩
  cases e <;> exact hw'

/-! ### Modifiers -/

alsoAny
theorem reset_sims (hΓ : EnvWF Γ) : Sims Γ (reset Γ x) (Spec.reset (Γ x).ops x) :=
  fun _ _ h hu _ => reset_sim hΓ h hu

alsoAny
theorem assignNullopt_sims (hΓ : EnvWF Γ) : Sims Γ (assignNullopt Γ x) (Spec.reset (Γ x).ops x) := by
  intro w sw h hu ht
  obtain ⟨w', hw', hR⟩ := reset_sim hΓ h hu
  refine ⟨w', ?_, hR⟩
  have hok : ∃ a sw', Spec.reset (Γ x).ops x sw = (.ok a, sw') := by
    simp only [Spec.reset, sm_bind, Spec.get] at hu ⊢
    rcases hx : sw.vars x with _ | (_ | v) <;> simp only [hx] at hu ⊢
    · exact absurd rfl hu
    · exact ⟨_, _, rfl⟩
    · simp only [Spec.destroyVal, hx]; exact ⟨_, _, rfl⟩
  obtain ⟨a, sw', hr⟩ := hok
  rw [hr] at hw' ⊢
  exact noexceptIf_ok hw'

theorem AArgLawful.toArg {a : AArg V G} (h : AArgLawful a) : ArgLawful a.toArg := by
  cases a <;> exact h

/-- Everything about `init` on an empty variable: never ends empty on success. -/
theorem init_ok_engaged {o : Ops V G} {a : Arg V G} {sw' u} (h : Spec.init o x a sw = (.ok u, sw')) :
    ∃ v, sw'.vars x = some (some v) := by
  simp only [Spec.init, sm_bind] at h
  rcases hav : Spec.argVal o a sw with ⟨v | e | _, sw''⟩ <;> simp only [hav, Spec.put] at h
  · simp only [Prod.mk.injEq, true_and] at h
    exact ⟨v, by rw [← h]; simp⟩
  · simp at h
  · simp at h

alsoAny
theorem assignVal_sims (hΓ : EnvWF Γ) {a : AArg V G} (ha : AArgLawful a) :
    Sims Γ (assignValue Γ x a) (Spec.assignVal (Γ x).ops x a) := by
  intro w sw h hu ht
  simp only [Spec.assignVal, sm_bind, Spec.get] at hu ht ⊢
  unfold assignValue
  rcases hx : sw.vars x with _ | (_ | v) <;> simp only [hx] at hu ht ⊢
  · exact absurd rfl hu
  · rw [bind_ok (h.hasValueEmp hΓ hx)]
    simp only [Bool.false_eq_true, if_false]
    obtain ⟨w', hw', hR⟩ := constructPayload_sim hΓ ha.toArg h hx hu ht
    rcases hr : Spec.init (Γ x).ops x a.toArg sw with ⟨u | e | _, sw'⟩ <;> simp only [hr] at hw' hR hu ⊢
    · rw [bind_ok hw']
      obtain ⟨v, hv⟩ := init_ok_engaged hr
      exact ⟨w', hR.assertHasFull hΓ hv, hR⟩
    · rw [bind_throw hw']
      exact ⟨w', rfl, hR⟩
    · exact absurd rfl hu
  · rw [bind_ok (h.hasValueFull hΓ hx)]
    simp only [if_true]
    obtain ⟨w', hw', hR, v', hv'⟩ := payloadAssign_sim h hx hu ht
    rcases hr : Spec.payloadAssign (Γ x).ops x a sw with ⟨u | e | _, sw'⟩ <;> simp only [hr] at hw' hR hv' hu ⊢
    · rw [bind_ok hw']
      exact ⟨w', hR.assertHasFull hΓ hv', hR⟩
    · rw [bind_throw hw']
      exact ⟨w', rfl, hR⟩
    · exact absurd rfl hu

alsoAny
theorem emplace_sims (hΓ : EnvWF Γ) {a : Arg V G} (ha : ArgLawful a) :
    Sims Γ (emplace Γ x a) (Spec.emplace (Γ x).ops x a) := by
  intro w sw h hu ht
  simp only [Spec.emplace, sm_bind] at hu ht ⊢
  unfold emplace
  rcases hr : Spec.reset (Γ x).ops x sw with ⟨u | e | _, sw₁⟩ <;> simp only [hr] at hu ht ⊢
  · obtain ⟨w₁, hw₁, hR₁⟩ := reset_sim hΓ h (x := x) (by simp [hr])
    rw [hr] at hw₁ hR₁
    rw [bind_ok hw₁]
    have hx1 : sw₁.vars x = some none := by
      simp only [Spec.reset, sm_bind, Spec.get] at hr
      rcases hx : sw.vars x with _ | (_ | v) <;> simp only [hx] at hr
      · simp at hr
      · simp only [sm_pure, Prod.mk.injEq, true_and] at hr; rw [← hr]; exact hx
      · simp only [Spec.destroyVal, hx, Prod.mk.injEq, true_and] at hr; rw [← hr]; simp
    rcases hi : Spec.init (Γ x).ops x a sw₁ with ⟨u' | e | _, sw₂⟩ <;> simp only [hi] at hu ht ⊢
    · have ht2 : TraceOK Γ sw₂.trace := .of_mono (mono_getVal x) ht
      obtain ⟨w₂, hw₂, hR₂⟩ := constructPayload_sim hΓ ha hR₁ hx1 (by simp [hi]) (by simpa [hi] using ht2)
      rw [hi] at hw₂ hR₂
      obtain ⟨v, hv⟩ := init_ok_engaged hi
      rw [bind_ok hw₂, bind_ok (hR₂.assertHasFull hΓ hv), hR₂.getPayload hv]
      simp only [Spec.getVal, hv]
      exact ⟨w₂, rfl, hR₂⟩
    · obtain ⟨w₂, hw₂, hR₂⟩ := constructPayload_sim hΓ ha hR₁ hx1 (by simp [hi]) (by simpa [hi] using ht)
      rw [hi] at hw₂ hR₂
      rw [bind_throw hw₂]
      exact ⟨w₂, rfl, hR₂⟩
    · exact absurd rfl hu
  · exfalso
    simp only [Spec.reset, sm_bind, Spec.get] at hr
    rcases hx : sw.vars x with _ | (_ | v) <;> simp only [hx] at hr
    · simp at hr
    · simp [sm_pure] at hr
    · simp [Spec.destroyVal, hx] at hr
  · exact absurd rfl hu

/-! ### Constructors and destructor -/

alsoAny
theorem defaultCtor_run (hΓ : EnvWF Γ) {vars g} (h : R Γ none w vars g) (hx : vars x = none) :
    ∃ w', storageDefaultCtor Γ x w = (.ok (), w') ∧ R Γ none w' (upd vars x (some none)) g := by
  obtain ⟨w₁, h1, hR1⟩ := h.allocate hx
  obtain ⟨w₂, h2, hR2⟩ := hR1.initEmptyFlag hΓ (fun s hs => hs)
  refine ⟨w₂, ?_, hR2⟩
  unfold storageDefaultCtor
  apply noexceptIf_ok
  rw [bind_ok h1, bind_ok h2]
  exact hR2.assertHasEmp hΓ (x := x) (upd_same _ _ _)

alsoAny
theorem defaultCtor_sims (hΓ : EnvWF Γ) : Sims Γ (defaultCtor Γ x) (Spec.ctorDefault x) := by
  intro w sw h hu ht
  simp only [Spec.ctorDefault, sm_bind, Spec.fresh] at hu ⊢
  rcases hx : sw.vars x with _ | o <;> simp only [hx] at hu ⊢
  · exact defaultCtor_run hΓ h hx
  · exact absurd rfl hu

alsoAny
/-- After `init_empty_flag` in a fresh storage, run a construction; on a throw release the storage. -/
theorem ctorWith_sim (hΓ : EnvWF Γ) {smk : SM V G V} {mk : M V G V} {nt : Bool} (h : RW Γ none w sw)
    (hx : sw.vars x = none)
    (hmk : ∀ w₁, R Γ (some (x, Raw (Γ x).cfg)) w₁ (upd sw.vars x (some none)) sw.user →
      (smk sw).1 ≠ .undef → TraceOK Γ (smk sw).2.trace →
      ∃ w₂, mk w₁ = (lift (smk sw).1, w₂) ∧
        R Γ (some (x, Raw (Γ x).cfg)) w₂ (upd (smk sw).2.vars x (some none)) (smk sw).2.user)
    (hxs : (smk sw).1 ≠ .undef → (smk sw).2.vars x = none)
    (hnt : ∀ e, (smk sw).1 = .throw e → nt = false)
    (hu : ((smk >>= fun v => Spec.put x v) sw).1 ≠ .undef)
    (ht : TraceOK Γ ((smk >>= fun v => Spec.put x v) sw).2.trace) :
    ∃ w', (allocate x >>= fun _ => onThrow (initEmptyFlag (Γ x).cfg x >>= fun _ => constructWith Γ x nt mk) (release x)) w =
        (lift ((smk >>= fun v => Spec.put x v) sw).1, w') ∧
      RW Γ none w' ((smk >>= fun v => Spec.put x v) sw).2 := by
  obtain ⟨w₁, h1, hR1⟩ := h.allocate hx
  obtain ⟨w₂, h2, hR2⟩ := hR1.initEmptyFlag hΓ (fun s hs => hs)
  rw [bind_ok h1]
  have hx2 : upd sw.vars x (some none) x = some none := upd_same _ _ _
  simp only [sm_bind] at hu ht ⊢
  rcases hs : smk sw with ⟨v | e | _, sw'⟩ <;> simp only [hs] at hu ht ⊢ <;> simp only [hs] at hmk hxs hnt
  · have hst : (Γ x).cfg.Storable v := ht (x, v) (by simp [Spec.put])
    have ht' : TraceOK Γ sw'.trace := .of_mono (mono_put x v) ht
    obtain ⟨w₃, h3, hR3⟩ := constructWith_ok (nt := nt) (mk := mk) (v := v) hΓ hR2 hx2 hst (fun wa hwa =>
      hmk wa hwa (by simp) ht')
    refine ⟨w₃, ?_, ?_⟩
    · apply onThrow_ok
      rw [bind_ok h2, h3]
    · refine hR3.congr fun z => ?_
      simp only [Spec.put, upd]
      split <;> rfl
  · have := hnt e rfl
    subst this
    obtain ⟨w₃, h3, hR3⟩ := constructWith_throw (mk := mk) (e := e) hΓ hR2 hx2 (fun wa hwa =>
      hmk wa hwa (by simp) ht)
    obtain ⟨w₄, h4, hR4⟩ := hR3.releaseEmp (x := x) (upd_same _ _ _)
    refine ⟨w₄, ?_, ?_⟩
    · have : (initEmptyFlag (Γ x).cfg x >>= fun _ => constructWith Γ x false mk) w₁ = (.throw e, w₃) := by
        rw [bind_ok h2, h3]
      exact onThrow_throw this h4
    · refine hR4.congr fun z => ?_
      simp only [upd]
      split
      · rename_i hz; rw [hz, hxs (by simp)]
      · rfl
  · exact absurd rfl hu

/-- Constructor arguments do not depend on an optional that is just being constructed. -/
theorem argVal_upd (o : Ops V G) (a : Arg V G) (hx : sw.vars x = none) (hu : (Spec.argVal o a sw).1 ≠ .undef) :
    Spec.argVal o a { sw with vars := upd sw.vars x (some none) } =
      ((Spec.argVal o a sw).1,
        { (Spec.argVal o a sw).2 with vars := upd (Spec.argVal o a sw).2.vars x (some none) }) ∧
    (Spec.argVal o a sw).2.vars x = none := by
  cases a with
  | ext nt c =>
    simp only [Spec.argVal, Spec.user]
    rcases c sw.user with ⟨r | r, g'⟩ <;> exact ⟨rfl, hx⟩
  | copyOf y =>
    simp only [Spec.argVal, sm_bind, Spec.getVal] at hu ⊢
    rcases hy : sw.vars y with _ | (_ | v) <;> simp only [hy] at hu ⊢
    · exact absurd rfl hu
    · exact absurd rfl hu
    have hxy : y ≠ x := by rintro rfl; rw [hx] at hy; simp at hy
    rw [upd_other _ _ hxy]
    simp only [hy, Spec.user]
    rcases o.copyCtor v sw.user with ⟨r | r, g'⟩ <;> exact ⟨rfl, hx⟩
  | moveOf y =>
    simp only [Spec.argVal] at hu ⊢
    rcases hy : sw.vars y with _ | (_ | v) <;> simp only [hy] at hu ⊢
    · exact absurd rfl hu
    · exact absurd rfl hu
    have hxy : y ≠ x := by rintro rfl; rw [hx] at hy; simp at hy
    rw [upd_other _ _ hxy]
    simp only [hy]
    have hc : ∀ v', (fun z => if z = y then some (some v') else upd sw.vars x (some none) z) =
        upd (fun z => if z = y then some (some v') else sw.vars z) x (some none) := by
      intro v'
      funext z
      simp only [upd]
      by_cases h1 : z = y
      · subst h1; simp [hxy]
      · simp [h1]
    rcases hm : o.moveCtor v sw.user with ⟨r | r, v', g'⟩ <;> simp only [hm, hc] <;>
      exact ⟨trivial, by simp [hx, Ne.symm hxy]⟩

alsoAny
theorem inPlaceCtor_sims (hΓ : EnvWF Γ) {a : Arg V G} (ha : ArgLawful a) :
    Sims Γ (inPlaceCtor Γ x a) (Spec.ctorInPlace (Γ x).ops x a) := by
  intro w sw h hu ht
  simp only [Spec.ctorInPlace, sm_bind, Spec.fresh] at hu ht ⊢
  rcases hx : sw.vars x with _ | o <;> simp only [hx] at hu ht ⊢
  · unfold inPlaceCtor storageInPlaceCtor constructPayload
    refine ctorWith_sim hΓ h hx (smk := Spec.argVal (Γ x).ops a) ?_ ?_ ?_ hu ht
    · intro w₁ hw₁ hu1 ht1
      obtain ⟨he, _⟩ := argVal_upd (x := x) (Γ x).ops a hx hu1
      have := evalArg_sim (Γ x).ops a (sw := { sw with vars := upd sw.vars x (some none) }) hw₁
        (by rw [he]; exact hu1) (by rw [he]; exact ht1)
      rw [he] at this
      exact this
    · intro hu1
      exact (argVal_upd (x := x) (Γ x).ops a hx hu1).2
    · intro e he
      refine nothrowArg_spec (hΓ.ops x) (a := a) (by rintro nt c rfl; exact ha) (sw := sw) (e := e)
        (sw' := (Spec.argVal (Γ x).ops a sw).2) ?_
      rw [← he]
  · exact absurd rfl hu

alsoAny
theorem storageDtor_full {vars g v} (hΓ : EnvWF Γ) (h : R Γ none w vars g) (hx : vars x = some (some v)) :
    ∃ w', storageDtor Γ x w = (.ok (), w') ∧ R Γ none w' (upd vars x none) ((Γ x).ops.dtor v g) := by
  obtain ⟨w₁, h1, hR1⟩ := h.destroyPayload hx
  obtain ⟨w₂, h2, hR2⟩ := hR1.releaseRaw
  refine ⟨w₂, ?_, hR2.congr fun z => by simp only [upd]; split <;> rfl⟩
  unfold storageDtor
  apply noexceptIf_ok
  rw [bind_ok (h.hasValueFull hΓ hx)]
  simp only [if_true]
  rw [bind_ok h1, h2]

alsoAny
theorem storageDtor_emp {vars g} (hΓ : EnvWF Γ) (h : R Γ none w vars g) (hx : vars x = some none) :
    ∃ w', storageDtor Γ x w = (.ok (), w') ∧ R Γ none w' (upd vars x none) g := by
  obtain ⟨w₂, h2, hR2⟩ := h.releaseEmp hx
  refine ⟨w₂, ?_, hR2⟩
  unfold storageDtor
  apply noexceptIf_ok
  rw [bind_ok (h.hasValueEmp hΓ hx)]
  simp only [Bool.false_eq_true, if_false]
  exact h2

alsoAny
theorem dtor_sims (hΓ : EnvWF Γ) : Sims Γ (dtor Γ x) (Spec.dtor (Γ x).ops x) := by
  intro w sw h hu ht
  simp only [Spec.dtor, sm_bind, Spec.get] at hu ht ⊢
  rcases hx : sw.vars x with _ | (_ | v) <;> simp only [hx] at hu ht ⊢
  · exact absurd rfl hu
  · exact storageDtor_emp hΓ h hx
  · simp only [sm_bind, Spec.destroyVal, hx, Spec.remove]
    obtain ⟨w', hw', hR⟩ := storageDtor_full hΓ h hx
    refine ⟨w', hw', hR.congr fun z => ?_⟩
    simp only [upd]; split <;> rfl

alsoAny
theorem assertSame_run (hΓ : EnvWF Γ) {vars g o o'} (h : R Γ none w vars g) (hx : vars x = some o)
    (hy : vars y = some o') (ho : o.isSome = o'.isSome) : assertSame Γ x y w = (.ok (), w) := by
  unfold assertSame assertM
  split
  · rfl
  · show M.bind _ _ w = _
    unfold M.bind
    rw [bind_ok (h.hasValue hΓ hx), bind_ok (h.hasValue hΓ hy), ho]
    simp [pure_run, M.pure]

/-- Reading another optional does not change engagement of it. -/
theorem argVal_vars {o : Ops V G} {a : Arg V G} {z : Nat} {r sw'} (h : Spec.argVal o a sw = (r, sw')) :
    sw'.vars z = sw.vars z ∨ (∃ v v', sw.vars z = some (some v) ∧ sw'.vars z = some (some v') ∧ a = .moveOf z) := by
  cases a with
  | ext nt c =>
    simp only [Spec.argVal, Spec.user] at h
    rcases hc : c sw.user with ⟨r' | r', g'⟩ <;> simp only [hc, Prod.mk.injEq] at h <;> left <;> rw [← h.2]
  | copyOf y =>
    simp only [Spec.argVal, sm_bind, Spec.getVal] at h
    left
    rcases hy : sw.vars y with _ | (_ | v) <;> simp only [hy, Prod.mk.injEq] at h
    · rw [← h.2]
    · rw [← h.2]
    simp only [Spec.user] at h
    rcases hc : o.copyCtor v sw.user with ⟨r' | r', g'⟩ <;> simp only [hc, Prod.mk.injEq] at h <;> rw [← h.2]
  | moveOf y =>
    simp only [Spec.argVal] at h
    rcases hy : sw.vars y with _ | (_ | v) <;> simp only [hy, Prod.mk.injEq] at h
    · left; rw [← h.2]
    · left; rw [← h.2]
    by_cases hz : z = y
    · subst hz
      right
      rcases hc : o.moveCtor v sw.user with ⟨r' | r', v', g'⟩ <;> simp only [hc, Prod.mk.injEq] at h <;>
        exact ⟨v, v', hy, by rw [← h.2]; simp, rfl⟩
    · left
      rcases hc : o.moveCtor v sw.user with ⟨r' | r', v', g'⟩ <;> simp only [hc, Prod.mk.injEq] at h <;>
        rw [← h.2] <;> simp [hz]

alsoAny
/-- Copy and move constructor. -/
theorem copyOrMoveCtor_sim (hΓ : EnvWF Γ) {nt : Bool} {a : Arg V G} (ha : a = .copyOf y ∨ a = .moveOf y)
    (hnt : nt = true → nothrowArg (Γ x).ops a = true) (h : RW Γ none w sw) (hx : sw.vars x = none)
    {o} (hy : sw.vars y = some o) {sm : SM V G Unit}
    (hsm : sm sw = match o with
      | none => Spec.setEmpty x sw
      | some _ => (Spec.argVal (Γ x).ops a >>= fun v => Spec.put x v) sw)
    (hu : (sm sw).1 ≠ .undef) (ht : TraceOK Γ (sm sw).2.trace) :
    ∃ w', copyOrMoveCtor Γ nt a x y w = (lift (sm sw).1, w') ∧ RW Γ none w' (sm sw).2 := by
  have hyx : y ≠ x := by rintro rfl; rw [hx] at hy; simp at hy
  obtain ⟨w₁, h1, hR1⟩ := defaultCtor_run hΓ h hx
  rw [hsm] at hu ht ⊢
  have hy1 : upd sw.vars x (some none) y = some o := by rw [upd_other _ _ hyx, hy]
  have hx1 : upd sw.vars x (some none) x = some none := upd_same _ _ _
  unfold copyOrMoveCtor
  cases o with
  | none =>
    refine ⟨w₁, ?_, hR1⟩
    apply noexceptIf_ok
    rw [bind_ok h1]
    apply onThrow_ok
    rw [bind_ok (hR1.hasValueEmp hΓ hy1)]
    simp only [Bool.false_eq_true, if_false]
    rw [bind_ok (hR1.assertHasEmp hΓ hx1), assertSame_run hΓ hR1 hx1 hy1 rfl]
  | some v =>
    simp only [sm_bind] at hu ht ⊢
    rcases hs : Spec.argVal (Γ x).ops a sw with ⟨u | e | _, sw'⟩ <;> simp only [hs] at hu ht ⊢
    · have ht' : TraceOK Γ sw'.trace := .of_mono (mono_put x u) ht
      obtain ⟨hup, hxn⟩ := argVal_upd (x := x) (Γ x).ops a hx (by simp [hs])
      rw [hs] at hup hxn
      have haL : ArgLawful a := by rcases ha with rfl | rfl <;> trivial
      have hin : Spec.init (Γ x).ops x a { sw with vars := upd sw.vars x (some none) } =
          Spec.put x u { sw' with vars := upd sw'.vars x (some none) } := by
        simp only [Spec.init, sm_bind, hup]
      obtain ⟨w₂, h2, hR2⟩ := constructPayload_sim hΓ (x := x) haL
        (sw := { sw with vars := upd sw.vars x (some none) }) hR1 hx1
        (by rw [hin]; simp [Spec.put]) (by rw [hin]; exact ht)
      rw [hin] at h2 hR2
      have hx2 : (Spec.put x u { sw' with vars := upd sw'.vars x (some none) }).2.vars x = some (some u) := by
        simp [Spec.put]
      have hy2 : ∃ v', (Spec.put x u { sw' with vars := upd sw'.vars x (some none) }).2.vars y = some (some v') := by
        simp only [Spec.put, hyx, if_false, upd_other _ _ hyx]
        rcases argVal_vars (z := y) hs with hh | ⟨v1, v2, _, hh, _⟩
        · exact ⟨v, by rw [hh, hy]⟩
        · exact ⟨v2, hh⟩
      obtain ⟨v', hy2⟩ := hy2
      refine ⟨w₂, ?_, ?_⟩
      · apply noexceptIf_ok
        rw [bind_ok h1]
        apply onThrow_ok
        rw [bind_ok (hR1.hasValueFull hΓ hy1)]
        simp only [if_true]
        rw [bind_ok h2, assertSame_run hΓ hR2 hx2 hy2 rfl]
      · refine hR2.congr fun z => ?_
        simp only [Spec.put, upd]; split <;> rfl
    · obtain ⟨hup, hxn⟩ := argVal_upd (x := x) (Γ x).ops a hx (by simp [hs])
      rw [hs] at hup hxn
      have haL : ArgLawful a := by rcases ha with rfl | rfl <;> trivial
      have hin : Spec.init (Γ x).ops x a { sw with vars := upd sw.vars x (some none) } =
          (.throw e, { sw' with vars := upd sw'.vars x (some none) }) := by
        simp only [Spec.init, sm_bind, hup]
      obtain ⟨w₂, h2, hR2⟩ := constructPayload_sim hΓ (x := x) haL
        (sw := { sw with vars := upd sw.vars x (some none) }) hR1 hx1
        (by rw [hin]; simp) (by rw [hin]; exact ht)
      rw [hin] at h2 hR2
      have hx2 : upd sw'.vars x (some none) x = some none := upd_same _ _ _
      obtain ⟨w₃, h3, hR3⟩ := storageDtor_emp hΓ hR2 hx2
      have hntf : nt = false := by
        cases nt
        · rfl
        · have := nothrowArg_spec (hΓ.ops x) (a := a) (by rintro nt c rfl; exact haL) hs
          rw [hnt rfl] at this
          simp at this
      subst hntf
      refine ⟨w₃, ?_, ?_⟩
      · apply noexceptIf_throw_false
        rw [bind_ok h1]
        refine onThrow_throw ?_ h3
        rw [bind_ok (hR1.hasValueFull hΓ hy1)]
        simp only [if_true]
        rw [bind_throw h2]
      · refine hR3.congr fun z => ?_
        simp only [upd]
        split
        · rename_i hz; rw [hz]; exact hxn
        · rfl
    · exact absurd rfl hu

alsoAny
theorem copyCtor_sims (hΓ : EnvWF Γ) : Sims Γ (copyCtor Γ x y) (Spec.ctorCopy (Γ x).ops x y) := by
  intro w sw h hu ht
  have hx : sw.vars x = none := by
    simp only [Spec.ctorCopy, sm_bind, Spec.fresh] at hu
    rcases hx : sw.vars x with _ | o <;> simp only [hx] at hu ⊢
    exact absurd rfl hu
  have hy : ∃ o, sw.vars y = some o := by
    simp only [Spec.ctorCopy, sm_bind, Spec.fresh, hx, Spec.get] at hu
    rcases hy : sw.vars y with _ | o <;> simp only [hy] at hu ⊢
    · exact absurd rfl hu
    · exact ⟨o, rfl⟩
  obtain ⟨o, hy⟩ := hy
  refine copyOrMoveCtor_sim hΓ (Or.inl rfl) (by simp) h hx hy ?_ hu ht
  simp only [Spec.ctorCopy, sm_bind, Spec.fresh, hx, Spec.get, hy]
  cases o <;> rfl

alsoAny
theorem moveCtor_sims (hΓ : EnvWF Γ) : Sims Γ (moveCtor Γ x y) (Spec.ctorMove (Γ x).ops x y) := by
  intro w sw h hu ht
  have hx : sw.vars x = none := by
    simp only [Spec.ctorMove, sm_bind, Spec.fresh] at hu
    rcases hx : sw.vars x with _ | o <;> simp only [hx] at hu ⊢
    exact absurd rfl hu
  have hy : ∃ o, sw.vars y = some o := by
    simp only [Spec.ctorMove, sm_bind, Spec.fresh, hx, Spec.get] at hu
    rcases hy : sw.vars y with _ | o <;> simp only [hy] at hu ⊢
    · exact absurd rfl hu
    · exact ⟨o, rfl⟩
  obtain ⟨o, hy⟩ := hy
  refine copyOrMoveCtor_sim hΓ (Or.inr rfl) (by simp [nothrowArg]) h hx hy ?_ hu ht
  simp only [Spec.ctorMove, sm_bind, Spec.fresh, hx, Spec.get, hy]
  cases o <;> rfl

/-! ### Assignment between optionals -/

theorem payloadAssign_engaged {o : Ops V G} {a : AArg V G} {z : Nat} {v} (hz : sw.vars z = some (some v)) :
    ∃ v', (Spec.payloadAssign o x a sw).2.vars z = some (some v') := by
  have hput : ∀ (s : SWorld V G) k u, (∃ v', s.vars z = some (some v')) →
      ∃ v', (Spec.put k u s).2.vars z = some (some v') := by
    rintro s k u ⟨v', hv'⟩
    simp only [Spec.put]
    by_cases hk : z = k
    · exact ⟨u, by simp [hk]⟩
    · exact ⟨v', by simp [hk, hv']⟩
  cases a with
  | ext f nt c =>
    simp only [Spec.payloadAssign, sm_bind, Spec.getVal]
    rcases hx : sw.vars x with _ | (_ | u) <;> simp only [] <;> try exact ⟨v, hz⟩
    simp only [Spec.user, check_run]
    exact hput { sw with user := _ } _ _ ⟨v, hz⟩
  | copyOf y =>
    simp only [Spec.payloadAssign, sm_bind, Spec.getVal]
    rcases hx : sw.vars x with _ | (_ | u) <;> simp only [] <;> try exact ⟨v, hz⟩
    rcases hy : sw.vars y with _ | (_ | u') <;> simp only [] <;> try exact ⟨v, hz⟩
    simp only [Spec.user, check_run]
    exact hput { sw with user := _ } _ _ ⟨v, hz⟩
  | moveOf y =>
    simp only [Spec.payloadAssign, sm_bind, Spec.getVal]
    rcases hx : sw.vars x with _ | (_ | u) <;> simp only [] <;> try exact ⟨v, hz⟩
    rcases hy : sw.vars y with _ | (_ | u') <;> simp only [] <;> try exact ⟨v, hz⟩
    by_cases hxy : x = y
    · simp only [if_pos hxy, sm_bind, Spec.user, check_run]
      exact hput { sw with user := _ } _ _ ⟨v, hz⟩
    · simp only [if_neg hxy, sm_bind, Spec.user, check_run]
      exact hput _ _ _ (hput { sw with user := _ } _ _ ⟨v, hz⟩)

theorem init_engaged {o : Ops V G} {a : Arg V G} {z : Nat} {v} (hz : sw.vars z = some (some v)) :
    ∃ v', (Spec.init o x a sw).2.vars z = some (some v') := by
  simp only [Spec.init, sm_bind]
  rcases hs : Spec.argVal o a sw with ⟨u | e | _, sw'⟩ <;> simp only [] <;>
    have hk := argVal_vars (z := z) hs
  · simp only [Spec.put]
    by_cases hzx : z = x
    · exact ⟨u, by simp [hzx]⟩
    · simp only [hzx, if_false]
      rcases hk with hk | ⟨_, v', _, hk, _⟩
      · exact ⟨v, by rw [hk, hz]⟩
      · exact ⟨v', hk⟩
  · rcases hk with hk | ⟨_, v', _, hk, _⟩
    · exact ⟨v, by rw [hk, hz]⟩
    · exact ⟨v', hk⟩
  · rcases hk with hk | ⟨_, v', _, hk, _⟩
    · exact ⟨v, by rw [hk, hz]⟩
    · exact ⟨v', hk⟩

/-- `o = std::move(y)` on payloads declared nothrow does not throw. -/
theorem payloadAssign_move_nothrow {o : Ops V G} (ho : o.Lawful) {e}
    (h : (Spec.payloadAssign o x (.moveOf y) sw).1 = .throw e) : o.nothrowMoveAssign = false := by
  cases hn : o.nothrowMoveAssign
  · rfl
  · exfalso
    simp only [Spec.payloadAssign, sm_bind, Spec.getVal] at h
    rcases hx : sw.vars x with _ | (_ | u) <;> simp only [hx] at h <;> try exact absurd h (by simp)
    rcases hy : sw.vars y with _ | (_ | u') <;> simp only [hy] at h <;> try exact absurd h (by simp)
    by_cases hxy : x = y
    · simp only [if_pos hxy, sm_bind, Spec.user, check_run, Spec.put] at h
      rw [ho.selfMoveAssign hn] at h
      simp at h
    · simp only [if_neg hxy, sm_bind, Spec.user, check_run, Spec.put] at h
      rw [ho.moveAssign hn] at h
      simp at h

alsoAny
theorem noexceptIf_lift {m : M V G α} {r : SRes α} {w' : World V G} {nt : Bool} (hm : m w = (lift r, w'))
    (hnt : ∀ e, r = .throw e → nt = false) : noexceptIf nt m w = (lift r, w') := by
  cases r with
  | ok a => exact noexceptIf_ok hm
  | throw e => rw [hnt e rfl]; exact noexceptIf_throw_false hm
  | undef => exact noexceptIf_abort hm

alsoAny
/-- Copy and move assignment operators. -/
theorem copyOrMoveAssign_sim (hΓ : EnvWF Γ) {nt : Bool} {a : AArg V G} (ha : AArgLawful a) (h : RW Γ none w sw)
    {ox oy} (hx : sw.vars x = some ox) (hy : sw.vars y = some oy) {sm : SM V G Unit}
    (hsm : sm sw = match oy with
      | none => Spec.reset (Γ x).ops x sw
      | some _ => Spec.assignVal (Γ x).ops x a sw)
    (hnt : ∀ e, (sm sw).1 = .throw e → nt = false)
    (hu : (sm sw).1 ≠ .undef) (ht : TraceOK Γ (sm sw).2.trace) :
    ∃ w', copyOrMoveAssign Γ nt a x y w = (lift (sm sw).1, w') ∧ RW Γ none w' (sm sw).2 := by
  suffices hs : ∃ w', (do
      if ← hasValue Γ y then
        assignValue Γ x a
      else
        reset Γ x
      assertSame Γ x y : M V G Unit) w = (lift (sm sw).1, w') ∧ RW Γ none w' (sm sw).2 by
    obtain ⟨w', hw', hR⟩ := hs
    exact ⟨w', noexceptIf_lift hw' hnt, hR⟩
  clear hnt
  rw [hsm] at hu ht ⊢
  cases oy with
  | none =>
    obtain ⟨w', hw', hR⟩ := reset_sims hΓ w sw h hu ht
    refine ⟨w', ?_, hR⟩
    rw [bind_ok (h.hasValueEmp hΓ hy)]
    simp only [Bool.false_eq_true, if_false]
    have hr : ∃ sw', Spec.reset (Γ x).ops x sw = (.ok (), sw') ∧ sw'.vars x = some none ∧ sw'.vars y = some none := by
      simp only [Spec.reset, sm_bind, Spec.get, hx]
      cases ox with
      | none => exact ⟨sw, rfl, hx, hy⟩
      | some v =>
        simp only [Spec.destroyVal, hx]
        exact ⟨_, rfl, by simp, by simp only [hy]; split <;> rfl⟩
    obtain ⟨sw', hr, hx', hy'⟩ := hr
    rw [hr] at hw' hR ⊢
    rw [bind_ok hw']
    exact assertSame_run hΓ hR hx' hy' rfl
  | some v =>
    obtain ⟨w', hw', hR⟩ := assignVal_sims hΓ ha w sw h hu ht
    refine ⟨w', ?_, hR⟩
    rw [bind_ok (h.hasValueFull hΓ hy)]
    simp only [if_true]
    rcases hr : Spec.assignVal (Γ x).ops x a sw with ⟨u | e | _, sw'⟩ <;> simp only [hr] at hw' hR hu ⊢
    · rw [bind_ok hw']
      have hk : (∃ v', sw'.vars x = some (some v')) ∧ ∃ v', sw'.vars y = some (some v') := by
        simp only [Spec.assignVal, sm_bind, Spec.get, hx] at hr
        cases ox with
        | none =>
          have h1 := init_ok_engaged hr
          have h2 := init_engaged (o := (Γ x).ops) (x := x) (a := a.toArg) hy
          simp only [hr] at h2
          exact ⟨h1, h2⟩
        | some vx =>
          have h1 := payloadAssign_engaged (o := (Γ x).ops) (x := x) (a := a) hx
          have h2 := payloadAssign_engaged (o := (Γ x).ops) (x := x) (a := a) hy
          simp only [hr] at h1 h2
          exact ⟨h1, h2⟩
      obtain ⟨⟨v1, h1⟩, ⟨v2, h2⟩⟩ := hk
      exact assertSame_run hΓ hR h1 h2 rfl
    · rw [bind_throw hw']; rfl
    · exact absurd rfl hu

alsoAny
theorem copyAssign_sims (hΓ : EnvWF Γ) : Sims Γ (copyAssign Γ x y) (Spec.assignCopy (Γ x).ops x y) := by
  intro w sw h hu ht
  have hxy : (∃ ox, sw.vars x = some ox) ∧ ∃ oy, sw.vars y = some oy := by
    simp only [Spec.assignCopy, sm_bind, Spec.get] at hu
    rcases hx : sw.vars x with _ | ox <;> simp only [hx] at hu
    · exact absurd rfl hu
    rcases hy : sw.vars y with _ | oy <;> simp only [hy] at hu
    · exact absurd rfl hu
    exact ⟨⟨_, rfl⟩, ⟨_, rfl⟩⟩
  obtain ⟨⟨ox, hx⟩, ⟨oy, hy⟩⟩ := hxy
  refine copyOrMoveAssign_sim hΓ (a := .copyOf y) trivial h hx hy ?_ (by simp) hu ht
  simp only [Spec.assignCopy, Spec.assignVal, Spec.reset, sm_bind, Spec.get, hx, hy]
  cases ox <;> cases oy <;> rfl

alsoAny
theorem moveAssign_sims (hΓ : EnvWF Γ) : Sims Γ (moveAssign Γ x y) (Spec.assignMove (Γ x).ops x y) := by
  intro w sw h hu ht
  have hxy : (∃ ox, sw.vars x = some ox) ∧ ∃ oy, sw.vars y = some oy := by
    simp only [Spec.assignMove, sm_bind, Spec.get] at hu
    rcases hx : sw.vars x with _ | ox <;> simp only [hx] at hu
    · exact absurd rfl hu
    rcases hy : sw.vars y with _ | oy <;> simp only [hy] at hu
    · exact absurd rfl hu
    exact ⟨⟨_, rfl⟩, ⟨_, rfl⟩⟩
  obtain ⟨⟨ox, hx⟩, ⟨oy, hy⟩⟩ := hxy
  refine copyOrMoveAssign_sim hΓ (a := .moveOf y) trivial h hx hy ?_ ?_ hu ht
  · simp only [Spec.assignMove, Spec.assignVal, Spec.reset, sm_bind, Spec.get, hx, hy]
    cases ox <;> cases oy <;> rfl
  · intro e he
    simp only [Spec.assignMove, sm_bind, Spec.get, hx, hy] at he
    rw [Bool.and_eq_false_iff]
    cases ox <;> cases oy
    · simp [sm_pure] at he
    · right
      simp only [Spec.init, sm_bind] at he
      rcases hs : Spec.argVal (Γ x).ops (.moveOf y) sw with ⟨u | e' | _, sw'⟩ <;> simp only [hs] at he
      · simp [Spec.put] at he
      · exact nothrowArg_spec (hΓ.ops x) (a := .moveOf y) (by simp) hs
      · simp at he
    · simp [Spec.destroyVal, hx] at he
    · left
      exact payloadAssign_move_nothrow (hΓ.ops x) he

/-! ### swap -/

theorem destroyVal_reset {o : Ops V G} {v} (hx : sw.vars x = some (some v)) :
    Spec.destroyVal o x sw = Spec.reset o x sw := by
  simp only [Spec.reset, sm_bind, Spec.get, hx]

alsoAny
/-- Construct one side from the other, then reset the other. -/
theorem swapHalf (hΓ : EnvWF Γ) {v} (hx : sw.vars x = some none) (hy : sw.vars y = some (some v))
    (h : RW Γ none w sw) {o : Ops V G} (hox : o = (Γ x).ops) (hoy : o = (Γ y).ops)
    (hu : ((Spec.init o x (.moveOf y) >>= fun _ => Spec.destroyVal o y) sw).1 ≠ .undef)
    (ht : TraceOK Γ ((Spec.init o x (.moveOf y) >>= fun _ => Spec.destroyVal o y) sw).2.trace) :
    ∃ w', (constructPayload Γ x (.moveOf y) >>= fun _ => reset Γ y) w =
        (lift ((Spec.init o x (.moveOf y) >>= fun _ => Spec.destroyVal o y) sw).1, w') ∧
      RW Γ none w' ((Spec.init o x (.moveOf y) >>= fun _ => Spec.destroyVal o y) sw).2 := by
  simp only [sm_bind] at hu ht ⊢
  rcases hi : Spec.init o x (.moveOf y) sw with ⟨u | e | _, sw'⟩ <;> simp only [hi] at hu ht ⊢
  · have ht' : TraceOK Γ sw'.trace := .of_mono (mono_destroyVal o y) ht
    obtain ⟨w₁, h1, hR1⟩ := constructPayload_sim hΓ (a := .moveOf y) trivial h hx (by rw [← hox, hi]; simp)
      (by rw [← hox, hi]; exact ht')
    rw [← hox, hi] at h1 hR1
    rw [bind_ok h1]
    have he := init_engaged (o := o) (x := x) (a := .moveOf y) hy
    rw [hi] at he
    obtain ⟨v', hv'⟩ := he
    rw [destroyVal_reset hv', hoy]
    rw [destroyVal_reset hv', hoy] at hu
    exact reset_sim hΓ hR1 hu
  · obtain ⟨w₁, h1, hR1⟩ := constructPayload_sim hΓ (a := .moveOf y) trivial h hx (by rw [← hox, hi]; simp)
      (by rw [← hox, hi]; exact ht)
    rw [← hox, hi] at h1 hR1
    rw [bind_throw h1]
    exact ⟨w₁, rfl, hR1⟩
  · exact absurd rfl hu

theorem init_move_nothrow {o : Ops V G} (ho : o.Lawful) {e sw'}
    (h : Spec.init o x (.moveOf y) sw = (.throw e, sw')) : o.nothrowMoveCtor = false := by
  simp only [Spec.init, sm_bind] at h
  rcases hs : Spec.argVal o (.moveOf y) sw with ⟨u | e' | _, sw''⟩ <;> simp only [hs] at h
  · simp [Spec.put] at h
  · exact nothrowArg_spec ho (a := .moveOf y) (by simp) hs
  · simp at h

alsoAny
theorem swap_sims (hΓ : EnvWF Γ) (hxy : (Γ x).ops = (Γ y).ops) :
    Sims Γ (swap Γ x y) (Spec.swap (Γ x).ops x y) := by
  intro w sw h hu ht
  have hex : (∃ ox, sw.vars x = some ox) ∧ ∃ oy, sw.vars y = some oy := by
    simp only [Spec.swap, sm_bind, Spec.get] at hu
    rcases hx : sw.vars x with _ | ox <;> simp only [hx] at hu
    · exact absurd rfl hu
    rcases hy : sw.vars y with _ | oy <;> simp only [hy] at hu
    · exact absurd rfl hu
    exact ⟨⟨_, rfl⟩, ⟨_, rfl⟩⟩
  obtain ⟨⟨ox, hx⟩, ⟨oy, hy⟩⟩ := hex
  have hnt : ∀ e, (Spec.swap (Γ x).ops x y sw).1 = .throw e →
      ((Γ x).ops.nothrowMoveCtor && (Γ x).ops.nothrowSwap) = false := by
    intro e he
    rw [Bool.and_eq_false_iff]
    simp only [Spec.swap, sm_bind, Spec.get, hx, hy] at he
    cases ox with
    | none =>
      cases oy with
      | none => simp [sm_pure] at he
      | some b =>
        left
        simp only [sm_bind] at he
        rcases hi : Spec.init (Γ x).ops x (.moveOf y) sw with ⟨u | e' | _, sw'⟩ <;> simp only [hi] at he
        · simp only [Spec.destroyVal] at he; split at he <;> simp at he
        · exact init_move_nothrow (hΓ.ops x) hi
        · simp at he
    | some a =>
      cases oy with
      | none =>
        left
        simp only [sm_bind] at he
        rcases hi : Spec.init (Γ x).ops y (.moveOf x) sw with ⟨u | e' | _, sw'⟩ <;> simp only [hi] at he
        · simp only [Spec.destroyVal] at he; split at he <;> simp at he
        · exact init_move_nothrow (hΓ.ops x) hi
        · simp at he
      | some b =>
        right
        cases hn : (Γ x).ops.nothrowSwap
        · rfl
        · exfalso
          by_cases hq : x = y
          · simp only [if_pos hq, sm_bind, Spec.user, Spec.put, check_run] at he
            rw [(hΓ.ops x).selfSwap hn] at he
            simp at he
          · simp only [if_neg hq, sm_bind, Spec.user, Spec.put, check_run] at he
            rw [(hΓ.ops x).swap hn] at he
            simp at he
  unfold swap
  suffices hs : ∃ w', _ ∧ RW Γ none w' (Spec.swap (Γ x).ops x y sw).2 by
    obtain ⟨w', hw', hR⟩ := hs
    exact ⟨w', noexceptIf_lift hw' hnt, hR⟩
  clear hnt
  rw [bind_ok (h.hasValue hΓ hx), bind_ok (h.hasValue hΓ hy)]
  simp only [Spec.swap, sm_bind, Spec.get, hx, hy] at hu ht ⊢
  cases ox with
  | none =>
    cases oy with
    | none => exact ⟨w, rfl, h⟩
    | some b => exact swapHalf hΓ hx hy h rfl hxy hu ht
  | some a =>
    cases oy with
    | none => exact swapHalf hΓ hy hx h hxy rfl hu ht
    | some b =>
      simp only [Option.isSome_some, BEq.rfl, if_true]
      rw [bind_ok (h.getPayload hx), bind_ok (h.getPayload hy)]
      by_cases hq : x = y
      · simp only [if_pos hq, sm_bind, Spec.user, Spec.put, check_run] at hu ht ⊢
        rcases hc : (Γ x).ops.selfSwap a sw.user with ⟨e, v', g'⟩
        simp only [hc] at ht ⊢
        have := inplace1 (f := fun g => ((((Γ x).ops.selfSwap a g).1, ((Γ x).ops.selfSwap a g).2.1),
          ((Γ x).ops.selfSwap a g).2.2)) h hx (by rw [hc]; exact ht (x, v') (by simp))
        simp only [hc] at this
        obtain ⟨w', hw', hR⟩ := this
        refine ⟨w', ?_, hR⟩
        cases e <;> exact hw'
      · simp only [if_neg hq, sm_bind, Spec.user, Spec.put, check_run] at hu ht ⊢
        rcases hc : (Γ x).ops.swap a b sw.user with ⟨e, v', s', g'⟩
        simp only [hc] at ht ⊢
        have := inplace2 (f := fun g => ((((Γ x).ops.swap a b g).1, ((Γ x).ops.swap a b g).2.1,
          ((Γ x).ops.swap a b g).2.2.1), ((Γ x).ops.swap a b g).2.2.2)) h hx hy hq
          (by rw [hc]; exact ht (x, v') (by simp)) (by rw [hc]; exact ht (y, s') (by simp))
        simp only [hc] at this
        obtain ⟨w', hw', hR⟩ := this
        refine ⟨w', ?_, hR⟩
        cases e <;> exact hw'

/-! ### Monadic operations -/

alsoAny
theorem materialize_sims (hΓ : EnvWF Γ) (r : Option V) (h : RW Γ none w sw) (hx : sw.vars x = none)
    (ht : ∀ u, r = some u → (Γ x).cfg.Storable u) (htr : TraceOK Γ sw.trace) :
    ∃ w', materialize Γ x r w = (.ok (), w') ∧ R Γ none w' (upd sw.vars x (some r)) sw.user := by
  cases r with
  | none => exact defaultCtor_run hΓ h hx
  | some u =>
    have hl : ArgLawful (.ext true (fun g => (.ok u, g)) : Arg V G) := fun _ g => ⟨u, rfl⟩
    have he : Spec.ctorInPlace (Γ x).ops x (.ext true (fun g => (.ok u, g))) sw = Spec.put x u sw := by
      simp only [Spec.ctorInPlace, sm_bind, Spec.fresh, hx, Spec.argVal, Spec.user]
    have := inPlaceCtor_sims hΓ hl (x := x) w sw h (by rw [he]; simp [Spec.put]) (by
      rw [he]
      intro p hp
      simp only [Spec.put, List.mem_append, List.mem_singleton] at hp
      rcases hp with hp | rfl
      · exact htr p hp
      · exact ht u rfl)
    rw [he] at this
    obtain ⟨w', hw', hR⟩ := this
    exact ⟨w', hw', hR⟩

alsoAny
/-- Calling a user function on the payload. -/
theorem invoke_run {H : Hole V} {vars : Nat → Option (Option V)} {g : G} {v : V} (h : R Γ H w vars g)
    (hx : vars x = some (some v)) (f : V → G → Except Exn α × V × G)
    (hst : (Γ x).cfg.Storable (f v g).2.1) :
    ∃ w', (do
        let v ← getPayload x
        let (r, v') ← userPure (fun g => let (r, v', g') := f v g; ((r, v'), g'))
        setPayload (Γ x).cfg x v'
        match r with
        | .ok a => pure a
        | .error e => throwE e : M V G α) w =
      (match (f v g).1 with | .ok a => .ok a | .error e => .throw e, w') ∧
      R Γ H w' (upd vars x (some (some (f v g).2.1))) (f v g).2.2 := by
  rw [bind_ok (h.getPayload hx), bind_ok (userPure_run _ h.user)]
  obtain ⟨w', hw', hR⟩ := (h.user_upd (f v g).2.2).setPayload hx hst
  refine ⟨w', ?_, hR⟩
  dsimp only
  rw [bind_ok hw']
  cases (f v g).1 <;> rfl

alsoAny
theorem invokeOn_run (hΓ : EnvWF Γ) {vars : Nat → Option (Option V)} {g : G} {v : V} (h : R Γ none w vars g)
    (hx : vars x = some (some v)) (f : V → G → Except Exn α × V × G)
    (hst : (Γ x).cfg.Storable (f v g).2.1) :
    ∃ w', invokeOn Γ x f w = (match (f v g).1 with | .ok a => .ok a | .error e => .throw e, w') ∧
      R Γ none w' (upd vars x (some (some (f v g).2.1))) (f v g).2.2 := by
  have := invoke_run h hx f hst
  rw [bind_ok (h.getPayload hx)] at this
  unfold invokeOn
  rw [bind_ok (deref_run hΓ h hx)]
  exact this

alsoAny
theorem andThen_sims (hΓ : EnvWF Γ) (f : V → G → Except Exn (Option V) × V × G) :
    Sims Γ (andThen Γ x y f) (Spec.andThen x y f) := by
  intro w sw h hu ht
  unfold andThen
  simp only [Spec.andThen, sm_bind, Spec.fresh, Spec.get] at hu ht ⊢
  rcases hy : sw.vars y with _ | oy <;> simp only [hy] at hu ht ⊢
  rotate_left
  · exact absurd rfl hu
  rcases hx : sw.vars x with _ | (_ | v) <;> simp only [hx] at hu ht ⊢
  · exact absurd rfl hu
  · rw [bind_ok (h.hasValueEmp hΓ hx)]
    exact defaultCtor_run hΓ h hy
  · rw [bind_ok (h.hasValueFull hΓ hx)]
    simp only [if_true]
    simp only [sm_bind, Spec.user, Spec.put] at hu ht ⊢
    have hyx : y ≠ x := by rintro rfl; rw [hx] at hy; simp at hy
    rcases hf : f v sw.user with ⟨r, v', g'⟩
    simp only [hf] at hu ht ⊢
    have hst : (Γ x).cfg.Storable v' := by
      rcases r with e | (_ | u) <;> exact ht (x, v') (by simp [Spec.throw, Spec.setEmpty, Spec.put])
    obtain ⟨w₁, h1, hR1⟩ := invokeOn_run hΓ h hx f (by rw [hf]; exact hst)
    simp only [hf] at h1 hR1
    have hy1 : upd sw.vars x (some (some v')) y = none := by rw [upd_other _ _ hyx, hy]
    have hv : upd sw.vars x (some (some v')) = fun z => if z = x then some (some v') else sw.vars z := rfl
    cases r with
    | error e => exact ⟨w₁, by rw [bind_throw h1]; rfl, hR1⟩
    | ok r =>
      rw [bind_ok h1]
      cases r with
      | none =>
        obtain ⟨w₂, h2, hR2⟩ := defaultCtor_run hΓ hR1 hy1
        exact ⟨w₂, h2, hR2⟩
      | some u =>
        obtain ⟨w₂, h2, hR2⟩ := materialize_sims hΓ (some u) (x := y)
          (sw := { vars := upd sw.vars x (some (some v')), user := g', trace := sw.trace ++ [(x, v')] }) hR1 hy1
          (by rintro _ ⟨⟩; exact ht (y, u) (by simp [Spec.put])) (.of_mono (mono_put y u) ht)
        exact ⟨w₂, h2, hR2⟩

alsoAny
/-- `transform` simulates its specification provided the call does not throw, or the result type is not nothrow
move constructible. (Otherwise the code terminates, see `Props/Monadic.lean`.) -/
theorem transform_sims (hΓ : EnvWF Γ) (nt : Bool) (f : V → G → Except Exn V × V × G) (h : RW Γ none w sw)
    (hu : (Spec.transform x y f sw).1 ≠ .undef) (ht : TraceOK Γ (Spec.transform x y f sw).2.trace)
    (hsafe : nt = true → ∀ e, (Spec.transform x y f sw).1 ≠ .throw e) :
    ∃ w', transform Γ nt x y f w = (lift (Spec.transform x y f sw).1, w') ∧ RW Γ none w' (Spec.transform x y f sw).2 := by
  unfold transform
  simp only [Spec.transform, sm_bind, Spec.fresh, Spec.get] at hu ht hsafe ⊢
  rcases hy : sw.vars y with _ | oy <;> simp only [hy] at hu ht hsafe ⊢
  rotate_left
  · exact absurd rfl hu
  rcases hx : sw.vars x with _ | (_ | v) <;> simp only [hx] at hu ht hsafe ⊢
  · exact absurd rfl hu
  · rw [bind_ok (h.hasValueEmp hΓ hx)]
    exact defaultCtor_run hΓ h hy
  · rw [bind_ok (h.hasValueFull hΓ hx)]
    simp only [if_true]
    rw [bind_ok (h.assertHasFull hΓ hx)]
    unfold storageFunctionCtor constructPayloadFromFunction
    have hyx : y ≠ x := by rintro rfl; rw [hx] at hy; simp at hy
    -- the specification as `smk >>= put`
    let smk : SM V G V := fun sw' =>
      (match (f v sw'.user).1 with | .ok u => .ok u | .error e => .throw e,
        { vars := fun z => if z = x then some (some (f v sw'.user).2.1) else sw'.vars z,
          user := (f v sw'.user).2.2, trace := sw'.trace ++ [(x, (f v sw'.user).2.1)] })
    have hspec : ((Spec.user (fun g => let (r, v', g') := f v g; (.ok (r, v'), g')) : SM V G (Except Exn V × V)) >>=
        fun (p : Except Exn V × V) => Spec.put x p.2 >>= fun _ =>
          match p.1 with | .error e => Spec.throw e | .ok u => Spec.put y u) sw =
        (smk >>= fun u => Spec.put y u) sw := by
      rw [sm_bind smk]
      simp only [sm_bind, Spec.user, Spec.put, smk]
      rcases hf : f v sw.user with ⟨r | r, v', g'⟩ <;> rfl
    have hu' : ((smk >>= fun u => Spec.put y u) sw).1 ≠ .undef := by rw [← hspec]; exact hu
    have ht' : TraceOK Γ ((smk >>= fun u => Spec.put y u) sw).2.trace := by rw [← hspec]; exact ht
    have key := ctorWith_sim hΓ (x := y) (smk := smk) (nt := nt) h hy (mk := do
      let v ← getPayload x
      let (r, v') ← userPure (fun g => let (r, v', g') := f v g; ((r, v'), g'))
      setPayload (Γ x).cfg x v'
      match r with
      | .ok a => pure a
      | .error e => throwE e) ?_ ?_ ?_ hu' ht'
    · rw [← hspec] at key
      exact key
    · intro w₁ hw₁ _ ht1
      have hx1 : upd sw.vars y (some none) x = some (some v) := by rw [upd_other _ _ (Ne.symm hyx), hx]
      obtain ⟨w₂, h2, hR2⟩ := invoke_run hw₁ hx1 f (ht1 (x, (f v sw.user).2.1) (by simp [smk]))
      refine ⟨w₂, ?_, hR2.congr fun z => ?_⟩
      · rw [h2]
        simp only [smk]
        cases (f v sw.user).1 <;> rfl
      · simp only [smk, upd]
        by_cases h1 : z = y
        · subst h1; simp [hyx]
        · simp [h1]
    · intro _
      simp only [smk, if_neg hyx, hy]
    · intro e he
      cases hn : nt
      · rfl
      · exfalso
        refine hsafe hn e ?_
        have h1 : (((smk >>= fun u => Spec.put y u) : SM V G Unit) sw).1 = .throw e := by
          rw [sm_bind]
          rcases hsm : smk sw with ⟨u | e' | _, sw'⟩ <;> rw [hsm] at he <;> simp_all
        rw [← hspec] at h1
        exact h1

alsoAny
theorem orElse_sims (hΓ : EnvWF Γ) (hops : (Γ x).ops = (Γ y).ops) (rv : Bool) (f : G → Except Exn (Option V) × G) :
    Sims Γ (orElse Γ rv x y f) (Spec.orElse (Γ x).ops rv x y f) := by
  intro w sw h hu ht
  unfold orElse
  simp only [Spec.orElse, sm_bind, Spec.fresh, Spec.get] at hu ht ⊢
  rcases hy : sw.vars y with _ | oy <;> simp only [hy] at hu ht ⊢
  rotate_left
  · exact absurd rfl hu
  rcases hx : sw.vars x with _ | (_ | v) <;> simp only [hx] at hu ht ⊢
  · exact absurd rfl hu
  · rw [bind_ok (h.hasValueEmp hΓ hx)]
    simp only [Bool.false_eq_true, if_false]
    simp only [sm_bind] at hu ht ⊢
    rcases hf : (Spec.user f : SM V G (Option V)) sw with ⟨r | e | _, sw'⟩ <;> simp only [hf] at hu ht ⊢
    · have ht1 : TraceOK Γ sw'.trace := by
        cases r
        · exact .of_mono (mono_setEmpty y) ht
        · exact .of_mono (mono_put y _) ht
      obtain ⟨w₁, h1, hR1⟩ := userCall_sims f w sw h (by rw [hf]; simp) (by rw [hf]; exact ht1)
      rw [hf] at h1 hR1
      rw [bind_ok h1]
      have hy1 : sw'.vars y = none := by
        simp only [Spec.user] at hf
        rcases hc : f sw.user with ⟨r' | r', g'⟩ <;> simp only [hc, Prod.mk.injEq] at hf <;> rw [← hf.2] <;> exact hy
      obtain ⟨w₂, h2, hR2⟩ := materialize_sims hΓ r hR1 hy1 (by
        rintro u rfl; exact ht (y, u) (by simp [Spec.put])) ht1
      refine ⟨w₂, ?_, ?_⟩
      · cases r <;> exact h2
      · cases r <;> exact hR2
    · obtain ⟨w₁, h1, hR1⟩ := userCall_sims f w sw h (by rw [hf]; simp) (by rw [hf]; exact ht)
      rw [hf] at h1 hR1
      exact ⟨w₁, by rw [bind_throw h1]; rfl, hR1⟩
    · exact absurd rfl hu
  · rw [bind_ok (h.hasValueFull hΓ hx)]
    simp only [if_true]
    rw [hops] at hu ht ⊢
    cases rv
    · have he : Spec.ctorCopy (Γ y).ops y x sw =
          (Spec.argVal (Γ y).ops (.copyOf x) >>= fun v => Spec.put y v) sw := by
        simp only [Spec.ctorCopy, sm_bind, Spec.fresh, Spec.get, hy, hx]
      have := copyCtor_sims hΓ (x := y) (y := x) w sw h (by rw [he]; exact hu) (by rw [he]; exact ht)
      rw [he] at this
      exact this
    · have he : Spec.ctorMove (Γ y).ops y x sw =
          (Spec.argVal (Γ y).ops (.moveOf x) >>= fun v => Spec.put y v) sw := by
        simp only [Spec.ctorMove, sm_bind, Spec.fresh, Spec.get, hy, hx]
      have := moveCtor_sims hΓ (x := y) (y := x) w sw h (by rw [he]; exact hu) (by rw [he]; exact ht)
      rw [he] at this
      exact this

end
end Verif.Model
