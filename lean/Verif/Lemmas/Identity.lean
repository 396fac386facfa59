import Verif.Lemmas.Step
import Verif.Spec.Identity

/-! Helper lemmas: which calls keep the payload object of an optional. -/

namespace Verif.Model
open Verif.Spec (SM SWorld SRes Ends)

section
variable {V G : Type} {Γ : Env V G} {w : World V G}

/-- If `x` has the payload object `i` before, it has it afterwards. -/
def Keep (x i : Nat) (a b : World V G) : Prop := pidS (a.mem x) = some i → pidS (b.mem x) = some i

theorem Keep.of_other {x i : Nat} {a b : World V G} (h : b.mem x = a.mem x) : Keep x i a b := fun h' => by rw [h]; exact h'

theorem keep_other {x i z : Nat} (hz : z ≠ x) {w w' : World V G} {o : Option (Storage V)} (h : w'.mem = upd w.mem z o) : Keep x i w w' :=
  .of_other (by rw [h, upd_other _ _ (Ne.symm hz)])

theorem keep_destroyPayload {x i z : Nat} (hz : z ≠ x) (c : Config V) (d : V → G → G) : Steps (Keep x i) (destroyPayload c d z : M V G Unit) := by
  intro w
  unfold destroyPayload
  rcases hm : w.mem z with _ | s
  · rw [bind_abort (readStorage_none hm)]; exact id
  · rw [bind_ok (readStorage_ok hm)]
    rcases hp : s.payload with _ | p
    · exact id
    · exact keep_other hz (o := some _) rfl

theorem keep_closed (Γ : Env V G) (x i : Nat) :
    Closed Γ (· ≠ x) (· ≠ x) (Keep x i : World V G → World V G → Prop) (fun _ => True) where
  refl _ := id
  trans _ _ _ h1 h2 := h2 ∘ h1
  user _ _ := id
  sub _ _ := trivial
  setPayload z v _ := by
    intro w h
    exact ((quiet_closed Γ).setPayload z v trivial w).2 x ▸ h
  initEmptyFlag z hz := by
    intro w
    unfold initEmptyFlag
    rcases hm : w.mem z with _ | s
    · rw [bind_abort (readStorage_none hm)]; exact id
    · rw [bind_ok (readStorage_ok hm), bind_ok (m := freshId) rfl]
      rcases hi : (Γ z).cfg.initFlag w.nextObj s with k | ⟨s', created⟩
      · exact id
      · show Keep x i w ((do writeStorage z s'; if created then emit (.flagInit w.nextObj) else pure ()) _ : Res Unit × World V G).2
        cases created <;> exact keep_other hz (o := some s') rfl
  invalidate z hz := by
    intro w
    unfold invalidateEmptyFlag
    rcases hm : w.mem z with _ | s
    · rw [bind_abort (readStorage_none hm)]; exact id
    · rw [bind_ok (readStorage_ok hm)]
      have key : Keep x i w ((match s.flag with
          | some f => do
            writeStorage z { s with flag := none, bytes := fill s.bytes (Γ z).cfg.loc.off (Γ z).cfg.loc.size (fun _ => none) }
            emit (.flagInval f.id)
          | none =>
            match s.payload, (Γ z).cfg.decomp with
            | some _, .inplace => destroyPayload (Γ z).cfg (Γ z).ops.dtor z
            | some _, _ => ubM .memberDestroyed
            | none, _ => ubM .noObject : M V G Unit) w).2 := by
        rcases s.flag with _ | f
        · dsimp only
          rcases s.payload with _ | p
          · exact id
          · cases (Γ z).cfg.decomp
            · exact id
            · exact keep_destroyPayload hz _ _ w
            · exact id
        · exact keep_other hz (o := some _) rfl
      cases (Γ z).cfg.manip with
      | separate => exact keep_other hz (o := some _) rfl
      | memcpy sent => exact key
      | assign sv eq => exact key
      | custom p ev => exact key
  destroy z hz := keep_destroyPayload hz _ _
  newPayload z v hz := by
    intro w
    unfold newPayload
    rcases hm : w.mem z with _ | s
    · rw [bind_abort (readStorage_none hm)]; exact id
    · rw [bind_ok (readStorage_ok hm)]
      split
      · exact id
      · exact keep_other hz (o := some _) rfl
  allocate z hz := by
    intro w
    unfold allocate
    rcases hm : w.mem z with _ | s
    · exact keep_other hz (o := some _) rfl
    · exact id
  release z hz := by
    intro w
    unfold release
    rcases hm : w.mem z with _ | s
    · exact id
    · exact keep_other hz (o := none) rfl

/-- Calls that may engage or disengage other optionals only. -/
theorem keep_execOp {x i : Nat} {op : Op V G} (h : x ∉ op.remakes) (hl : x ∉ op.lifetimes) : Steps (Keep x i) (execOp Γ op) :=
  (keep_closed Γ x i).execOp' op (fun _ _ => trivial) (fun _ hz e => h (e ▸ hz)) (fun _ hz e => hl (e ▸ hz))

theorem Quiet.keep {a b : World V G} (h : Quiet a b) (x i : Nat) : Keep x i a b := fun h' => by rw [h.2 x]; exact h'

/-- The state in which a caller sees an optional with a payload object. -/
theorem Reach.engaged (hΓ : EnvWF Γ) (hw : Reach Γ w) {sw : SWorld V G} (hs : Sees Γ w sw) {x i : Nat} (hx : HoldsPayload x i w) :
    ∃ s v, w.mem x = some s ∧ s.payload = some ⟨i, v⟩ ∧ sw.vars x = some (some v) := by
  obtain ⟨s, v, hm, hp⟩ := hx
  refine ⟨s, v, hm, hp, ?_⟩
  have hR := (hs.rw hΓ hw).rel x
  rw [hm] at hR
  rcases hv : sw.vars x with _ | (_ | u) <;> simp only [VarRelH, VarRel, hv] at hR
  · exact absurd hR.1 (by simp [hp])
  · obtain ⟨⟨id, h⟩, _⟩ := hR
    rw [hp] at h
    simp only [Option.some.injEq, PObj.mk.injEq] at h
    rw [h.2]

/-- Running something after `m` without changing the world. -/
theorem keep_unit {m : M V G Unit} {x i : Nat} (h : Keep x i w (m w).2) (o : Obs V) : Keep x i w ((m >>= fun _ => pure o) w).2 := by
  rcases hw : m w with ⟨r | e | k, w'⟩ <;> rw [hw] at h
  · rw [bind_ok hw]; exact h
  · rw [bind_throw hw]; exact h
  · rw [bind_abort hw]; exact h

/-- Assigning to `x` via a temporary. -/
theorem keep_assignScalar (hΓ : EnvWF Γ) (hw : Reach Γ w) {sw : SWorld V G} (hs : Sees Γ w sw) {x tmp i : Nat} {a : Arg V G}
    (hop : OpOK Γ (.assignScalar x tmp a)) (hu : (Spec.specOp (fun x => (Γ x).ops) (.assignScalar x tmp a) sw).1 ≠ .undef)
    (ht : NoReserved Γ (Spec.specOp (fun x => (Γ x).ops) (.assignScalar x tmp a) sw).2.trace)
    (hx : HoldsPayload x i w) : Keep x i w (execOp Γ (.assignScalar x tmp a) w).2 := by
  have K := keep_closed Γ x i
  obtain ⟨s, v, hm, hp, hv⟩ := hw.engaged hΓ hs hx
  have hne : tmp ≠ x := by
    rintro rfl
    apply hu
    simp [Spec.specOp, Spec.assignViaTemp, Spec.ctorInPlace, Spec.fresh, hv, Spec.SM.bind, Bind.bind]
  have hR := hs.rw hΓ hw
  have hmono : Mono (do Spec.onThrow (Spec.assignMove (Γ x).ops x tmp) (Spec.dtor (Γ tmp).ops tmp); Spec.dtor (Γ tmp).ops tmp : SM V G Unit) :=
    (mono_onThrow (mono_assignMove _ _ _) (mono_dtor _ _)).bind fun _ => mono_dtor _ _
  have hspec : Spec.specOp (fun x => (Γ x).ops) (.assignScalar x tmp a) sw = ((do
      Spec.ctorInPlace (Γ tmp).ops tmp a
      (do Spec.onThrow (Spec.assignMove (Γ x).ops x tmp) (Spec.dtor (Γ tmp).ops tmp); Spec.dtor (Γ tmp).ops tmp : SM V G Unit) : SM V G Unit) >>=
        fun _ => SM.pure (Obs.unit : Obs V)) sw := rfl
  rw [hspec, sm_bind, sm_bind] at hu ht
  refine keep_unit ?_ _
  have k1 : Keep x i w (inPlaceCtor Γ tmp a w).2 := K.storageInPlaceCtor hne hne a (fun _ _ => trivial) w
  show Keep x i w ((inPlaceCtor Γ tmp a >>= fun _ => onThrow (moveAssign Γ x tmp) (dtor Γ tmp) >>= fun _ => dtor Γ tmp) w).2
  rcases hc : Spec.ctorInPlace (Γ tmp).ops tmp a sw with ⟨⟨⟩ | e | _, sw1⟩ <;> rw [hc] at hu ht
  · obtain ⟨w1, h1, hR1⟩ := inPlaceCtor_sims hΓ hop.2 w sw hR (by rw [hc]; simp) (by
      rw [hc]
      refine NoReserved.of_mono (hmono.bind fun _ => mono_pure (Obs.unit : Obs V)) (sw := sw1) ?_
      rw [sm_bind]; exact ht)
    rw [hc] at h1 hR1
    rw [h1] at k1
    rw [bind_ok h1]
    have hx1 : HoldsPayload x i w1 := pidS_iff.1 (k1 (pidS_iff.2 hx))
    obtain ⟨u, hu1⟩ := hR1.holdsPayload_iff.1 ⟨i, hx1⟩
    have ht1 : ∃ t, sw1.vars tmp = some (some t) := by
      simp only [Spec.ctorInPlace, sm_bind] at hc
      rcases hf : (Spec.fresh tmp : SM V G Unit) sw with ⟨⟨⟩ | e | _, sw2⟩ <;> simp only [hf] at hc
      · rcases hg : Spec.argVal (Γ tmp).ops a sw2 with ⟨t | e | _, sw3⟩ <;> simp only [hg, Spec.put] at hc
        · simp only [Prod.mk.injEq, true_and] at hc
          exact ⟨t, by rw [← hc]; simp⟩
        · simp at hc
        · simp at hc
      · simp at hc
      · simp at hc
    obtain ⟨t, ht1⟩ := ht1
    have q : Quiet w1 (moveAssign Γ x tmp w1).2 :=
      quiet_copyOrMoveAssign ((hR1.holds_iff hΓ).2 hu1) ((hR1.holds_iff hΓ).2 ht1) _ _
    have kd : Steps (Keep x i) (dtor Γ tmp) := K.storageDtor hne hne
    refine K.trans _ _ _ k1 ?_
    have q2 : Keep x i w1 (onThrow (moveAssign Γ x tmp) (dtor Γ tmp) w1).2 := by
      unfold onThrow
      rcases hm1 : moveAssign Γ x tmp w1 with ⟨r | e | k, w2⟩ <;> rw [hm1] at q
      · exact q.keep x i
      · have := kd w2
        dsimp only
        rcases hd : dtor Γ tmp w2 with ⟨r | e' | k, w3⟩ <;> rw [hd] at this <;> exact K.trans _ _ _ (q.keep x i) this
      · exact q.keep x i
    rcases hm1 : onThrow (moveAssign Γ x tmp) (dtor Γ tmp) w1 with ⟨r | e | k, w2⟩ <;> rw [hm1] at q2
    · rw [bind_ok hm1]; exact K.trans _ _ _ q2 (kd w2)
    · rw [bind_throw hm1]; exact q2
    · rw [bind_abort hm1]; exact q2
  · obtain ⟨w1, h1, hR1⟩ := inPlaceCtor_sims hΓ hop.2 w sw hR (by rw [hc]; simp) (by rw [hc]; exact ht)
    rw [hc] at h1
    rw [h1] at k1
    rw [bind_throw h1]
    exact k1
  · exact absurd rfl hu

theorem reset_not_throw {x : Nat} {e : Exn} {w' : World V G} : reset Γ x w ≠ (.throw e, w') := by
  unfold reset
  intro h
  unfold noexceptIf at h
  split at h
  · simp at h
  · next hn => exact hn _ _ h

/-- A call that fails while moving the value of `a` to the empty optional `b`. -/
theorem keep_moveOut {a b i : Nat} (hne : b ≠ a) {e : Exn} {w' : World V G}
    (h : ((constructPayload Γ b (.moveOf a) >>= fun _ => reset Γ a) w) = (.throw e, w')) : Keep a i w w' := by
  have K := keep_closed Γ a i
  have k : Keep a i w (constructPayload Γ b (.moveOf a) w).2 := K.constructPayload hne _ (fun _ _ => trivial) w
  rcases hc : constructPayload Γ b (.moveOf a) w with ⟨r | e' | ab, w1⟩ <;> rw [hc] at k
  · rw [bind_ok hc] at h; exact absurd h reset_not_throw
  · rw [bind_throw hc] at h
    simp only [Prod.mk.injEq] at h
    rw [← h.2]; exact k
  · rw [bind_abort hc] at h; simp at h

theorem swap_throw {x y : Nat} {e : Exn} {w' : World V G} (h : execOp Γ (.swap x y) w = (.throw e, w')) : swapBody Γ x y w = (.throw e, w') := by
  have h1 : (noexceptIf (((Γ x).ops.nothrowMoveCtor && (Γ x).ops.nothrowSwap)) (swapBody Γ x y) >>= fun _ => pure Obs.unit) w = (.throw e, w') := h
  rcases hb : swapBody Γ x y w with ⟨r | e' | ab, w1⟩
  · rw [bind_ok (m := noexceptIf _ _) (a := r) (w' := w1) (by unfold noexceptIf; rw [hb])] at h1
    cases h1
  · have : noexceptIf (((Γ x).ops.nothrowMoveCtor && (Γ x).ops.nothrowSwap)) (swapBody Γ x y) w = if ((Γ x).ops.nothrowMoveCtor && (Γ x).ops.nothrowSwap) then (.abort .terminate, w1) else (.throw e', w1) := by
      unfold noexceptIf; rw [hb]
    split at this
    · rw [bind_abort this] at h1; cases h1
    · rw [bind_throw this] at h1; cases h1; rfl
  · rw [bind_abort (m := noexceptIf _ _) (k := ab) (w' := w1) (by unfold noexceptIf; rw [hb])] at h1
    cases h1

theorem Reach.fresh_ids (hw : Reach Γ w) {x i : Nat} (hx : HoldsPayload x i w) : ¬ w.nextObj ≤ i := by
  intro h
  have h1 := hw.life.fresh i h
  rw [(hw.life.payload i).2 ⟨x, pidS_iff.2 hx⟩] at h1
  simp at h1

section step
variable (hΓ : EnvWF Γ) (hw : Reach Γ w) {sw : SWorld V G} (hs : Sees Γ w sw) {op : Op V G} (hop : OpOK Γ op)
  (hu : (Spec.specOp (fun x => (Γ x).ops) op sw).1 ≠ .undef)
  (ht : NoReserved Γ (Spec.specOp (fun x => (Γ x).ops) op sw).2.trace)
  (hst : StepOK op (Spec.specOp (fun x => (Γ x).ops) op sw).1) {x i : Nat}
include hΓ hw hs hop hu ht hst

theorem Reach.keeps (hx : HoldsPayload x i w) (hn : ¬ Ends sw.vars (Spec.specOp (fun x => (Γ x).ops) op sw).1.threw x op) :
    HoldsPayload x i (execOp Γ op w).2 := by
  refine pidS_iff.1 ?_
  have hx' := pidS_iff.2 hx
  suffices h : Keep x i w (execOp Γ op w).2 from h hx'
  by_cases hr : x ∈ op.remakes ∨ x ∈ op.lifetimes
  case neg => exact keep_execOp (fun h => hr (.inl h)) (fun h => hr (.inr h)) w
  obtain ⟨s, v, hm, hp, hv⟩ := hw.engaged hΓ hs hx
  have hxv : Holds Γ x v w := hs.holds hv
  cases op <;> simp only [Op.remakes, Op.lifetimes, List.mem_cons, List.not_mem_nil, or_false, or_self] at hr
  case ctorDefault => subst hr; exact absurd (by spec_eval [hv]) hu
  case ctorInPlace => subst hr; exact absurd (by spec_eval [hv]) hu
  case ctorCopy => subst hr; exact absurd (by spec_eval [hv]) hu
  case ctorMove => subst hr; exact absurd (by spec_eval [hv]) hu
  case dtor => subst hr; exact absurd rfl hn
  case reset => subst hr; exact absurd rfl hn
  case assignNullopt => subst hr; exact absurd rfl hn
  case emplace => subst hr; exact absurd rfl hn
  case assignVal z a => subst hr; exact (quiet_assignVal hxv a).keep _ _
  case assignScalar z tmp a =>
    rcases hr with (rfl | rfl) | rfl
    · exact keep_assignScalar hΓ hw hs hop hu ht hx
    all_goals exact absurd (by spec_eval [hv]) hu
  case assignCopy z y =>
    subst hr
    rcases hy : sw.vars y with _ | (_ | t)
    · exact absurd (by spec_eval [hv, hy]) hu
    · exact absurd ⟨rfl, hy⟩ hn
    · exact (quiet_unit (quiet_copyOrMoveAssign hxv (hs.holds hy) _ _) _).keep _ _
  case assignMove z y =>
    subst hr
    rcases hy : sw.vars y with _ | (_ | t)
    · exact absurd (by spec_eval [hv, hy]) hu
    · exact absurd ⟨rfl, hy⟩ hn
    · exact (quiet_unit (quiet_copyOrMoveAssign hxv (hs.holds hy) _ _) _).keep _ _
  case swap z y =>
    have thr : ∀ {a b : Nat}, (Spec.specOp (fun x => (Γ x).ops) (.swap a b) sw).1.threw = true → OpOK Γ (.swap a b) →
        (Spec.specOp (fun x => (Γ x).ops) (.swap a b) sw).1 ≠ .undef →
        NoReserved Γ (Spec.specOp (fun x => (Γ x).ops) (.swap a b) sw).2.trace →
        ∃ e w', execOp Γ (.swap a b) w = (.throw e, w') ∧ swapBody Γ a b w = (.throw e, w') := by
      intro a b h hop hu ht
      obtain ⟨w', h1, _⟩ := hw.step hΓ hs hop hu ht trivial
      revert h h1
      rcases Spec.specOp (fun x => (Γ x).ops) (.swap a b) sw with ⟨_ | e | _, _⟩ <;> intro h h1
      · simp [SRes.threw] at h
      · exact ⟨e, w', h1, swap_throw h1⟩
      · simp [SRes.threw] at h
    rcases hr with rfl | rfl
    · rcases hy : sw.vars y with _ | (_ | t)
      · exact absurd (by spec_eval [hv, hy]) hu
      · have h : (Spec.specOp (fun x => (Γ x).ops) (.swap x y) sw).1.threw = true := by
          exact Bool.of_not_eq_false fun hf => hn ⟨hf, .inl ⟨rfl, hy⟩⟩
        obtain ⟨e, w', h1, h2⟩ := thr h hop hu ht
        rw [h1]
        unfold swapBody at h2
        rw [bind_ok hxv.1, bind_ok (hs.isEmpty hy)] at h2
        exact keep_moveOut (by rintro rfl; simp [hv] at hy) h2
      · exact (quiet_unit (quiet_swap hxv (hs.holds hy)) _).keep _ _
    · rcases hy : sw.vars z with _ | (_ | t)
      · exact absurd (by spec_eval [hv, hy]) hu
      · have h : (Spec.specOp (fun x => (Γ x).ops) (.swap z x) sw).1.threw = true := by
          exact Bool.of_not_eq_false fun hf => hn ⟨hf, .inr ⟨rfl, hy⟩⟩
        obtain ⟨e, w', h1, h2⟩ := thr h hop hu ht
        rw [h1]
        unfold swapBody at h2
        rw [bind_ok (hs.isEmpty hy), bind_ok hxv.1] at h2
        exact keep_moveOut (by rintro rfl; simp [hv] at hy) h2
      · exact (quiet_unit (quiet_swap (hs.holds hy) hxv) _).keep _ _
  case andThen => subst hr; exact absurd (by spec_eval [hv]) hu
  case transform => subst hr; exact absurd (by spec_eval [hv]) hu
  case orElse => subst hr; exact absurd (by spec_eval [hv]) hu

theorem Reach.ended (hx : HoldsPayload x i w) (he : Ends sw.vars (Spec.specOp (fun x => (Γ x).ops) op sw).1.threw x op) :
    ¬ HoldsPayload x i (execOp Γ op w).2 := by
  obtain ⟨w', h1, hw', hs'⟩ := hw.step hΓ hs hop hu ht hst
  obtain ⟨s, v, hm, hp, hv⟩ := hw.engaged hΓ hs hx
  rw [h1]
  have gone : ∀ o, (Spec.specOp (fun x => (Γ x).ops) op sw).2.vars x = o → (o = none ∨ o = some none) → ¬ HoldsPayload x i w' := by
    rintro o ho (rfl | rfl)
    · exact no_payload_of_absent (hs'.absent ho) i
    · exact hw'.no_payload_of_empty hΓ (hs'.isEmpty ho) i
  cases op
  case dtor z => cases he; exact gone none (by spec_eval [hv]) (.inl rfl)
  case reset z => cases he; exact gone (some none) (by spec_eval [hv]) (.inr rfl)
  case assignNullopt z => cases he; exact gone (some none) (by spec_eval [hv]) (.inr rfl)
  case emplace z a =>
    cases he
    obtain ⟨w1, hr1, hw1, hs1⟩ := hw.call hΓ hs (op := .reset x) (r := .ok .unit)
      (sw' := ⟨fun z => if z = x then some none else sw.vars z, (Γ x).ops.dtor v sw.user, sw.trace⟩) trivial (by spec_eval [hv]) (by simp) (by
      obtain ⟨r, vars', user', l, hl⟩ := mono_specOp (fun x => (Γ x).ops) (.emplace x a) sw.vars sw.user
      have hl' : Spec.specOp (fun x => (Γ x).ops) (.emplace x a) sw = _ := hl sw.trace
      rw [hl'] at ht
      exact fun p hp => ht p (by rw [List.mem_append]; exact .inl hp))
    have hr2 : reset Γ x w = (.ok (), w1) := by
      have h3 : (reset Γ x >>= fun _ => pure Obs.unit) w = (.ok .unit, w1) := hr1
      rcases hq : reset Γ x w with ⟨⟨⟩ | e | k, w2⟩
      · rw [bind_ok hq] at h3; cases h3; rfl
      · rw [bind_throw hq] at h3; cases h3
      · rw [bind_abort hq] at h3; cases h3
    have C := home_closed Γ
    have hh : Home w1 w' := by
      have h3 : ((constructPayload Γ x a >>= fun _ => assertHas Γ x true >>= fun _ => getPayload x) w1).2 = w' := by
        have h4 : ((reset Γ x >>= fun _ => constructPayload Γ x a >>= fun _ => assertHas Γ x true >>= fun _ => getPayload x) >>=
          fun v => pure (Obs.val v)) w = _ := h1
        rcases hq : (constructPayload Γ x a >>= fun _ => assertHas Γ x true >>= fun _ => getPayload x) w1 with ⟨r | e | k, w2⟩
        · rw [bind_ok (a := r) (w' := w2) (by rw [bind_ok hr2]; exact hq)] at h4
          exact (Prod.ext_iff.1 h4).2
        · rw [bind_throw (e := e) (w' := w2) (by rw [bind_ok hr2]; exact hq)] at h4
          exact (Prod.ext_iff.1 h4).2
        · rw [bind_abort (k := k) (w' := w2) (by rw [bind_ok hr2]; exact hq)] at h4
          exact (Prod.ext_iff.1 h4).2
      rw [← h3]
      exact C.bind (C.constructPayload trivial a fun _ _ => trivial) (fun _ => C.bind (C.assertHas x true) fun _ => C.getPayload x) w1
    intro hx'
    rcases hh.2 x i (pidS_iff.2 hx') with h | h
    · exact hw1.no_payload_of_empty hΓ (hs1.isEmpty (by simp)) i (pidS_iff.1 h)
    · have h2 := (execOp_home Γ (.reset x) w).1
      rw [hr1] at h2
      exact hw.fresh_ids hx (Nat.le_trans h2 h)
  case assignCopy z y => obtain ⟨rfl, hy⟩ := he; exact gone (some none) (by spec_eval [hv, hy]) (.inr rfl)
  case assignMove z y => obtain ⟨rfl, hy⟩ := he; exact gone (some none) (by spec_eval [hv, hy]) (.inr rfl)
  case swap z y =>
    obtain ⟨hf, ⟨rfl, hy⟩ | ⟨rfl, hy⟩⟩ := he
    · have hne : y ≠ z := by rintro rfl; simp [hv] at hy
      revert hf gone
      rcases hmv : (Γ z).ops.moveCtor v sw.user with ⟨r | r, v', g⟩
      · spec_eval [hv, hy, hmv, SRes.threw]
      · intro _ gone
        exact gone (some none) (by spec_eval [hv, hy, hmv, hne, Ne.symm hne]) (.inr rfl)
    · have hne : z ≠ y := by rintro rfl; simp [hv] at hy
      revert hf gone
      rcases hmv : (Γ z).ops.moveCtor v sw.user with ⟨r | r, v', g⟩
      · spec_eval [hv, hy, hmv, SRes.threw]
      · intro _ gone
        exact gone (some none) (by spec_eval [hv, hy, hmv, hne, Ne.symm hne]) (.inr rfl)
  all_goals exact absurd he id
end step

theorem run_log_prefix (Γ : Env V G) (h : List (Op V G)) (w : World V G) : w.log <+: (run Γ h w).2.log := by
  induction h generalizing w with
  | nil => exact List.prefix_rfl
  | cons op rest ih =>
    have h1 := execOp_log_prefix Γ op w
    simp only [run]
    rcases hw : execOp Γ op w with ⟨a | e | k, w'⟩ <;> rw [hw] at h1
    · exact h1.trans (ih w')
    · exact h1.trans (ih w')
    · exact h1

theorem Legal.sees {g : G} {h : List (Op V G)} {rs} {sw : SWorld V G} (hl : Legal Γ g h rs sw) (hΓ : EnvWF Γ) :
    Sees Γ (run Γ h (.init g)).2 sw :=
  (run_sim hΓ hl.1 (R_init g) hl.2.1 hl.2.2.1 hl.2.2.2).2.sees hΓ

/-- First call of a legal history. -/
theorem specRun_cons {ops : Nat → Ops V G} {op : Op V G} {rest : List (Op V G)} {sw sw' : SWorld V G} {rs}
    (h : Spec.specRun ops (op :: rest) sw = some (rs, sw')) :
    (Spec.specOp ops op sw).1 ≠ .undef ∧ ∃ rs', rs = (Spec.specOp ops op sw).1 :: rs' ∧
      Spec.specRun ops rest (Spec.specOp ops op sw).2 = some (rs', sw') := by
  simp only [Spec.specRun] at h
  rcases hq : Spec.specOp ops op sw with ⟨a | e | _, sw₁⟩ <;> simp only [hq] at h
  · rcases hr' : Spec.specRun ops rest sw₁ with _ | ⟨rs', sw₂⟩ <;> simp only [hr'] at h
    · simp at h
    · simp only [Option.some.injEq, Prod.mk.injEq] at h
      exact ⟨by simp, rs', h.1.symm, by rw [h.2]⟩
  · rcases hr' : Spec.specRun ops rest sw₁ with _ | ⟨rs', sw₂⟩ <;> simp only [hr'] at h
    · simp at h
    · simp only [Option.some.injEq, Prod.mk.injEq] at h
      exact ⟨by simp, rs', h.1.symm, by rw [h.2]⟩
  · simp at h

/-- A legal continuation of a reachable world. -/
theorem Reach.run (hΓ : EnvWF Γ) (hw : Reach Γ w) {sw sw' : SWorld V G} (hs : Sees Γ w sw) {h : List (Op V G)} {rs}
    (hop : ∀ op ∈ h, OpOK Γ op) (hr : Spec.specRun (fun x => (Γ x).ops) h sw = some (rs, sw')) (ht : NoReserved Γ sw'.trace)
    (hst : ∀ p ∈ h.zip rs, StepOK p.1 p.2) : Reach Γ (Model.run Γ h w).2 ∧ Sees Γ (Model.run Γ h w).2 sw' := by
  induction h generalizing w sw rs with
  | nil =>
    simp only [Spec.specRun, Option.some.injEq, Prod.mk.injEq] at hr
    exact ⟨hw, hr.2 ▸ hs⟩
  | cons op rest ih =>
    obtain ⟨hu, rs', rfl, hr2⟩ := specRun_cons hr
    obtain ⟨l, hl⟩ := specRun_mono hr2
    obtain ⟨w₁, h1, hw1, hs1⟩ := hw.step hΓ hs (hop op (by simp)) hu (fun p hp => ht p (by rw [hl]; simp [hp]))
      (hst (op, _) (List.mem_cons_self ..))
    have hrun : (Model.run Γ (op :: rest) w).2 = (Model.run Γ rest w₁).2 := by
      simp only [Model.run, h1]
      rcases hq : (Spec.specOp (fun x => (Γ x).ops) op sw).1 with a | e | _
      · rfl
      · rfl
      · exact absurd hq hu
    rw [hrun]
    exact ih hw1 hs1 (fun o ho => hop o (by simp [ho])) hr2 (fun p hp => hst p (by simp [hp]))

end
end Verif.Model
