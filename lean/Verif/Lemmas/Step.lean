import Verif.Lemmas.Frame

/-! Helper lemmas: from the refinement theorem to statements about single calls. -/

/-- Evaluate a specification operation. -/
macro "spec_eval" "[" hs:Lean.Parser.Tactic.simpLemma,* "]" : tactic =>
  `(tactic| simp [Verif.Spec.specOp, Verif.Spec.ctorDefault, Verif.Spec.ctorInPlace, Verif.Spec.ctorCopy, Verif.Spec.ctorMove,
    Verif.Spec.dtor, Verif.Spec.reset, Verif.Spec.payloadAssign, Verif.Spec.assignVal, Verif.Spec.assignCopy,
    Verif.Spec.assignMove, Verif.Spec.emplace, Verif.Spec.onThrow, Verif.Spec.assignViaTemp, Verif.Spec.swap,
    Verif.Spec.hasValue, Verif.Spec.deref, Verif.Spec.value, Verif.Spec.valueOr, Verif.Spec.modify, Verif.Spec.andThen,
    Verif.Spec.transform, Verif.Spec.orElse, Verif.Spec.init, Verif.Spec.argVal, Verif.Spec.destroyVal, Verif.Spec.user,
    Verif.Spec.put, Verif.Spec.setEmpty, Verif.Spec.remove, Verif.Spec.get, Verif.Spec.getVal, Verif.Spec.fresh,
    Verif.Spec.check, Verif.Spec.throw, Verif.Spec.SM.pure, Verif.Spec.SM.bind, Bind.bind, Verif.AArg.toArg, $hs,*])

namespace Verif.Model
open Verif.Spec (SM SWorld SRes)

section
variable {V G : Type} {Γ : Env V G} {w : World V G}

theorem Reach.view (hΓ : EnvWF Γ) (hw : Reach Γ w) : ∃ vars, Sees Γ w ⟨vars, w.user, []⟩ := by
  obtain ⟨sw, hR, _⟩ := hw.rel hΓ
  have hu : w.user = sw.user := hR.user
  refine ⟨sw.vars, ?_⟩
  rw [hu]
  exact R.sees hΓ (sw := ⟨sw.vars, sw.user, []⟩) hR

theorem Sees.full {sw : SWorld V G} (h : Sees Γ w sw) {x v} (hx : Holds Γ x v w) : sw.vars x = some (some v) :=
  ((h.2 x).2.2 v).1 hx
theorem Sees.emp {sw : SWorld V G} (h : Sees Γ w sw) {x} (hx : IsEmpty Γ x w) : sw.vars x = some none :=
  (h.2 x).2.1.1 hx
theorem Sees.abs {sw : SWorld V G} (h : Sees Γ w sw) {x} (hx : Absent x w) : sw.vars x = none :=
  (h.2 x).1.1 hx
theorem Sees.holds {sw : SWorld V G} (h : Sees Γ w sw) {x v} (hx : sw.vars x = some (some v)) : Holds Γ x v w :=
  ((h.2 x).2.2 v).2 hx
theorem Sees.isEmpty {sw : SWorld V G} (h : Sees Γ w sw) {x} (hx : sw.vars x = some none) : IsEmpty Γ x w :=
  (h.2 x).2.1.2 hx
theorem Sees.absent {sw : SWorld V G} (h : Sees Γ w sw) {x} (hx : sw.vars x = none) : Absent x w :=
  (h.2 x).1.2 hx

theorem userCall_ok {α : Type} {f : G → Except Exn α × G} {a g'} (h : f w.user = (.ok a, g')) :
    userCall f w = (.ok a, { w with user := g' }) := by
  simp [userCall, h]

theorem userCall_error {α : Type} {f : G → Except Exn α × G} {e g'} (h : f w.user = (.error e, g')) :
    userCall f w = (.throw e, { w with user := g' }) := by
  simp [userCall, h]

theorem StepOK.ok {op : Op V G} {o : Obs V} : StepOK op (.ok o) := by
  cases op <;> simp [StepOK]

/-- One call, with the specification evaluated. -/
theorem Reach.call (hΓ : EnvWF Γ) (hw : Reach Γ w) {sw sw' : SWorld V G} (hs : Sees Γ w sw) {op : Op V G} {r}
    (hop : OpOK Γ op) (he : Spec.specOp (fun x => (Γ x).ops) op sw = (r, sw')) (hr : r ≠ .undef)
    (ht : NoReserved Γ sw'.trace) (hst : StepOK op r := by first | exact trivial | exact StepOK.ok | (rcases ‹_ ∨ _› with rfl | rfl <;> trivial)) :
    ∃ w', execOp Γ op w = (SResToRes r, w') ∧ Reach Γ w' ∧ Sees Γ w' sw' := by
  have := hw.step hΓ hs hop (by rw [he]; exact hr) (by rw [he]; exact ht) (by rw [he]; exact hst)
  rwa [he] at this

theorem Reach.leaked (hΓ : EnvWF Γ) (hw : Reach Γ w) (id : Nat) : leaked w.log id = 0 := by
  obtain ⟨sw, hR, _⟩ := hw.rel hΓ
  exact leaked_zero hR.noLeak id

/-- A payload object that is in no optional any more was destroyed exactly once. -/
theorem Reach.destroyed_once (hΓ : EnvWF Γ) (hw : Reach Γ w) {id : Nat} (hc : created w.log id = 1)
    (hn : ∀ x, ¬ HoldsPayload x id w) : destroyed w.log id = 1 := by
  have hl := hw.life
  have hcs := counts_of_status id w.log (hl.ok id)
  have ha : status w.log id ≠ .alive := fun ha => by
    obtain ⟨x, hx⟩ := (hl.payload id).1 ha
    exact hn x (pidS_iff.1 hx)
  have h0 := hw.leaked hΓ id
  generalize status w.log id = s at hcs ha
  cases s <;> simp only [LS.counts, Prod.mk.injEq, ne_eq, not_true_eq_false] at hcs ha <;> omega

theorem Reach.created_of_holds (hw : Reach Γ w) {x id : Nat} (h : HoldsPayload x id w) : created w.log id = 1 ∧ destroyed w.log id = 0 := by
  have hl := hw.life
  have hcs := counts_of_status id w.log (hl.ok id)
  rw [(hl.payload id).2 ⟨x, pidS_iff.2 h⟩] at hcs
  simp only [LS.counts, Prod.mk.injEq] at hcs
  exact ⟨hcs.1, hcs.2.1⟩

theorem Reach.payload_of_holds (hΓ : EnvWF Γ) (hw : Reach Γ w) {x v} (h : Holds Γ x v w) : ∃ id, HoldsPayload x id w := by
  obtain ⟨sw, hR, _⟩ := hw.rel hΓ
  exact hR.holdsPayload_iff.2 ⟨v, (hR.holds_iff hΓ).1 h⟩

theorem Reach.no_payload_of_empty (hΓ : EnvWF Γ) (hw : Reach Γ w) {x} (h : IsEmpty Γ x w) (id : Nat) : ¬ HoldsPayload x id w := by
  obtain ⟨sw, hR, _⟩ := hw.rel hΓ
  intro hp
  obtain ⟨v, hv⟩ := hR.holdsPayload_iff.1 ⟨id, hp⟩
  rw [(hR.isEmpty_iff hΓ).1 h] at hv
  simp at hv

theorem no_payload_of_absent {x} (h : Absent x w) (id : Nat) : ¬ HoldsPayload x id w := by
  rintro ⟨s, v, hs, _⟩
  simp [Absent, hs] at h

theorem created_mono {l l' : List Event} (h : l <+: l') (id : Nat) : created l id ≤ created l' id :=
  List.Sublist.count_le _ h.sublist

theorem execOp_log_prefix (Γ : Env V G) (op : Op V G) (w : World V G) : w.log <+: (execOp Γ op w).2.log := by
  obtain ⟨_, _, l, hl, _⟩ := execOp_change Γ op w
  exact ⟨l, hl.symm⟩

/-- The payload object of `x` was destroyed exactly once by a call that wrote only `x` and left it without payload. -/
theorem Reach.call_destroys (hΓ : EnvWF Γ) (hw : Reach Γ w) {op : Op V G} {r w'} (he : execOp Γ op w = (r, w'))
    (hw' : Reach Γ w') {x id} (hx : HoldsPayload x id w) (hwr : ∀ z ∈ op.writes, z = x ∨ ∀ i, ¬ HoldsPayload z i w')
    (hno : ∀ i, ¬ HoldsPayload x i w') : destroyed w.log id = 0 ∧ destroyed w'.log id = 1 := by
  obtain ⟨h1, h0⟩ := hw.created_of_holds hx
  refine ⟨h0, hw'.destroyed_once hΓ ?_ ?_⟩
  · have hp := execOp_log_prefix Γ op w
    rw [he] at hp
    simp only [] at hp
    have h2 := created_mono hp id
    have hl := hw'.life
    have hcs := counts_of_status id w'.log (hl.ok id)
    generalize status w'.log id = s at hcs
    cases s <;> simp only [LS.counts, Prod.mk.injEq] at hcs <;> omega
  · intro z hz
    by_cases hzx : z = x
    · subst hzx; exact hno id hz
    · by_cases hzw : z ∈ op.writes
      · rcases hwr z hzw with h | h
        · exact hzx h
        · exact h id hz
      · have hf := (execOp_change Γ op w).1 z hzw
        rw [he] at hf
        obtain ⟨s, v, hs, hp⟩ := hz
        rw [hf] at hs
        exact hzx (hw.life.uniqP z x id (pidS_iff.2 ⟨s, v, hs, hp⟩) (pidS_iff.2 hx))

/-! ### Payload objects never migrate between optionals -/

/-- A payload found in optional `z` was there before, or is a new object. -/
def Home (a b : World V G) : Prop :=
  a.nextObj ≤ b.nextObj ∧ ∀ z id, pidS (b.mem z) = some id → pidS (a.mem z) = some id ∨ a.nextObj ≤ id

theorem Home.refl (w : World V G) : Home w w := ⟨Nat.le_refl _, fun _ _ h => .inl h⟩

theorem Home.write {w w' : World V G} {x : Nat} {s s' : Storage V} (hm : w.mem x = some s)
    (hm' : w'.mem = upd w.mem x (some s')) (hn : w.nextObj ≤ w'.nextObj)
    (hp : ∀ id, pidS (some s') = some id → pidS (some s) = some id ∨ w.nextObj ≤ id) : Home w w' := by
  refine ⟨hn, fun z id h => ?_⟩
  rw [hm'] at h
  by_cases hz : z = x
  · subst hz
    rw [upd_same] at h
    rw [hm]; exact hp id h
  · rw [upd_other _ _ hz] at h; exact .inl h

theorem initFlag_payload {c : Config V} {id : Nat} {s s' : Storage V} {b : Bool} (h : c.initFlag id s = .ok (s', b)) :
    s'.payload = s.payload := by
  unfold Config.initFlag at h
  dsimp only at h
  split at h
  · simp only [Except.ok.injEq, Prod.mk.injEq] at h; rw [← h.1]
  all_goals
    split at h
    · simp at h
    · split at h
      · simp at h
      · simp only [Except.ok.injEq, Prod.mk.injEq] at h; rw [← h.1]

theorem home_destroyPayload (c : Config V) (d : V → G → G) (x : Nat) :
    Steps Home (destroyPayload c d x : M V G Unit) := by
  intro w
  unfold destroyPayload
  rcases hm : w.mem x with _ | s
  · rw [bind_abort (readStorage_none hm)]; exact Home.refl w
  · rw [bind_ok (readStorage_ok hm)]
    rcases hp : s.payload with _ | p
    · exact Home.refl w
    · exact Home.write hm (s' := _) rfl (Nat.le_refl _) (by simp [pidS])

theorem home_closed (Γ : Env V G) : Closed Γ (fun _ => True) (fun _ => True) (Home : World V G → World V G → Prop) where
  refl := Home.refl
  trans a b c := by
    rintro ⟨h1, h2⟩ ⟨g1, g2⟩
    refine ⟨Nat.le_trans h1 g1, fun z id h => ?_⟩
    rcases g2 z id h with h | h
    · exact h2 z id h
    · exact .inr (Nat.le_trans h1 h)
  user w g := ⟨Nat.le_refl _, fun _ _ h => .inl h⟩
  initEmptyFlag x hx := by
    intro w
    unfold initEmptyFlag
    rcases hm : w.mem x with _ | s
    · rw [bind_abort (readStorage_none hm)]; exact Home.refl w
    · rw [bind_ok (readStorage_ok hm), bind_ok (m := freshId) rfl]
      rcases hi : (Γ x).cfg.initFlag w.nextObj s with k | ⟨s', created⟩
      · exact ⟨Nat.le_succ _, fun _ _ h => .inl h⟩
      · show Home w ((do writeStorage x s'; if created then emit (.flagInit w.nextObj) else pure ()) _ : Res Unit × World V G).2
        have hp := initFlag_payload hi
        cases created
        · exact Home.write hm (s' := s') rfl (Nat.le_succ _) (fun id h => .inl (by simpa [pidS, hp] using h))
        · exact Home.write hm (s' := s') rfl (Nat.le_succ _) (fun id h => .inl (by simpa [pidS, hp] using h))
  invalidate x hx := by
    intro w
    unfold invalidateEmptyFlag
    rcases hm : w.mem x with _ | s
    · rw [bind_abort (readStorage_none hm)]; exact Home.refl w
    · rw [bind_ok (readStorage_ok hm)]
      have key : Home w ((match s.flag with
          | some f => do
            writeStorage x { s with flag := none, bytes := fill s.bytes (Γ x).cfg.loc.off (Γ x).cfg.loc.size (fun _ => none) }
            emit (.flagInval f.id)
          | none =>
            match s.payload, (Γ x).cfg.decomp with
            | some _, .inplace => destroyPayload (Γ x).cfg (Γ x).ops.dtor x
            | some _, _ => ubM .memberDestroyed
            | none, _ => ubM .noObject : M V G Unit) w).2 := by
        rcases s.flag with _ | f
        · dsimp only
          rcases s.payload with _ | p
          · exact Home.refl w
          · cases (Γ x).cfg.decomp
            · exact Home.refl w
            · exact home_destroyPayload _ _ _ w
            · exact Home.refl w
        · exact Home.write hm (s' := _) rfl (Nat.le_refl _) (fun id h => .inl h)
      cases (Γ x).cfg.manip with
      | separate => exact Home.write hm (s' := _) rfl (Nat.le_refl _) (fun id h => .inl h)
      | memcpy sent => exact key
      | assign sv eq => exact key
      | custom p ev => exact key
  destroy x hx := home_destroyPayload _ _ _
  newPayload x v hx := by
    intro w
    unfold newPayload
    rcases hm : w.mem x with _ | s
    · rw [bind_abort (readStorage_none hm)]; exact Home.refl w
    · rw [bind_ok (readStorage_ok hm)]
      split
      · exact Home.refl w
      · exact Home.write hm (s' := _) rfl (Nat.le_succ _) (fun id h => .inr (by simp [pidS] at h; omega))
  setPayload x v hx := by
    intro w
    unfold setPayload
    rcases hm : w.mem x with _ | s
    · rw [bind_abort (readStorage_none hm)]; exact Home.refl w
    · rw [bind_ok (readStorage_ok hm)]
      rcases hp : s.payload with _ | p
      · exact Home.refl w
      · exact Home.write hm (s' := _) rfl (Nat.le_refl _) (fun id h => .inl (by simpa [pidS, hp] using h))
  allocate x hx := by
    intro w
    unfold allocate
    rcases hm : w.mem x with _ | s
    · refine ⟨Nat.le_refl _, fun z id h => ?_⟩
      simp only at h
      split at h
      · simp [pidS, Storage.raw] at h
      · exact .inl h
    · exact Home.refl w
  release x hx := by
    intro w
    unfold release
    rcases hm : w.mem x with _ | s
    · exact Home.refl w
    · refine ⟨Nat.le_refl _, fun z id h => ?_⟩
      simp only at h
      split at h
      · simp [pidS] at h
      · exact .inl h

theorem execOp_home (Γ : Env V G) (op : Op V G) (w : World V G) : Home w (execOp Γ op w).2 :=
  (home_closed Γ).execOp op (fun _ _ => trivial) (fun _ _ => trivial) w

/-- After a call, the payload object that `x` had before is in `x` or nowhere. -/
theorem Reach.stays (hw : Reach Γ w) {op : Op V G} {r w'} (he : execOp Γ op w = (r, w')) {x y id}
    (hx : HoldsPayload x id w) (hy : HoldsPayload y id w') : y = x := by
  have h := execOp_home Γ op w
  rw [he] at h
  rcases h.2 y id (pidS_iff.2 hy) with h | h
  · exact hw.life.uniqP y x id h (pidS_iff.2 hx)
  · have h1 := hw.life.fresh id h
    rw [(hw.life.payload id).2 ⟨x, pidS_iff.2 hx⟩] at h1
    simp at h1

/-- The payload object of `x` was destroyed exactly once by a call that left `x` without payload. -/
theorem Reach.call_destroys' (hΓ : EnvWF Γ) (hw : Reach Γ w) {op : Op V G} {r w'} (he : execOp Γ op w = (r, w'))
    (hw' : Reach Γ w') {x id} (hx : HoldsPayload x id w) (hno : ¬ HoldsPayload x id w') :
    destroyed w.log id = 0 ∧ destroyed w'.log id = 1 := by
  obtain ⟨h1, h0⟩ := hw.created_of_holds hx
  refine ⟨h0, hw'.destroyed_once hΓ ?_ ?_⟩
  · have hp := execOp_log_prefix Γ op w
    rw [he] at hp
    simp only [] at hp
    have h2 := created_mono hp id
    have hl := hw'.life
    have hcs := counts_of_status id w'.log (hl.ok id)
    generalize status w'.log id = s at hcs
    cases s <;> simp only [LS.counts, Prod.mk.injEq] at hcs <;> omega
  · intro z hz
    have := hw.stays he hx hz
    subst this; exact hno hz

/-! ### Calls that create and destroy nothing -/

def Quiet (a b : World V G) : Prop := b.log = a.log ∧ ∀ z, pidS (b.mem z) = pidS (a.mem z)

theorem Quiet.same {a b : World V G} (h : Quiet a b) : SameObjects a b :=
  ⟨h.1, fun x id => by rw [← pidS_iff, ← pidS_iff, h.2 x]⟩

theorem quiet_closed (Γ : Env V G) : ClosedB Γ (fun _ => True) (Quiet : World V G → World V G → Prop) where
  refl _ := ⟨rfl, fun _ => rfl⟩
  trans _ _ _ h1 h2 := ⟨h2.1.trans h1.1, fun z => (h2.2 z).trans (h1.2 z)⟩
  user _ _ := ⟨rfl, fun _ => rfl⟩
  setPayload x v _ := by
    intro w
    unfold setPayload
    rcases hm : w.mem x with _ | s
    · rw [bind_abort (readStorage_none hm)]; exact ⟨rfl, fun _ => rfl⟩
    · rw [bind_ok (readStorage_ok hm)]
      rcases hp : s.payload with _ | p
      · exact ⟨rfl, fun _ => rfl⟩
      · refine ⟨rfl, fun z => ?_⟩
        show pidS (if z = x then some _ else w.mem z) = _
        split
        · next h => subst h; simp [pidS, hm, hp]
        · rfl

theorem quiet_assignValue {x : Nat} {u : V} (hx : Holds Γ x u w) (a : AArg V G) : Quiet w (assignValue Γ x a w).2 := by
  have C := quiet_closed Γ
  unfold assignValue
  rw [bind_ok hx.1]
  exact C.bind (C.payloadAssign trivial a fun _ _ => trivial) (fun _ => C.assertHas x true) w

theorem quiet_assignVal {x : Nat} {u : V} (hx : Holds Γ x u w) (a : AArg V G) : Quiet w (execOp Γ (.assignVal x a) w).2 := by
  have C := quiet_closed Γ
  have h := quiet_assignValue hx a
  show Quiet w (((assignValue Γ x a) >>= fun _ => pure Obs.unit) w).2
  rcases hw : assignValue Γ x a w with ⟨r | e | k, w'⟩ <;> rw [hw] at h
  · rw [bind_ok hw]; exact h
  · rw [bind_throw hw]; exact h
  · rw [bind_abort hw]; exact h

theorem quiet_copyOrMoveAssign {x y : Nat} {u v : V} (hx : Holds Γ x u w) (hy : Holds Γ y v w) (nt : Bool) (a : AArg V G) :
    Quiet w (copyOrMoveAssign Γ nt a x y w).2 := by
  have C := quiet_closed Γ
  unfold copyOrMoveAssign
  have h : Quiet w ((do if ← hasValue Γ y then assignValue Γ x a else reset Γ x
                        assertSame Γ x y) w : Res Unit × World V G).2 := by
    rw [bind_ok hy.1]
    simp only [if_true]
    have h := quiet_assignValue hx a
    rcases hw : assignValue Γ x a w with ⟨r | e | k, w'⟩ <;> rw [hw] at h
    · rw [bind_ok hw]; exact C.trans _ _ _ h (C.assertSame x y w')
    · rw [bind_throw hw]; exact h
    · rw [bind_abort hw]; exact h
  unfold noexceptIf
  rcases hw : (do if ← hasValue Γ y then assignValue Γ x a else reset Γ x
                  assertSame Γ x y : M V G Unit) w with ⟨r | e | k, w'⟩ <;> rw [hw] at h
  · exact h
  · cases nt <;> exact h
  · exact h

theorem quiet_unit {m : M V G Unit} (h : Quiet w (m w).2) (o : Obs V) : Quiet w ((m >>= fun _ => pure o) w).2 := by
  rcases hw : m w with ⟨r | e | k, w'⟩ <;> rw [hw] at h
  · rw [bind_ok hw]; exact h
  · rw [bind_throw hw]; exact h
  · rw [bind_abort hw]; exact h

/-- The body of `swap`. -/
def swapBody (Γ : Env V G) (x y : Nat) : M V G Unit := do
    let thisHas ← hasValue Γ x
    let otherHas ← hasValue Γ y
    if thisHas == otherHas then do
      if thisHas then do
        let a ← getPayload x
        let b ← getPayload y
        if x = y then do
          let (e, a') ← userPure (fun g => let (e, a', g') := (Γ x).ops.selfSwap a g; ((e, a'), g'))
          setPayload (Γ x).cfg x a'
          checkE e
        else do
          let (e, a', b') ← userPure (fun g => let (e, a', b', g') := (Γ x).ops.swap a b g; ((e, a', b'), g'))
          setPayload (Γ x).cfg x a'
          setPayload (Γ y).cfg y b'
          checkE e
      else pure ()
    else do
      if thisHas then do
        constructPayload Γ y (.moveOf x)
        reset Γ x
      else do
        constructPayload Γ x (.moveOf y)
        reset Γ y

theorem quiet_swap {x y : Nat} {u v : V} (hx : Holds Γ x u w) (hy : Holds Γ y v w) : Quiet w (swap Γ x y w).2 := by
  have C := quiet_closed Γ
  have hcl : Steps (Quiet : World V G → World V G → Prop) (do
        let a ← getPayload x
        let b ← getPayload y
        if x = y then do
          let (e, a') ← userPure (fun g => let (e, a', g') := (Γ x).ops.selfSwap a g; ((e, a'), g'))
          setPayload (Γ x).cfg x a'
          checkE e
        else do
          let (e, a', b') ← userPure (fun g => let (e, a', b', g') := (Γ x).ops.swap a b g; ((e, a', b'), g'))
          setPayload (Γ x).cfg x a'
          setPayload (Γ y).cfg y b'
          checkE e : M V G Unit) := by
    refine C.bind (C.getPayload x) fun a => C.bind (C.getPayload y) fun b => ?_
    split
    · exact C.bind (C.userPure _) fun p => C.bind (C.setPayload x _ trivial) fun _ => C.checkE _
    · exact C.bind (C.userPure _) fun p => C.bind (C.setPayload x _ trivial) fun _ =>
        C.bind (C.setPayload y _ trivial) fun _ => C.checkE _
  have hb : Quiet w (swapBody Γ x y w).2 := by
    unfold swapBody
    rw [bind_ok hx.1, bind_ok hy.1]
    exact hcl w
  show Quiet w (noexceptIf _ (swapBody Γ x y) w).2
  unfold noexceptIf
  rcases hw : swapBody Γ x y w with ⟨r | e | k, w'⟩ <;> rw [hw] at hb
  · exact hb
  · dsimp only; split <;> exact hb
  · exact hb

end
end Verif.Model
