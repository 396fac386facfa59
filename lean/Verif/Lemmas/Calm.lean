import Verif.Lemmas.Basic

/-! Helper lemmas: programs that do not throw / do not terminate, in any world whatsoever. -/

namespace Verif.Model
section
variable {V G α β : Type} {Γ : Env V G}

/-- `m` never throws. -/
def NoThrow (m : M V G α) : Prop := ∀ w e, (m w).1 ≠ .throw e
/-- `m` never calls `std::terminate`. -/
def NoTerm (m : M V G α) : Prop := ∀ w, (m w).1 ≠ .abort .terminate
/-- Neither. -/
def Calm (m : M V G α) : Prop := NoThrow m ∧ NoTerm m

theorem NoThrow.bind {m : M V G α} {f : α → M V G β} (hm : NoThrow m) (hf : ∀ a, NoThrow (f a)) : NoThrow (m >>= f) := by
  intro w e
  rcases h : m w with ⟨a | e' | k, w'⟩
  · rw [bind_ok h]; exact hf a w' e
  · exact absurd (by rw [h]) (hm w e')
  · rw [bind_abort h]; simp

theorem NoTerm.bind {m : M V G α} {f : α → M V G β} (hm : NoTerm m) (hf : ∀ a, NoTerm (f a)) : NoTerm (m >>= f) := by
  intro w
  rcases h : m w with ⟨a | e' | k, w'⟩
  · rw [bind_ok h]; exact hf a w'
  · rw [bind_throw h]; simp
  · rw [bind_abort h]
    have := hm w
    rw [h] at this
    intro hk
    exact this (by simpa using hk)

theorem Calm.bind {m : M V G α} {f : α → M V G β} (hm : Calm m) (hf : ∀ a, Calm (f a)) : Calm (m >>= f) :=
  ⟨hm.1.bind fun a => (hf a).1, hm.2.bind fun a => (hf a).2⟩

theorem calm_pure (a : α) : Calm (pure a : M V G α) := ⟨fun _ _ => by simp [pure_run], fun _ => by simp [pure_run]⟩
theorem calm_mpure (a : α) : Calm (M.pure a : M V G α) := calm_pure a
theorem calm_ub (k : UB) : Calm (ubM k : M V G α) := ⟨fun _ _ => by simp [ubM], fun _ => by simp [ubM]⟩
theorem noTerm_throwE (e : Exn) : NoTerm (throwE e : M V G α) := fun _ => by simp [throwE]
theorem calm_liftE (r : Except UB α) : Calm (liftE r : M V G α) := by
  cases r
  · exact calm_ub _
  · exact calm_mpure _
theorem calm_readStorage (x : Nat) : Calm (readStorage x : M V G (Storage V)) := by
  constructor
  · intro w e; unfold readStorage; split <;> simp
  · intro w; unfold readStorage; split <;> simp
theorem calm_writeStorage (x : Nat) (s : Storage V) : Calm (writeStorage x s : M V G Unit) := ⟨fun _ _ => by simp [writeStorage], fun _ => by simp [writeStorage]⟩
theorem calm_emit (e : Event) : Calm (emit e : M V G Unit) := ⟨fun _ _ => by simp [emit], fun _ => by simp [emit]⟩
theorem calm_freshId : Calm (freshId : M V G Nat) := ⟨fun _ _ => by simp [freshId], fun _ => by simp [freshId]⟩
theorem calm_allocate (x : Nat) : Calm (allocate x : M V G Unit) := by
  constructor
  · intro w e; unfold allocate; split <;> simp
  · intro w; unfold allocate; split <;> simp
theorem calm_release (x : Nat) : Calm (release x : M V G Unit) := by
  constructor
  · intro w e; unfold release; split <;> simp
  · intro w; unfold release; split <;> simp
theorem calm_userPure (f : G → α × G) : Calm (userPure f : M V G α) := ⟨fun _ _ => by simp [userPure], fun _ => by simp [userPure]⟩
theorem noTerm_userCall (f : G → Except Exn α × G) : NoTerm (userCall f : M V G α) := by
  intro w; unfold userCall; split <;> simp
theorem noThrow_userCall {f : G → Except Exn α × G} (h : ∀ g, ∃ a, (f g).1 = .ok a) : NoThrow (userCall f : M V G α) := by
  intro w e
  obtain ⟨a, ha⟩ := h w.user
  unfold userCall
  rcases hf : f w.user with ⟨r | r, g⟩ <;> rw [hf] at ha <;> simp at ha
  simp

theorem Calm.noexceptIf {m : M V G α} (h : Calm m) (b : Bool) : Calm (noexceptIf b m) := by
  constructor
  · intro w e
    rcases hw : m w with ⟨a | e' | k, w'⟩
    · rw [noexceptIf_ok hw]; simp
    · exact absurd (by rw [hw]) (h.1 w e')
    · rw [noexceptIf_abort hw]; simp
  · intro w
    rcases hw : m w with ⟨a | e' | k, w'⟩
    · rw [noexceptIf_ok hw]; simp
    · exact absurd (by rw [hw]) (h.1 w e')
    · rw [noexceptIf_abort hw]
      intro hk
      exact h.2 w (by rw [hw]; simpa using hk)

/-- `noexcept(b)` is harmless if the body does not throw when `b` holds. -/
theorem NoTerm.noexceptIf {m : M V G α} {b : Bool} (h : NoTerm m) (hb : b = true → NoThrow m) : NoTerm (noexceptIf b m) := by
  intro w
  rcases hw : m w with ⟨a | e' | k, w'⟩
  · rw [noexceptIf_ok hw]; simp
  · cases b
    · rw [noexceptIf_throw_false hw]; simp
    · exact absurd (by rw [hw]) (hb rfl w e')
  · rw [noexceptIf_abort hw]
    intro hk
    exact h w (by rw [hw]; simpa using hk)

theorem NoThrow.noexceptIf {m : M V G α} {b : Bool} (h : NoThrow m) : NoThrow (noexceptIf b m) := by
  intro w e
  rcases hw : m w with ⟨a | e' | k, w'⟩
  · rw [noexceptIf_ok hw]; simp
  · exact absurd (by rw [hw]) (h w e')
  · rw [noexceptIf_abort hw]; simp

theorem NoThrow.onThrow {m : M V G α} {h : M V G Unit} (hm : NoThrow m) : NoThrow (onThrow m h) := by
  intro w e
  rcases hw : m w with ⟨a | e' | k, w'⟩
  · rw [onThrow_ok hw]; simp
  · exact absurd (by rw [hw]) (hm w e')
  · rw [onThrow_abort hw]; simp

theorem NoTerm.onThrow {m : M V G α} {h : M V G Unit} (hm : NoTerm m) (hh : Calm h) : NoTerm (onThrow m h) := by
  intro w
  rcases hw : m w with ⟨a | e' | k, w'⟩
  · rw [onThrow_ok hw]; simp
  · rcases hw' : h w' with ⟨a | e'' | k, w''⟩
    · rw [onThrow_throw hw hw']; simp
    · exact absurd (by rw [hw']) (hh.1 w' e'')
    · have := hh.2 w'
      rw [hw'] at this
      simp only [Model.onThrow, hw, hw']
      intro hk
      exact this (by simpa using hk)
  · rw [onThrow_abort hw]
    intro hk
    exact hm w (by rw [hw]; simpa using hk)

theorem Calm.assertM {c : M V G Bool} (h : Calm c) (b : Bool) : Calm (assertM b c) := by
  unfold Model.assertM
  split
  · exact calm_mpure ()
  · exact h.bind fun r => by
      cases r
      · exact ⟨fun _ _ => by simp [abortM], fun _ => by simp [abortM]⟩
      · exact calm_mpure ()

theorem calm_hasValue (x : Nat) : Calm (hasValue Γ x) :=
  (calm_readStorage x).bind fun _ => (calm_liftE _).bind fun _ => calm_pure _
theorem calm_assertHas (x : Nat) (b : Bool) : Calm (assertHas Γ x b) :=
  Calm.assertM ((calm_hasValue x).bind fun _ => calm_pure _) _
theorem calm_assertSame (x y : Nat) : Calm (assertSame Γ x y) :=
  Calm.assertM ((calm_hasValue x).bind fun _ => (calm_hasValue y).bind fun _ => calm_pure _) _
theorem calm_initEmptyFlag (c : Config V) (x : Nat) : Calm (initEmptyFlag c x : M V G Unit) :=
  (calm_readStorage x).bind fun _ => calm_freshId.bind fun _ => (calm_liftE _).bind fun p => by
    obtain ⟨s', created⟩ := p
    refine (calm_writeStorage x s').bind fun _ => ?_
    cases created
    · exact calm_pure _
    · exact calm_emit _
theorem calm_destroyPayload (c : Config V) (d : V → G → G) (x : Nat) : Calm (destroyPayload c d x : M V G Unit) :=
  (calm_readStorage x).bind fun s => by
    rcases s.payload with _ | p
    · exact calm_ub _
    · exact (calm_userPure _).bind fun _ => (calm_writeStorage _ _).bind fun _ => calm_emit _
theorem calm_invalidate (c : Config V) (d : V → G → G) (x : Nat) : Calm (invalidateEmptyFlag c d x : M V G Unit) :=
  (calm_readStorage x).bind fun s => by
    have key : Calm (match s.flag with
          | some f => do
            writeStorage x { s with flag := none, bytes := fill s.bytes c.loc.off c.loc.size (fun _ => none) }
            emit (.flagInval f.id)
          | none =>
            match s.payload, c.decomp with
            | some _, .inplace => destroyPayload c d x
            | some _, _ => ubM .memberDestroyed
            | none, _ => ubM .noObject : M V G Unit) := by
      rcases s.flag with _ | f
      · dsimp only
        rcases s.payload with _ | p
        · exact calm_ub _
        · cases c.decomp
          · exact calm_ub _
          · exact calm_destroyPayload c d x
          · exact calm_ub _
      · exact (calm_writeStorage _ _).bind fun _ => calm_emit _
    cases c.manip with
    | separate => exact calm_writeStorage _ _
    | memcpy sent => exact key
    | assign sv eq => exact key
    | custom p ev => exact key
theorem calm_newPayload (c : Config V) (x : Nat) (v : V) : Calm (newPayload c x v : M V G Unit) :=
  (calm_readStorage x).bind fun s => by
    split
    · exact calm_ub _
    · exact calm_freshId.bind fun _ => (calm_writeStorage _ _).bind fun _ => calm_emit _
theorem calm_getPayload (x : Nat) : Calm (getPayload x : M V G V) :=
  (calm_readStorage x).bind fun s => by
    rcases s.payload with _ | p
    · exact calm_ub _
    · exact calm_pure _
theorem calm_setPayload (c : Config V) (x : Nat) (v : V) : Calm (setPayload c x v : M V G Unit) :=
  (calm_readStorage x).bind fun s => by
    rcases s.payload with _ | p
    · exact calm_ub _
    · exact calm_writeStorage _ _
theorem calm_reset (x : Nat) : Calm (reset Γ x) := by
  refine Calm.noexceptIf ((calm_hasValue x).bind fun b => ?_) _
  cases b
  · exact calm_pure _
  · exact (calm_destroyPayload _ _ x).bind fun _ => (calm_initEmptyFlag _ x).bind fun _ => calm_assertHas x false
theorem calm_storageDefaultCtor (x : Nat) : Calm (storageDefaultCtor Γ x) :=
  Calm.noexceptIf ((calm_allocate x).bind fun _ => (calm_initEmptyFlag _ x).bind fun _ => calm_assertHas x false) _
theorem calm_storageDtor (x : Nat) : Calm (storageDtor Γ x) := by
  refine Calm.noexceptIf ((calm_hasValue x).bind fun b => ?_) _
  cases b
  · exact calm_release x
  · exact (calm_destroyPayload _ _ x).bind fun _ => calm_release x
theorem calm_deref (x : Nat) : Calm (deref Γ x) :=
  Calm.noexceptIf ((calm_assertHas x true).bind fun _ => calm_getPayload x) _

theorem noTerm_checkE (e : Option Exn) : NoTerm (checkE e : M V G Unit) := by
  cases e
  · exact (calm_pure _).2
  · exact noTerm_throwE _
theorem calm_checkE : Calm (checkE none : M V G Unit) := calm_pure _

/-! ### Constructions -/

theorem noTerm_result (r : Except Exn α) : NoTerm (match r with | .ok a => pure a | .error e => throwE e : M V G α) := by
  cases r
  · exact noTerm_throwE _
  · exact (calm_pure _).2

theorem noTerm_evalArg (o : Ops V G) (a : Arg V G) : NoTerm (evalArg Γ o a) := by
  cases a with
  | ext nt c => exact noTerm_userCall c
  | copyOf y => exact (calm_getPayload y).2.bind fun v => noTerm_userCall _
  | moveOf y =>
    exact (calm_getPayload y).2.bind fun v => (calm_userPure _).2.bind fun p => (calm_setPayload _ _ _).2.bind fun _ =>
      noTerm_result p.1

theorem noThrow_evalArg {o : Ops V G} (ho : o.Lawful) {a : Arg V G} (ha : ArgLawful a) (hn : nothrowArg o a = true) :
    NoThrow (evalArg Γ o a) := by
  cases a with
  | ext nt c => exact noThrow_userCall (ha hn)
  | copyOf y => exact (calm_getPayload y).1.bind fun v => noThrow_userCall (ho.copyCtor hn v)
  | moveOf y =>
    refine (calm_getPayload y).1.bind fun v => ?_
    intro w e
    obtain ⟨v', hv'⟩ := ho.moveCtor hn v w.user
    rcases hm : o.moveCtor v w.user with ⟨r, s', g'⟩
    rw [hm] at hv'
    simp only at hv'
    subst hv'
    have hu : userPure (fun g => let (r, v', g') := o.moveCtor v g; ((r, v'), g')) w =
        (.ok (.ok v', s'), { w with user := g' }) := by simp [userPure, hm]
    rw [bind_ok hu]
    exact ((calm_setPayload (Γ y).cfg y s').1.bind fun _ => (calm_pure v').1) _ e

theorem noTerm_constructWith (x : Nat) {nt : Bool} {mk : M V G V} (h : NoTerm mk) (hn : nt = true → NoThrow mk) :
    NoTerm (constructWith Γ x nt mk) := by
  unfold constructWith
  have hbody : NoTerm (mk >>= fun v => newPayload (Γ x).cfg x v) := h.bind fun v => (calm_newPayload _ _ _).2
  refine NoTerm.noexceptIf ?_ ?_
  · refine (calm_assertHas x false).2.bind fun _ => (calm_invalidate _ _ _).2.bind fun _ => ?_
    cases nt
    · exact (hbody.onThrow (calm_initEmptyFlag _ _)).bind fun _ => (calm_assertHas x true).2
    · exact h.bind fun v => (calm_newPayload _ _ _).2.bind fun _ => (calm_assertHas x true).2
  · rintro rfl
    exact (calm_assertHas x false).1.bind fun _ => (calm_invalidate _ _ _).1.bind fun _ =>
      (hn rfl).bind fun v => (calm_newPayload _ _ _).1.bind fun _ => (calm_assertHas x true).1

theorem noThrow_constructWith (x : Nat) {nt : Bool} {mk : M V G V} (hn : NoThrow mk) :
    NoThrow (constructWith Γ x nt mk) := by
  unfold constructWith
  refine NoThrow.noexceptIf ?_
  refine (calm_assertHas x false).1.bind fun _ => (calm_invalidate _ _ _).1.bind fun _ => ?_
  cases nt
  · exact (NoThrow.onThrow (hn.bind fun v => (calm_newPayload _ _ _).1)).bind fun _ => (calm_assertHas x true).1
  · exact hn.bind fun v => (calm_newPayload _ _ _).1.bind fun _ => (calm_assertHas x true).1

variable (hΓ : EnvWF Γ)
include hΓ

theorem noTerm_constructPayload (x : Nat) {a : Arg V G} (ha : ArgLawful a) : NoTerm (constructPayload Γ x a) :=
  noTerm_constructWith x (noTerm_evalArg _ a) fun hn => noThrow_evalArg (hΓ.ops x) ha hn

theorem noThrow_constructPayload (x : Nat) {a : Arg V G} (ha : ArgLawful a) (hn : nothrowArg (Γ x).ops a = true) :
    NoThrow (constructPayload Γ x a) :=
  noThrow_constructWith x (noThrow_evalArg (hΓ.ops x) ha hn)

omit hΓ in
theorem noTerm_payloadAssign (x : Nat) (a : AArg V G) : NoTerm (payloadAssign Γ x a) := by
  cases a with
  | ext f nt c =>
    exact (calm_getPayload x).2.bind fun v => (calm_userPure _).2.bind fun p => (calm_setPayload _ _ _).2.bind fun _ =>
      noTerm_checkE _
  | copyOf y =>
    exact (calm_getPayload x).2.bind fun v => (calm_getPayload y).2.bind fun s => (calm_userPure _).2.bind fun p =>
      (calm_setPayload _ _ _).2.bind fun _ => noTerm_checkE _
  | moveOf y =>
    refine (calm_getPayload x).2.bind fun v => (calm_getPayload y).2.bind fun s => ?_
    split
    · exact (calm_userPure _).2.bind fun p => (calm_setPayload _ _ _).2.bind fun _ => noTerm_checkE _
    · exact (calm_userPure _).2.bind fun p => (calm_setPayload _ _ _).2.bind fun _ => (calm_setPayload _ _ _).2.bind fun _ =>
        noTerm_checkE _

theorem noThrow_payloadMoveAssign (x y : Nat) (hn : (Γ x).ops.nothrowMoveAssign = true) :
    NoThrow (payloadAssign Γ x (.moveOf y)) := by
  refine (calm_getPayload x).1.bind fun v => (calm_getPayload y).1.bind fun s => ?_
  split
  · intro w e
    have h := (hΓ.ops x).selfMoveAssign hn v w.user
    rcases hm : (Γ x).ops.selfMoveAssign v w.user with ⟨r, v', g'⟩
    rw [hm] at h
    simp only at h
    subst h
    have hu : userPure (fun g => let (e, v', g') := (Γ x).ops.selfMoveAssign v g; ((e, v'), g')) w =
        (.ok (none, v'), { w with user := g' }) := by simp [userPure, hm]
    rw [bind_ok hu]
    exact ((calm_setPayload (Γ x).cfg x v').1.bind fun _ => calm_checkE.1) _ e
  · intro w e
    have h := (hΓ.ops x).moveAssign hn v s w.user
    rcases hm : (Γ x).ops.moveAssign v s w.user with ⟨r, v', s', g'⟩
    rw [hm] at h
    simp only at h
    subst h
    have hu : userPure (fun g => let (e, v', s', g') := (Γ x).ops.moveAssign v s g; ((e, v', s'), g')) w =
        (.ok (none, v', s'), { w with user := g' }) := by simp [userPure, hm]
    rw [bind_ok hu]
    exact ((calm_setPayload (Γ x).cfg x v').1.bind fun _ => (calm_setPayload (Γ y).cfg y s').1.bind fun _ => calm_checkE.1) _ e

theorem noTerm_assignValue (x : Nat) {a : AArg V G} (ha : AArgLawful a) : NoTerm (assignValue Γ x a) := by
  refine (calm_hasValue x).2.bind fun b => ?_
  cases b
  · exact (noTerm_constructPayload hΓ x (by cases a <;> exact ha)).bind fun _ => (calm_assertHas x true).2
  · exact (noTerm_payloadAssign x a).bind fun _ => (calm_assertHas x true).2

theorem noThrow_moveAssignValue (x y : Nat) (hn : (Γ x).ops.nothrowMoveAssign = true) (hc : (Γ x).ops.nothrowMoveCtor = true) :
    NoThrow (assignValue Γ x (.moveOf y)) := by
  refine (calm_hasValue x).1.bind fun b => ?_
  cases b
  · exact (noThrow_constructPayload hΓ x (a := .moveOf y) trivial hc).bind fun _ => (calm_assertHas x true).1
  · exact (noThrow_payloadMoveAssign hΓ x y hn).bind fun _ => (calm_assertHas x true).1

theorem noTerm_copyOrMoveCtor (x y : Nat) {nt : Bool} {a : Arg V G} (ha : ArgLawful a)
    (hn : nt = true → nothrowArg (Γ x).ops a = true) : NoTerm (copyOrMoveCtor Γ nt a x y) := by
  refine NoTerm.noexceptIf ?_ fun h => ?_
  · refine (calm_storageDefaultCtor x).2.bind fun _ => NoTerm.onThrow ?_ (calm_storageDtor x)
    refine (calm_hasValue y).2.bind fun b => ?_
    cases b
    · exact (calm_assertHas x false).2.bind fun _ => (calm_assertSame x y).2
    · exact (noTerm_constructPayload hΓ x ha).bind fun _ => (calm_assertSame x y).2
  · refine (calm_storageDefaultCtor x).1.bind fun _ => NoThrow.onThrow ?_
    refine (calm_hasValue y).1.bind fun b => ?_
    cases b
    · exact (calm_assertHas x false).1.bind fun _ => (calm_assertSame x y).1
    · exact (noThrow_constructPayload hΓ x ha (hn h)).bind fun _ => (calm_assertSame x y).1

theorem noThrow_copyOrMoveCtor (x y : Nat) {nt : Bool} {a : Arg V G} (ha : ArgLawful a)
    (hn : nothrowArg (Γ x).ops a = true) : NoThrow (copyOrMoveCtor Γ nt a x y) := by
  refine NoThrow.noexceptIf ?_
  refine (calm_storageDefaultCtor x).1.bind fun _ => NoThrow.onThrow ?_
  refine (calm_hasValue y).1.bind fun b => ?_
  cases b
  · exact (calm_assertHas x false).1.bind fun _ => (calm_assertSame x y).1
  · exact (noThrow_constructPayload hΓ x ha hn).bind fun _ => (calm_assertSame x y).1

theorem noThrow_moveAssign (x y : Nat) (hn : (Γ x).ops.nothrowMoveAssign = true) (hc : (Γ x).ops.nothrowMoveCtor = true) :
    NoThrow (moveAssign Γ x y) := by
  refine NoThrow.noexceptIf ((calm_hasValue y).1.bind fun b => ?_)
  cases b
  · exact (calm_reset x).1.bind fun _ => (calm_assertSame x y).1
  · exact (noThrow_moveAssignValue hΓ x y hn hc).bind fun _ => (calm_assertSame x y).1

theorem noTerm_copyOrMoveAssign (x y : Nat) {nt : Bool} {a : AArg V G} (ha : AArgLawful a)
    (hn : nt = true → NoThrow (assignValue Γ x a)) : NoTerm (copyOrMoveAssign Γ nt a x y) := by
  refine NoTerm.noexceptIf ((calm_hasValue y).2.bind fun b => ?_) fun h => (calm_hasValue y).1.bind fun b => ?_
  · cases b
    · exact (calm_reset x).2.bind fun _ => (calm_assertSame x y).2
    · exact (noTerm_assignValue hΓ x ha).bind fun _ => (calm_assertSame x y).2
  · cases b
    · exact (calm_reset x).1.bind fun _ => (calm_assertSame x y).1
    · exact (hn h).bind fun _ => (calm_assertSame x y).1

theorem noTerm_moveAssign (x y : Nat) : NoTerm (moveAssign Γ x y) :=
  noTerm_copyOrMoveAssign hΓ x y trivial fun h => by
    simp only [Bool.and_eq_true] at h
    exact noThrow_moveAssignValue hΓ x y h.1 h.2

theorem noThrow_swapPayloads (x y : Nat) (hs : (Γ x).ops.nothrowSwap = true) :
    NoThrow (do
        let a ← getPayload x
        let b ← getPayload y
        if x = y then do
          let (e, a') ← userPure (fun g => let (e, a', g') := (Γ x).ops.selfSwap a g; ((e, a'), g'))
          setPayload (Γ x).cfg x a'
          checkE e
        else do
          let (e, a', b') ← userPure (fun g => let (e, a', b', g') := (Γ x).ops.swap a b g; ((e, a', b'), g'))
          setPayload (Γ x).cfg x a'
          setPayload (Γ y).cfg y b'
          checkE e : M V G Unit) := by
  refine (calm_getPayload x).1.bind fun a => (calm_getPayload y).1.bind fun b => ?_
  split
  · intro w e
    have h := (hΓ.ops x).selfSwap hs a w.user
    rcases hm : (Γ x).ops.selfSwap a w.user with ⟨r, v', g'⟩
    rw [hm] at h
    simp only at h
    subst h
    have hu : userPure (fun g => let (e, a', g') := (Γ x).ops.selfSwap a g; ((e, a'), g')) w =
        (.ok (none, v'), { w with user := g' }) := by simp [userPure, hm]
    rw [bind_ok hu]
    exact ((calm_setPayload (Γ x).cfg x v').1.bind fun _ => calm_checkE.1) _ e
  · intro w e
    have h := (hΓ.ops x).swap hs a b w.user
    rcases hm : (Γ x).ops.swap a b w.user with ⟨r, v', s', g'⟩
    rw [hm] at h
    simp only at h
    subst h
    have hu : userPure (fun g => let (e, a', b', g') := (Γ x).ops.swap a b g; ((e, a', b'), g')) w =
        (.ok (none, v', s'), { w with user := g' }) := by simp [userPure, hm]
    rw [bind_ok hu]
    exact ((calm_setPayload (Γ x).cfg x v').1.bind fun _ => (calm_setPayload (Γ y).cfg y s').1.bind fun _ => calm_checkE.1) _ e

omit hΓ in
theorem noTerm_swapPayloads (x y : Nat) :
    NoTerm (do
        let a ← getPayload x
        let b ← getPayload y
        if x = y then do
          let (e, a') ← userPure (fun g => let (e, a', g') := (Γ x).ops.selfSwap a g; ((e, a'), g'))
          setPayload (Γ x).cfg x a'
          checkE e
        else do
          let (e, a', b') ← userPure (fun g => let (e, a', b', g') := (Γ x).ops.swap a b g; ((e, a', b'), g'))
          setPayload (Γ x).cfg x a'
          setPayload (Γ y).cfg y b'
          checkE e : M V G Unit) := by
  refine (calm_getPayload x).2.bind fun a => (calm_getPayload y).2.bind fun b => ?_
  split
  · exact (calm_userPure _).2.bind fun p => (calm_setPayload _ _ _).2.bind fun _ => noTerm_checkE _
  · exact (calm_userPure _).2.bind fun p => (calm_setPayload _ _ _).2.bind fun _ => (calm_setPayload _ _ _).2.bind fun _ =>
      noTerm_checkE _

theorem swap_calm (x y : Nat) (hops : (Γ x).ops = (Γ y).ops) : NoTerm (swap Γ x y) ∧
    ((Γ x).ops.nothrowMoveCtor = true → (Γ x).ops.nothrowSwap = true → NoThrow (swap Γ x y)) := by
  have h2 : (Γ x).ops.nothrowMoveCtor = true → (Γ x).ops.nothrowSwap = true → NoThrow (do
    let thisHas ← hasValue Γ x
    let otherHas ← hasValue Γ y
    if thisHas == otherHas then do
      if thisHas then do
        let a ← getPayload x
        let b ← getPayload y
        if x = y then do
          let (e, a') ← userPure (fun g => let (e, a', g') := (Γ x).ops.selfSwap a g; ((e, a'), g'))
          setPayload (Γ x).cfg x a'
          checkE e
        else do
          let (e, a', b') ← userPure (fun g => let (e, a', b', g') := (Γ x).ops.swap a b g; ((e, a', b'), g'))
          setPayload (Γ x).cfg x a'
          setPayload (Γ y).cfg y b'
          checkE e
      else pure ()
    else do
      if thisHas then do
        constructPayload Γ y (.moveOf x)
        reset Γ x
      else do
        constructPayload Γ x (.moveOf y)
        reset Γ y : M V G Unit) := by
    intro hc hs
    refine (calm_hasValue x).1.bind fun b1 => (calm_hasValue y).1.bind fun b2 => ?_
    cases b1 <;> cases b2
    · exact (calm_pure _).1
    · exact (noThrow_constructPayload hΓ x (a := .moveOf y) trivial hc).bind fun _ => (calm_reset y).1
    · exact (noThrow_constructPayload hΓ y (a := .moveOf x) trivial (hops ▸ hc)).bind fun _ => (calm_reset x).1
    · exact noThrow_swapPayloads hΓ x y hs
  refine ⟨NoTerm.noexceptIf ?_ fun h => ?_, fun hc hs => NoThrow.noexceptIf (h2 hc hs)⟩
  · refine (calm_hasValue x).2.bind fun b1 => (calm_hasValue y).2.bind fun b2 => ?_
    cases b1 <;> cases b2
    · exact (calm_pure _).2
    · exact (noTerm_constructPayload hΓ x (a := .moveOf y) trivial).bind fun _ => (calm_reset y).2
    · exact (noTerm_constructPayload hΓ y (a := .moveOf x) trivial).bind fun _ => (calm_reset x).2
    · exact noTerm_swapPayloads x y
  · simp only [Bool.and_eq_true] at h
    exact h2 h.1 h.2

theorem noTerm_inPlaceCtor (x : Nat) {a : Arg V G} (ha : ArgLawful a) : NoTerm (inPlaceCtor Γ x a) :=
  (calm_allocate x).2.bind fun _ => NoTerm.onThrow
    ((calm_initEmptyFlag _ x).2.bind fun _ => noTerm_constructPayload hΓ x ha) (calm_release x)

theorem noThrow_inPlaceCtor (x : Nat) {a : Arg V G} (ha : ArgLawful a) (hn : nothrowArg (Γ x).ops a = true) :
    NoThrow (inPlaceCtor Γ x a) :=
  (calm_allocate x).1.bind fun _ => NoThrow.onThrow
    ((calm_initEmptyFlag _ x).1.bind fun _ => noThrow_constructPayload hΓ x ha hn)

theorem noTerm_materialize (x : Nat) (o : Option V) : NoTerm (materialize Γ x o) := by
  cases o
  · exact (calm_storageDefaultCtor x).2
  · exact noTerm_inPlaceCtor hΓ x (fun _ _ => ⟨_, rfl⟩)

omit hΓ in
theorem noTerm_invokeOn (x : Nat) (f : V → G → Except Exn α × V × G) : NoTerm (invokeOn Γ x f) :=
  (calm_deref x).2.bind fun _ => (calm_userPure _).2.bind fun p => (calm_setPayload _ _ _).2.bind fun _ => noTerm_result p.1

end
end Verif.Model
