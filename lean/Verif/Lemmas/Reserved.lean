import Verif.Lemmas.Step

/-! Helper lemmas: what happens when a reserved value is stored. -/

namespace Verif.Model
section
variable {V G α β : Type} {Γ : Env V G} {w w' : World V G}

/-! ### Inversion of successful runs -/

theorem bind_ok_inv {m : M V G α} {f : α → M V G β} {b : β} (h : (m >>= f) w = (.ok b, w')) :
    ∃ a w₁, m w = (.ok a, w₁) ∧ f a w₁ = (.ok b, w') := by
  rcases hm : m w with ⟨a | e | k, w₁⟩
  · rw [bind_ok hm] at h; exact ⟨a, w₁, rfl, h⟩
  · rw [bind_throw hm] at h; simp at h
  · rw [bind_abort hm] at h; simp at h

theorem noexceptIf_ok_inv {b : Bool} {m : M V G α} {a : α} (h : noexceptIf b m w = (.ok a, w')) : m w = (.ok a, w') := by
  rcases hm : m w with ⟨a' | e | k, w₁⟩
  · rw [noexceptIf_ok hm] at h; exact h
  · cases b
    · rw [noexceptIf_throw_false hm] at h; simp at h
    · rw [noexceptIf_throw_true hm] at h; simp at h
  · rw [noexceptIf_abort hm] at h; simp at h

theorem onThrow_ok_inv {m : M V G α} {hd : M V G Unit} {a : α} (h : onThrow m hd w = (.ok a, w')) : m w = (.ok a, w') := by
  rcases hm : m w with ⟨a' | e | k, w₁⟩
  · rw [onThrow_ok hm] at h; exact h
  · rcases hh : hd w₁ with ⟨u | e' | k, w₂⟩ <;> simp [onThrow, hm, hh] at h
  · rw [onThrow_abort hm] at h; simp at h

theorem hasValue_eq (Γ : Env V G) (x : Nat) (w : World V G) : hasValue Γ x w = match w.mem x with
    | none => (.abort (.ub .noOptional), w)
    | some s => match (Γ x).cfg.isEmpty s with
      | .ok e => (.ok (!e), w)
      | .error k => (.abort (.ub k), w) := by
  rcases hs : w.mem x with _ | s
  · exact bind_abort (readStorage_none hs)
  · refine (bind_ok (readStorage_ok hs)).trans ?_
    dsimp only; rcases he : (Γ x).cfg.isEmpty s with k | e <;> rfl

theorem hasValue_world {x b} (h : hasValue Γ x w = (.ok b, w')) : w' = w := by
  rw [hasValue_eq] at h
  split at h
  · simp at h
  · split at h <;> simp at h
    exact h.2.symm

theorem hasValue_ok {x b} (h : hasValue Γ x w = (.ok b, w')) : hasValue Γ x w = (.ok b, w) := by
  rw [h, hasValue_world h]

/-- A passed `assert(has_value() == b)`. -/
theorem assertHas_inv {x b} (hd : (Γ x).cfg.ndebug = false) (h : assertHas Γ x b w = (.ok (), w')) :
    w' = w ∧ hasValue Γ x w = (.ok b, w) := by
  unfold assertHas assertM at h
  rw [hd] at h
  simp only [Bool.false_eq_true, if_false] at h
  obtain ⟨c, w₁, h1, h⟩ := bind_ok_inv (m := _) h
  obtain ⟨b', w₂, h2, h3⟩ := bind_ok_inv h1
  have := hasValue_world h2
  subst this
  simp only [pure_run, Prod.mk.injEq, Res.ok.injEq] at h3
  obtain ⟨rfl, rfl⟩ := h3
  cases hb : (b' == b) <;> rw [hb] at h <;> simp [abortM, M.pure] at h
  subst h
  have : b' = b := by simpa using hb
  subst this
  exact ⟨rfl, h2⟩

theorem assertSame_inv {x y} (hd : (Γ x).cfg.ndebug = false) (h : assertSame Γ x y w = (.ok (), w')) :
    w' = w ∧ ∃ b, hasValue Γ x w = (.ok b, w) ∧ hasValue Γ y w = (.ok b, w) := by
  unfold assertSame assertM at h
  rw [hd] at h
  simp only [Bool.false_eq_true, if_false] at h
  obtain ⟨c, w₁, h1, h⟩ := bind_ok_inv (m := _) h
  obtain ⟨b1, w₂, h2, h3⟩ := bind_ok_inv h1
  have := hasValue_world h2
  subst this
  obtain ⟨b2, w₃, h4, h5⟩ := bind_ok_inv h3
  have := hasValue_world h4
  subst this
  simp only [pure_run, Prod.mk.injEq, Res.ok.injEq] at h5
  obtain ⟨rfl, rfl⟩ := h5
  cases hb : (b1 == b2) <;> rw [hb] at h <;> simp [abortM, M.pure] at h
  subst h
  have : b1 = b2 := by simpa using hb
  subst this
  exact ⟨rfl, b1, h2, h4⟩

theorem getPayload_world {x v} (h : getPayload x w = (.ok v, w')) : w' = w := by
  rcases hs : w.mem x with _ | s
  · unfold getPayload at h
    rw [bind_abort (readStorage_none hs)] at h
    simp at h
  · unfold getPayload at h
    rw [bind_ok (readStorage_ok hs)] at h
    rcases hp : s.payload with _ | p <;> simp only [hp] at h
    · simp [ubM] at h
    · simp only [pure_run, Prod.mk.injEq] at h; exact h.2.symm

theorem constructWith_engaged {x nt mk} (hd : (Γ x).cfg.ndebug = false) (h : constructWith Γ x nt mk w = (.ok (), w')) :
    hasValue Γ x w' = (.ok true, w') := by
  have h := noexceptIf_ok_inv h
  obtain ⟨_, w₁, _, h⟩ := bind_ok_inv h
  obtain ⟨_, w₂, _, h⟩ := bind_ok_inv h
  cases nt
  · simp only [Bool.false_eq_true, if_false] at h
    obtain ⟨_, w₃, _, h⟩ := bind_ok_inv h
    have := assertHas_inv hd h
    rw [this.1]; exact this.2
  · simp only [if_true] at h
    obtain ⟨_, w₃, _, h⟩ := bind_ok_inv h
    obtain ⟨_, w₄, _, h⟩ := bind_ok_inv h
    have := assertHas_inv hd h
    rw [this.1]; exact this.2

theorem assignValue_engaged {x a} (hd : (Γ x).cfg.ndebug = false) (h : assignValue Γ x a w = (.ok (), w')) :
    hasValue Γ x w' = (.ok true, w') := by
  obtain ⟨b, w₁, _, h⟩ := bind_ok_inv h
  cases b
  · obtain ⟨_, w₂, _, h⟩ := bind_ok_inv h
    have := assertHas_inv hd h
    rw [this.1]; exact this.2
  · obtain ⟨_, w₂, _, h⟩ := bind_ok_inv h
    have := assertHas_inv hd h
    rw [this.1]; exact this.2

theorem hasValue_congr {x b} (hm : w'.mem x = w.mem x) (h : hasValue Γ x w = (.ok b, w)) : hasValue Γ x w' = (.ok b, w') := by
  rw [hasValue_eq] at h ⊢
  rw [hm]
  rcases hs : w.mem x with _ | s <;> simp only [hs] at h ⊢
  · simp at h
  · rcases he : (Γ x).cfg.isEmpty s with k | e <;> simp only [he] at h ⊢
    · simp at h
    · simpa using h

/-! ### Explicit evaluation -/

/-- Like `Full`, without saying that the value is storable. -/
def FullAny (c : Config V) (s : Storage V) (v : V) : Prop :=
  (∃ id, s.payload = some ⟨id, v⟩) ∧ s.flag = none ∧ (∀ i, i < c.size → s.bytes i = c.repr v i) ∧
  (c.manip = .separate → s.bytes c.size = some 0#8)

theorem isEmpty_reserved {c : Config V} (hc : c.WF) {s v} (h : FullAny c s v) (hr : c.Reserved v) : c.isEmpty s = .ok true := by
  obtain ⟨⟨id, hp⟩, hf, hb, hsep⟩ := h
  unfold Config.isEmpty
  unfold Config.Reserved at hr
  have hin := hc.inside
  cases hm : c.manip with
  | separate => simp only [hm] at hr
  | memcpy sent =>
    simp only [hm] at hr ⊢
    have hs := hc.sentinelFits sent hm
    rw [if_pos (by omega)]
    refine memcmpEq_true _ _ _ fun i hi => ?_
    rw [hb _ (by omega)]; exact hr i hi
  | assign sv eq => simp only [hm] at hr ⊢; simp [Config.readFlag, hf, hp, hr]
  | custom p ev => simp only [hm] at hr ⊢; simp [Config.readFlag, hf, hp, hr]

theorem Full.any {c : Config V} {s v} (h : Full c s v) : FullAny c s v := ⟨h.1, h.2.1, h.2.2.1, h.2.2.2.1⟩
theorem FullAny.full {c : Config V} {s v} (h : FullAny c s v) (hs : c.Storable v) : Full c s v := ⟨h.1, h.2.1, h.2.2.1, h.2.2.2, hs⟩

/-- `newPayload` on raw storage. -/
theorem newPayload_run {x : Nat} {v : V} {s : Storage V} (hs : w.mem x = some s) (hr : Raw (Γ x).cfg s) :
    ∃ w' s', newPayload (Γ x).cfg x v w = (.ok (), w') ∧ w'.mem = upd w.mem x (some s') ∧ FullAny (Γ x).cfg s' v ∧
      s'.payload = some ⟨w.nextObj, v⟩ ∧ w'.user = w.user ∧ w'.log = w.log ++ [.payloadCtor w.nextObj] := by
  obtain ⟨⟨hp, hf⟩, hsep⟩ := hr
  unfold newPayload
  rw [bind_ok (readStorage_ok hs)]
  simp only [hp, hf, Option.isSome_none, Bool.false_eq_true, or_self, if_false]
  refine ⟨_, _, rfl, rfl, ⟨⟨_, rfl⟩, rfl, ?_, ?_⟩, rfl, rfl, rfl⟩
  · intro i hi
    have := fill_in (b := s.bytes) (off := 0) (f := (Γ x).cfg.repr v) hi
    simpa using this
  · intro hm
    have := fill_out (b := s.bytes) (off := 0) (n := (Γ x).cfg.size) (f := (Γ x).cfg.repr v) (i := (Γ x).cfg.size) (Or.inr (by omega))
    simpa [this] using hsep hm

/-- `setPayload` on an engaged variable. -/
theorem setPayload_run {x : Nat} {v v' : V} {s : Storage V} {c : Config V} (hs : w.mem x = some s) (hr : FullAny c s v) :
    ∃ s', setPayload c x v' w = (.ok (), { w with mem := upd w.mem x (some s') }) ∧ FullAny c s' v' ∧
      s'.payload.map (·.id) = s.payload.map (·.id) := by
  obtain ⟨⟨id, hp⟩, hf, hb, hsep⟩ := hr
  unfold setPayload
  rw [bind_ok (readStorage_ok hs)]
  simp only [hp]
  refine ⟨_, rfl, ⟨⟨_, rfl⟩, hf, ?_, ?_⟩, by simp⟩
  · intro i hi
    have := fill_in (b := s.bytes) (off := 0) (f := c.repr v') hi
    simpa using this
  · intro hm
    have := fill_out (b := s.bytes) (off := 0) (n := c.size) (f := c.repr v') (i := c.size) (Or.inr (by omega))
    simpa [this] using hsep hm

/-- A failing assertion. -/
theorem assertHas_fail {x b} (hd : (Γ x).cfg.ndebug = false) (h : hasValue Γ x w = (.ok (!b), w)) :
    assertHas Γ x b w = (.abort .assertFail, w) := by
  unfold assertHas assertM
  rw [hd]
  simp only [Bool.false_eq_true, if_false]
  show M.bind _ _ w = _
  unfold M.bind
  rw [bind_ok h]
  cases b <;> rfl

theorem assertHas_off {x b} (hd : (Γ x).cfg.ndebug = true) : assertHas Γ x b w = (.ok (), w) := by
  unfold assertHas assertM
  rw [hd]; rfl

theorem assertSame_fail {x y b} (hd : (Γ x).cfg.ndebug = false) (h : hasValue Γ x w = (.ok b, w))
    (h' : hasValue Γ y w = (.ok (!b), w)) : assertSame Γ x y w = (.abort .assertFail, w) := by
  unfold assertSame assertM
  rw [hd]
  simp only [Bool.false_eq_true, if_false]
  show M.bind _ _ w = _
  unfold M.bind
  rw [bind_ok h, bind_ok h']
  cases b <;> rfl

theorem assertSame_off {x y} (hd : (Γ x).cfg.ndebug = true) : assertSame Γ x y w = (.ok (), w) := by
  unfold assertSame assertM
  rw [hd]; rfl

/-- What the caller finds when a reserved value `v` was stored in `x`: an assertion failed, or (NDEBUG) the call went
through and left `x` looking empty, with a live payload `v` in it. -/
def Caught (Γ : Env V G) (x : Nat) (v : V) (r : Res α) (w' : World V G) (a : α) : Prop :=
  ((Γ x).cfg.ndebug = false ∧ r = .abort .assertFail) ∨
  ((Γ x).cfg.ndebug = true ∧ r = .ok a ∧ ∃ s, w'.mem x = some s ∧ FullAny (Γ x).cfg s v)

theorem Caught.bind {x v} {m : M V G Unit} {f : Unit → M V G β} {b : β} (h : ∃ w', Caught Γ x v (m w).1 w' () ∧ (m w).2 = w')
    (hf : (Γ x).cfg.ndebug = true → ∀ w₁ s, w₁.mem x = some s → FullAny (Γ x).cfg s v →
      ∃ w₂, f () w₁ = (.ok b, w₂) ∧ ∃ s, w₂.mem x = some s ∧ FullAny (Γ x).cfg s v) :
    Caught Γ x v ((m >>= f) w).1 ((m >>= f) w).2 b := by
  obtain ⟨w₁, h, rfl⟩ := h
  rcases h with ⟨hd, hr⟩ | ⟨hd, hr, s, hs, hF⟩
  · have : m w = (.abort .assertFail, (m w).2) := by rw [← hr]
    rw [bind_abort this]
    exact .inl ⟨hd, rfl⟩
  · have : m w = (.ok (), (m w).2) := by rw [← hr]
    rw [bind_ok this]
    obtain ⟨w₂, h2, hs2⟩ := hf hd _ _ hs hF
    rw [h2]
    exact .inr ⟨hd, rfl, hs2⟩

theorem Caught.noexceptIf {x v b} {m : M V G α} {a : α} (h : Caught Γ x v (m w).1 (m w).2 a) :
    Caught Γ x v (noexceptIf b m w).1 (noexceptIf b m w).2 a := by
  rcases h with ⟨hd, hr⟩ | ⟨hd, hr, hs⟩
  · have : m w = (.abort .assertFail, (m w).2) := by rw [← hr]
    rw [noexceptIf_abort this]
    exact .inl ⟨hd, rfl⟩
  · have : m w = (.ok a, (m w).2) := by rw [← hr]
    rw [noexceptIf_ok this]
    exact .inr ⟨hd, rfl, hs⟩

theorem Caught.onThrow {x v} {m : M V G α} {h' : M V G Unit} {a : α} (h : Caught Γ x v (m w).1 (m w).2 a) :
    Caught Γ x v (onThrow m h' w).1 (onThrow m h' w).2 a := by
  rcases h with ⟨hd, hr⟩ | ⟨hd, hr, hs⟩
  · have : m w = (.abort .assertFail, (m w).2) := by rw [← hr]
    rw [onThrow_abort this]
    exact .inl ⟨hd, rfl⟩
  · have : m w = (.ok a, (m w).2) := by rw [← hr]
    rw [onThrow_ok this]
    exact .inr ⟨hd, rfl, hs⟩

/-- The assertion at the end of a store. -/
theorem caught_assert {x v s} (hΓ : EnvWF Γ) (hs : w.mem x = some s) (hF : FullAny (Γ x).cfg s v)
    (hv : (Γ x).cfg.Reserved v) : Caught Γ x v (assertHas Γ x true w).1 (assertHas Γ x true w).2 () := by
  have hh : hasValue Γ x w = (.ok false, w) := by
    rw [hasValue_run hs (isEmpty_reserved (hΓ.cfg x) hF hv)]; rfl
  cases hd : (Γ x).cfg.ndebug
  · rw [assertHas_fail hd hh]; exact .inl ⟨hd, rfl⟩
  · rw [assertHas_off hd]; exact .inr ⟨hd, rfl, s, hs, hF⟩

/-- Constructing a reserved value in an empty optional. -/
theorem constructWith_reserved {vars : Nat → Option (Option V)} {g : G} {nt : Bool} {mk : M V G V} {v : V} {x : Nat}
    (hΓ : EnvWF Γ) (h : R Γ none w vars g) (hx : vars x = some none) (hv : (Γ x).cfg.Reserved v)
    (hmk : ∀ w₁, R Γ (some (x, Raw (Γ x).cfg)) w₁ vars g → ∃ w₂, mk w₁ = (.ok v, w₂) ∧ w₂.mem x = w₁.mem x) :
    Caught Γ x v (constructWith Γ x nt mk w).1 (constructWith Γ x nt mk w).2 () := by
  obtain ⟨w₁, h1, hR1⟩ := h.invalidate hΓ hx
  obtain ⟨w₂, h2, hm⟩ := hmk w₁ hR1
  obtain ⟨_, s, hs, hraw⟩ := hR1.hole
  obtain ⟨w₃, s₃, h3, hm3, hF, _⟩ := newPayload_run (v := v) (w := w₂) (hm.trans hs) hraw
  have hs3 : w₃.mem x = some s₃ := by rw [hm3, upd_same]
  unfold constructWith
  apply Caught.noexceptIf
  rw [bind_ok (h.assertHasEmp hΓ hx), bind_ok h1]
  have hbody : (mk >>= fun v => newPayload (Γ x).cfg x v) w₁ = (.ok (), w₃) := by rw [bind_ok h2, h3]
  cases nt
  · simp only [Bool.false_eq_true, if_false]
    rw [bind_ok (onThrow_ok hbody)]
    exact caught_assert hΓ hs3 hF hv
  · simp only [if_true]
    rw [bind_ok h2, bind_ok h3]
    exact caught_assert hΓ hs3 hF hv

/-- Evaluating `*y` as argument of a copy. -/
theorem evalArg_copy_run {vars : Nat → Option (Option V)} {g g' : G} {H : Option (Nat × (Storage V → Prop))} {o : Ops V G} {y : Nat} {s v : V}
    (h : R Γ H w vars g) (hy : vars y = some (some s)) (hc : o.copyCtor s g = (.ok v, g')) :
    evalArg Γ o (.copyOf y) w = (.ok v, { w with user := g' }) := by
  simp only [evalArg]
  rw [bind_ok (h.getPayload hy)]
  exact userCall_ok (by rw [h.user]; exact hc)

/-- Evaluating `std::move(*y)` as argument of a move. -/
theorem evalArg_move_run {vars : Nat → Option (Option V)} {g g' : G} {H : Option (Nat × (Storage V → Prop))} {o : Ops V G} {y : Nat} {s s' v : V}
    (h : R Γ H w vars g) (hy : vars y = some (some s)) (hm : o.moveCtor s g = (.ok v, s', g')) :
    ∃ t, evalArg Γ o (.moveOf y) w = (.ok v, { w with user := g', mem := upd w.mem y (some t) }) := by
  obtain ⟨t, ht, hF⟩ := h.full hy
  obtain ⟨t', h3, _⟩ := setPayload_run (w := { w with user := g' }) (v' := s') ht hF.any
  refine ⟨t', ?_⟩
  simp only [evalArg]
  rw [bind_ok (h.getPayload hy), bind_ok (userPure_run (g := g) _ h.user)]
  simp only [hm]
  rw [bind_ok h3]; rfl

/-- A copy or move constructor that delivers a reserved value. -/
theorem copyOrMoveCtor_reserved {vars : Nat → Option (Option V)} {g : G} {nt : Bool} {a : Arg V G} {v s : V} {x y : Nat}
    (hΓ : EnvWF Γ) (h : R Γ none w vars g) (hx : vars x = none) (hy : vars y = some (some s)) (hv : (Γ x).cfg.Reserved v)
    (hmk : ∀ w₁ vars₁, R Γ (some (x, Raw (Γ x).cfg)) w₁ vars₁ g → vars₁ y = some (some s) →
      ∃ w₂, evalArg Γ (Γ x).ops a w₁ = (.ok v, w₂) ∧ w₂.mem x = w₁.mem x) :
    Caught Γ x v (copyOrMoveCtor Γ nt a x y w).1 (copyOrMoveCtor Γ nt a x y w).2 () := by
  have hxy : x ≠ y := by rintro rfl; rw [hx] at hy; simp at hy
  have hy1 : upd vars x (some none) y = some (some s) := by rw [upd_other _ _ (Ne.symm hxy), hy]
  obtain ⟨w₁, h1, hR1⟩ := defaultCtor_run hΓ h hx
  unfold copyOrMoveCtor
  apply Caught.noexceptIf
  rw [bind_ok h1]
  apply Caught.onThrow
  rw [bind_ok (hR1.hasValueFull hΓ hy1)]
  simp only [if_true]
  refine Caught.bind ⟨_, constructWith_reserved hΓ hR1 (upd_same _ _ _) hv fun w₃ hR3 => hmk w₃ _ hR3 hy1, rfl⟩ ?_
  intro hd w₁ s hs hF
  exact ⟨w₁, assertSame_off hd, s, hs, hF⟩

/-- A copy or move assignment to an empty optional that delivers a reserved value. -/
theorem copyOrMoveAssign_reserved {vars : Nat → Option (Option V)} {g : G} {nt : Bool} {a : AArg V G} {v s : V} {x y : Nat}
    (hΓ : EnvWF Γ) (h : R Γ none w vars g) (hx : vars x = some none) (hy : vars y = some (some s)) (hv : (Γ x).cfg.Reserved v)
    (hmk : ∀ w₁, R Γ (some (x, Raw (Γ x).cfg)) w₁ vars g →
      ∃ w₂, evalArg Γ (Γ x).ops a.toArg w₁ = (.ok v, w₂) ∧ w₂.mem x = w₁.mem x) :
    Caught Γ x v (copyOrMoveAssign Γ nt a x y w).1 (copyOrMoveAssign Γ nt a x y w).2 () := by
  unfold copyOrMoveAssign
  apply Caught.noexceptIf
  rw [bind_ok (h.hasValueFull hΓ hy)]
  simp only [if_true]
  refine Caught.bind ⟨_, ?_, rfl⟩ fun hd w₁ s hs hF => ⟨w₁, assertSame_off hd, s, hs, hF⟩
  unfold assignValue
  rw [bind_ok (h.hasValueEmp hΓ hx)]
  refine Caught.bind ⟨_, constructWith_reserved hΓ h hx hv hmk, rfl⟩ fun hd w₁ s hs hF => ⟨w₁, assertHas_off hd, s, hs, hF⟩

/-- A copy or move assignment to an engaged optional that leaves a reserved value in it. -/
theorem copyOrMoveAssign_reserved_full {vars : Nat → Option (Option V)} {g : G} {nt : Bool} {a : AArg V G} {v u s : V} {x y : Nat}
    (hΓ : EnvWF Γ) (h : R Γ none w vars g) (hx : vars x = some (some u)) (hy : vars y = some (some s)) (hv : (Γ x).cfg.Reserved v)
    (hmk : ∃ w₂ t, payloadAssign Γ x a w = (.ok (), w₂) ∧ w₂.mem x = some t ∧ FullAny (Γ x).cfg t v) :
    Caught Γ x v (copyOrMoveAssign Γ nt a x y w).1 (copyOrMoveAssign Γ nt a x y w).2 () := by
  obtain ⟨w₂, t, h2, ht, hF⟩ := hmk
  unfold copyOrMoveAssign
  apply Caught.noexceptIf
  rw [bind_ok (h.hasValueFull hΓ hy)]
  simp only [if_true]
  refine Caught.bind ⟨_, ?_, rfl⟩ fun hd w₁ s hs hF => ⟨w₁, assertSame_off hd, s, hs, hF⟩
  unfold assignValue
  rw [bind_ok (h.hasValueFull hΓ hx)]
  simp only [if_true]
  rw [bind_ok h2]
  exact caught_assert hΓ ht hF hv

/-- Moving out of `y` into the empty optional `x`, leaving a reserved value behind. -/
theorem constructMove_reserved (hΓ : EnvWF Γ) {vars : Nat → Option (Option V)} {x y : Nat} {s s' v : V} {g' : G}
    (hR : R Γ none w vars w.user) (hx : vars x = some none) (hy : vars y = some (some s)) (hxy : x ≠ y)
    (hm : (Γ x).ops.moveCtor s w.user = (.ok v, s', g')) (hv : (Γ x).cfg.Storable v) (hs' : (Γ y).cfg.Reserved s') :
    ∃ w', constructPayload Γ x (.moveOf y) w = (.ok (), w') ∧ Holds Γ x v w' ∧ IsEmpty Γ y w' ∧
      (∃ t, w'.mem y = some t ∧ FullAny (Γ y).cfg t s') ∧ w'.user = g' := by
  obtain ⟨w₂, h2, hR2⟩ := hR.invalidate hΓ hx
  obtain ⟨t, ht, hF⟩ := hR2.full hy
  obtain ⟨_, r, hr, hraw⟩ := hR2.hole
  obtain ⟨t', h3, hF', _⟩ := setPayload_run (w := { w₂ with user := g' }) (v' := s') ht hF.any
  obtain ⟨w₄, r', h4, hm4, hF4, _, hu4, _⟩ := newPayload_run (v := v) (w := { w₂ with user := g', mem := upd w₂.mem y (some t') })
    (x := x) (s := r) (Γ := Γ) (by simp [upd, hxy, hr]) hraw
  have hev : evalArg Γ (Γ x).ops (.moveOf y) w₂ = (.ok v, { w₂ with user := g', mem := upd w₂.mem y (some t') }) := by
    simp only [evalArg]
    rw [bind_ok (hR2.getPayload hy), bind_ok (userPure_run (g := w.user) _ hR2.user)]
    simp only [hm]
    rw [bind_ok h3]; rfl
  have hx4 : w₄.mem x = some r' := by rw [hm4, upd_same]
  have hy4 : w₄.mem y = some t' := by rw [hm4, upd_other _ _ (Ne.symm hxy)]; simp
  have hh : hasValue Γ x w₄ = (.ok true, w₄) := by rw [hasValue_run hx4 (isEmpty_full (hΓ.cfg x) (hF4.full hv))]; rfl
  obtain ⟨⟨id, hid⟩, _⟩ := hF4
  refine ⟨w₄, ?_, ⟨hh, ?_⟩, ?_, ⟨t', hy4, hF'⟩, hu4⟩
  · unfold constructPayload constructWith
    apply noexceptIf_ok
    rw [bind_ok (hR.assertHasEmp hΓ hx), bind_ok h2]
    cases nothrowArg (Γ x).ops (.moveOf y)
    · simp only [Bool.false_eq_true, if_false]
      have hbody : (evalArg Γ (Γ x).ops (.moveOf y) >>= fun v => newPayload (Γ x).cfg x v) w₂ = (.ok (), w₄) := by
        rw [bind_ok hev]; exact h4
      rw [bind_ok (onThrow_ok hbody)]
      exact assertHas_run hh
    · simp only [if_true]
      rw [bind_ok hev, bind_ok h4]
      exact assertHas_run hh
  · apply noexceptIf_ok
    rw [bind_ok (assertHas_run hh), getPayload_run hx4 hid]
  · rw [IsEmpty, hasValue_run hy4 (isEmpty_reserved (hΓ.cfg y) hF' hs')]; rfl

end
theorem readStorage_inv {x : Nat} {s : Storage V} {w w' : World V G} (h : readStorage x w = (.ok s, w')) :
    w.mem x = some s ∧ w' = w := by
  unfold readStorage at h
  cases hm : w.mem x <;> simp [hm] at h
  exact ⟨by rw [h.1], h.2.symm⟩

theorem writeStorage_inv {x : Nat} {s : Storage V} {w w' : World V G} (h : writeStorage x s w = (.ok (), w')) :
    w'.mem x = some s ∧ ∀ y, y ≠ x → w'.mem y = w.mem y := by
  simp only [writeStorage, Prod.mk.injEq, true_and] at h
  subst h
  exact ⟨by simp, fun y hy => by simp [hy]⟩

theorem memcmpEq_true_iff (b : Nat → Option Byte) (sent : List Byte) (off : Nat) :
    memcmpEq b off sent = .ok true ↔ ∀ j, ∀ _ : j < sent.length, b (off + j) = some sent[j] := by
  refine ⟨fun h => ?_, memcmpEq_true b sent off⟩
  induction sent generalizing off with
  | nil => intro j hj; simp at hj
  | cons c cs ih =>
    unfold memcmpEq at h
    cases hb : b off with
    | none => simp [hb] at h
    | some x =>
      cases hr : memcmpEq b (off + 1) cs with
      | error k => simp [hb, hr] at h
      | ok r =>
        simp only [hb, hr, Except.ok.injEq, Bool.and_eq_true, beq_iff_eq] at h
        obtain ⟨rfl, rfl⟩ := h
        intro j hj
        cases j with
        | zero => exact hb
        | succ j =>
          have := ih (off + 1) hr j (by simpa using hj)
          rw [show off + (j + 1) = off + 1 + j by omega]
          exact this

end Verif.Model
