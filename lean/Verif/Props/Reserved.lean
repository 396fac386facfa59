import Verif.Lemmas.Reserved
import Verif.Examples

/-!
# C32, C33, C35: reserved values and degenerate sentinels
-/

namespace Verif.Props
open Verif Verif.Model Verif.Examples
variable {V G : Type} {Γ : Env V G} {w w' : World V G}

/-! ### C32, asserts enabled: no call returns after having stored a reserved value -/

/-- The calls that store a value in `x`. -/
def Stores (x : Nat) (op : Op V G) : Prop :=
  (∃ a, op = .ctorInPlace x a) ∨ (∃ a, op = .assignVal x a) ∨ ∃ a, op = .emplace x a

/-- C32. With asserts enabled, a storing call that returns normally has left `x` with a value: in *every* world, for every
configuration (well formed or not) and every argument. So a call that stores a reserved value does not return. -/
theorem C32_returns_engaged {x : Nat} {op : Op V G} {o : Obs V} (hd : (Γ x).cfg.ndebug = false) (hop : Stores x op)
    (h : execOp Γ op w = (.ok o, w')) : hasValue Γ x w' = (.ok true, w') := by
  rcases hop with ⟨a, rfl⟩ | ⟨a, rfl⟩ | ⟨a, rfl⟩
  · obtain ⟨_, w₁, h1, h2⟩ := bind_ok_inv (m := inPlaceCtor Γ x a) h
    simp only [pure_run, Prod.mk.injEq] at h2
    obtain ⟨_, rfl⟩ := h2
    obtain ⟨_, w₂, _, h1⟩ := bind_ok_inv (m := allocate x) h1
    obtain ⟨_, w₃, _, h1⟩ := bind_ok_inv (m := initEmptyFlag (Γ x).cfg x) (onThrow_ok_inv h1)
    exact constructWith_engaged hd h1
  · obtain ⟨_, w₁, h1, h2⟩ := bind_ok_inv (m := assignVal Γ x a) h
    simp only [pure_run, Prod.mk.injEq] at h2
    obtain ⟨_, rfl⟩ := h2
    exact assignValue_engaged hd h1
  · obtain ⟨_, w₁, h1, h2⟩ := bind_ok_inv (m := emplace Γ x a) h
    simp only [pure_run, Prod.mk.injEq] at h2
    obtain ⟨_, rfl⟩ := h2
    obtain ⟨_, w₂, _, h1⟩ := bind_ok_inv (m := reset Γ x) h1
    obtain ⟨_, w₃, _, h1⟩ := bind_ok_inv h1
    obtain ⟨_, w₄, h4, h1⟩ := bind_ok_inv h1
    have := assertHas_inv hd h4
    rw [getPayload_world h1, this.1]; exact this.2

/-- The calls that copy or move from `y` to `x`. -/
def Transfers (x y : Nat) (op : Op V G) : Prop :=
  op = .ctorCopy x y ∨ op = .ctorMove x y ∨ op = .assignCopy x y ∨ op = .assignMove x y

/-- C32, C33. With asserts enabled, a copy or move (construction or assignment) that returns normally leaves the target with
a value iff the source had one, and the source still has a value iff it had one. In every world, for every
configuration. In particular neither a reserved value arriving in the target nor a source that became reserved by being
moved from goes unnoticed. -/
theorem C33_transfer_returns {x y : Nat} {op : Op V G} {o : Obs V} (hd : (Γ x).cfg.ndebug = false) (hxy : x ≠ y)
    (hop : Transfers x y op) (h : execOp Γ op w = (.ok o, w')) :
    ∃ b, hasValue Γ y w = (.ok b, w) ∧ hasValue Γ x w' = (.ok b, w') ∧ hasValue Γ y w' = (.ok b, w') := by
  have hctor : ∀ {nt a}, copyOrMoveCtor Γ nt a x y w = (.ok (), w') →
      ∃ b, hasValue Γ y w = (.ok b, w) ∧ hasValue Γ x w' = (.ok b, w') ∧ hasValue Γ y w' = (.ok b, w') := by
    intro nt a h
    obtain ⟨_, w₁, h1, h⟩ := bind_ok_inv (noexceptIf_ok_inv h)
    obtain ⟨b, w₂, h2, h⟩ := bind_ok_inv (onThrow_ok_inv h)
    have hw2 := hasValue_world h2
    subst hw2
    have hmem : w.mem y = w₂.mem y := by
      have := (execOp_change Γ (.ctorDefault x) w).1 y (by simp [Op.writes]; exact Ne.symm hxy)
      have he : execOp Γ (.ctorDefault x) w = (.ok .unit, w₂) := by
        show (Model.defaultCtor Γ x >>= fun _ => pure Obs.unit) w = _
        exact (bind_ok (m := defaultCtor Γ x) h1).trans rfl
      rw [he] at this
      exact this.symm
    refine ⟨b, hasValue_congr hmem h2, ?_⟩
    cases b
    · obtain ⟨_, w₃, h3, h7⟩ := bind_ok_inv h
      obtain ⟨rfl, h4⟩ := assertHas_inv hd h3
      obtain ⟨rfl, b, h5, h6⟩ := assertSame_inv hd h7
      rw [h5] at h4
      simp only [Prod.mk.injEq, Res.ok.injEq, and_true] at h4
      subst h4
      exact ⟨h5, h6⟩
    · obtain ⟨_, w₃, h3, h⟩ := bind_ok_inv h
      have h4 := constructWith_engaged hd h3
      obtain ⟨rfl, b, h5, h6⟩ := assertSame_inv hd h
      rw [h5] at h4
      simp only [Prod.mk.injEq, Res.ok.injEq, and_true] at h4
      subst h4
      exact ⟨h5, h6⟩
  have hassign : ∀ {nt a}, copyOrMoveAssign Γ nt a x y w = (.ok (), w') →
      ∃ b, hasValue Γ y w = (.ok b, w) ∧ hasValue Γ x w' = (.ok b, w') ∧ hasValue Γ y w' = (.ok b, w') := by
    intro nt a h
    obtain ⟨b, w₂, h2, h⟩ := bind_ok_inv (noexceptIf_ok_inv h)
    have hw2 := hasValue_world h2
    subst hw2
    refine ⟨b, h2, ?_⟩
    cases b
    · obtain ⟨_, w₃, h3, h⟩ := bind_ok_inv h
      have hmem : w₃.mem y = w₂.mem y := by
        have := (execOp_change Γ (.reset x) w₂).1 y (by simp [Op.writes]; exact Ne.symm hxy)
        have he : execOp Γ (.reset x) w₂ = (.ok .unit, w₃) := by
          show (Model.reset Γ x >>= fun _ => pure Obs.unit) w₂ = _
          rw [bind_ok h3]; rfl
        rw [he] at this
        exact this
      obtain ⟨rfl, b, h5, h6⟩ := assertSame_inv hd h
      have h7 := hasValue_congr hmem h2
      rw [h6] at h7
      simp only [Prod.mk.injEq, Res.ok.injEq, and_true] at h7
      subst h7
      exact ⟨h5, h6⟩
    · obtain ⟨_, w₃, h3, h⟩ := bind_ok_inv h
      have h4 := assignValue_engaged hd h3
      obtain ⟨rfl, b, h5, h6⟩ := assertSame_inv hd h
      rw [h5] at h4
      simp only [Prod.mk.injEq, Res.ok.injEq, and_true] at h4
      subst h4
      exact ⟨h5, h6⟩
  rcases hop with rfl | rfl | rfl | rfl <;>
    (obtain ⟨_, w₁, h1, h2⟩ := bind_ok_inv (f := fun _ => (pure Obs.unit : M V G (Obs V))) h
     simp only [pure_run, Prod.mk.injEq] at h2
     obtain ⟨_, rfl⟩ := h2)
  · exact hctor h1
  · exact hctor h1
  · exact hassign h1
  · exact hassign h1

/-! ### C32: exact outcome when a reserved value is stored in a reachable world -/

/-- The documented consequence of storing a reserved value in `x`: with asserts the program is stopped by an assertion,
without them the call returns `o` and `x` then claims to be empty. -/
def StoredReserved (Γ : Env V G) (x : Nat) (r : Res (Obs V) × World V G) (o : Obs V) : Prop :=
  if (Γ x).cfg.ndebug then r.1 = .ok o ∧ IsEmpty Γ x r.2 else r.1 = .abort .assertFail

theorem storedReserved_of (hΓ : EnvWF Γ) {x : Nat} {v : V} {m : M V G Unit} (hv : (Γ x).cfg.Reserved v)
    (h : Caught Γ x v (m w).1 (m w).2 ()) :
    StoredReserved Γ x ((m >>= fun _ => pure Obs.unit) w) .unit := by
  have := Caught.bind (f := fun _ => (pure .unit : M V G (Obs V))) (b := .unit) ⟨_, h, rfl⟩
    (fun _ w₁ s hs hF => ⟨w₁, rfl, s, hs, hF⟩)
  unfold StoredReserved
  rcases this with ⟨hd, hr⟩ | ⟨hd, hr, s, hs, hF⟩
  · rw [hd]; exact hr
  · rw [hd]
    refine ⟨hr, ?_⟩
    rw [IsEmpty, hasValue_run hs (isEmpty_reserved (hΓ.cfg x) hF hv)]; rfl

/-- C32, construction from a value. -/
theorem C32_ctor (hΓ : EnvWF Γ) (hw : Reach Γ w) {x : Nat} {nt c} {v : V} {g' : G} (hx : Absent x w)
    (hc : c w.user = (.ok v, g')) (hv : (Γ x).cfg.Reserved v) :
    StoredReserved Γ x (execOp Γ (.ctorInPlace x (.ext nt c)) w) .unit := by
  obtain ⟨sw, hR, _⟩ := hw.rel hΓ
  have hx' : sw.vars x = none := (hR.absent_iff).1 hx
  refine storedReserved_of hΓ hv ?_
  obtain ⟨w₁, h1, hR1⟩ := hR.allocate hx'
  obtain ⟨w₂, h2, hR2⟩ := hR1.initEmptyFlag hΓ (fun s hs => hs)
  unfold inPlaceCtor storageInPlaceCtor
  rw [bind_ok h1]
  apply Caught.onThrow
  rw [bind_ok h2]
  refine constructWith_reserved hΓ hR2 (upd_same _ _ _) hv fun w₃ hR3 => ?_
  have hc' : c w₃.user = (.ok v, g') := by rw [hR3.user, ← hR.user]; exact hc
  exact ⟨_, userCall_ok hc', rfl⟩

example : StoredReserved exEnv 25 (execOp exEnv (.ctorInPlace 25 (lit 42#8)) exWorld) .unit :=
  C32_ctor exEnv_wf ex_reach ex25 rfl rfl
example : execOp exEnv (.ctorInPlace 25 (lit 42#8)) exWorld =
    (.abort .assertFail, (execOp exEnv (.ctorInPlace 25 (lit 42#8)) exWorld).2) := rfl

/-- C32, assignment to an empty optional. -/
theorem C32_assign_empty (hΓ : EnvWF Γ) (hw : Reach Γ w) {x : Nat} {f nt c} {v : V} {g' : G} (hx : IsEmpty Γ x w)
    (hc : c w.user = (.ok v, g')) (hv : (Γ x).cfg.Reserved v) :
    StoredReserved Γ x (execOp Γ (.assignVal x (.ext f nt c)) w) .unit := by
  obtain ⟨sw, hR, _⟩ := hw.rel hΓ
  have hx' : sw.vars x = some none := (hR.isEmpty_iff hΓ).1 hx
  refine storedReserved_of hΓ hv ?_
  unfold assignVal assignValue
  rw [bind_ok hx]
  refine Caught.bind ⟨_, constructWith_reserved (nt := nt) (mk := userCall c) hΓ hR hx' hv fun w₃ hR3 => ?_, rfl⟩ ?_
  · have hc' : c w₃.user = (.ok v, g') := by rw [hR3.user, ← hR.user]; exact hc
    exact ⟨_, userCall_ok hc', rfl⟩
  · intro hd w₁ s hs hF
    exact ⟨w₁, assertHas_off hd, s, hs, hF⟩

example := C32_assign_empty exEnv_wf ex_reach (x := 21) (f := fun v g => (none, v, g)) (nt := true)
  (c := fun g => (.ok 42#8, g)) ex21 rfl rfl

/-- C32, assignment to an engaged optional. -/
theorem C32_assign_engaged (hΓ : EnvWF Γ) (hw : Reach Γ w) {x : Nat} {f nt c} {u v : V} {g' : G} (hx : Holds Γ x u w)
    (hf : f u w.user = (none, v, g')) (hv : (Γ x).cfg.Reserved v) :
    StoredReserved Γ x (execOp Γ (.assignVal x (.ext f nt c)) w) .unit := by
  obtain ⟨sw, hR, _⟩ := hw.rel hΓ
  have hx' : sw.vars x = some (some u) := (hR.holds_iff hΓ).1 hx
  refine storedReserved_of hΓ hv ?_
  obtain ⟨s, hs, hF⟩ := hR.full hx'
  obtain ⟨s', h2, hF', _⟩ := setPayload_run (w := { w with user := g' }) (v' := v) hs hF.any
  unfold assignVal assignValue
  rw [bind_ok hx.1]
  simp only [if_true, payloadAssign]
  have h1 : (do
      let v ← getPayload x
      let (e, v') ← userPure (fun g => let (e, v', g') := f v g; ((e, v'), g'))
      setPayload (Γ x).cfg x v'
      checkE e : M V G Unit) w = (.ok (), { w with user := g', mem := upd w.mem x (some s') }) := by
    rw [bind_ok (hR.getPayload hx'), bind_ok (userPure_run (g := w.user) _ rfl)]
    simp only [hf]
    rw [bind_ok h2]; rfl
  rw [bind_ok h1]
  exact caught_assert hΓ (by simp) hF' hv

example := C32_assign_engaged exEnv_wf ex_reach (x := 20) (f := fun _ g => (none, 42#8, g)) (nt := true)
  (c := fun g => (.ok 1#8, g)) ex20 rfl rfl

/-- C32, `emplace` (on an engaged or empty optional). -/
theorem C32_emplace (hΓ : EnvWF Γ) (hw : Reach Γ w) {x : Nat} {nt c} {v : V} {o : Option V}
    (hx : match o with | none => IsEmpty Γ x w | some u => Holds Γ x u w)
    (hc : ∀ g, ∃ g', c g = (.ok v, g')) (hv : (Γ x).cfg.Reserved v) :
    StoredReserved Γ x (execOp Γ (.emplace x (.ext nt c)) w) (.val v) := by
  obtain ⟨sw, hR, _⟩ := hw.rel hΓ
  have hreset : ∃ w₁ vars' g', Model.reset Γ x w = (.ok (), w₁) ∧ R Γ none w₁ vars' g' ∧ vars' x = some none := by
    cases o with
    | none => exact ⟨w, _, _, reset_empty hΓ hR ((hR.isEmpty_iff hΓ).1 hx), hR, (hR.isEmpty_iff hΓ).1 hx⟩
    | some u =>
      obtain ⟨w₁, h1, hR1⟩ := reset_full hΓ hR ((hR.holds_iff hΓ).1 hx)
      exact ⟨w₁, _, _, h1, hR1, upd_same _ _ _⟩
  obtain ⟨w₁, vars', g', h1, hR1, hx1⟩ := hreset
  show StoredReserved Γ x ((Model.emplace Γ x (.ext nt c) >>= fun v => pure (Obs.val v)) w) (.val v)
  have key : Caught Γ x v (Model.emplace Γ x (.ext nt c) w).1 (Model.emplace Γ x (.ext nt c) w).2 v := by
    unfold Model.emplace
    rw [bind_ok h1]
    refine Caught.bind ⟨_, constructWith_reserved (nt := nt) (mk := userCall c) hΓ hR1 hx1 hv fun w₃ hR3 => ?_, rfl⟩ ?_
    · obtain ⟨g'', hc'⟩ := hc w₃.user
      exact ⟨_, userCall_ok hc', rfl⟩
    · intro hd w₂ s hs hF
      obtain ⟨id, hp⟩ := hF.1
      refine ⟨w₂, ?_, s, hs, hF⟩
      rw [bind_ok (assertHas_off hd), getPayload_run hs hp]
  unfold StoredReserved
  rcases key with ⟨hd, hr⟩ | ⟨hd, hr, s, hs, hF⟩
  · rw [hd]
    rw [bind_abort (k := .assertFail) (w' := (Model.emplace Γ x (.ext nt c) w).2) (by rw [← hr])]
    rfl
  · rw [hd, bind_ok (a := v) (w' := (Model.emplace Γ x (.ext nt c) w).2) (by rw [← hr])]
    refine ⟨rfl, ?_⟩
    show IsEmpty Γ x (Model.emplace Γ x (.ext nt c) w).2
    rw [IsEmpty, hasValue_run hs (isEmpty_reserved (hΓ.cfg x) hF hv)]; rfl

example := C32_emplace exEnv_wf ex_reach (x := 20) (o := some 5#8) (nt := true) (c := fun g => (.ok 42#8, g)) ex20
  (fun g => ⟨g, rfl⟩) rfl

/-- C32, copy construction: the payload's copy constructor makes a reserved value (for example by normalizing the copy). -/
theorem C32_copy_ctor (hΓ : EnvWF Γ) (hw : Reach Γ w) {x y : Nat} {s v : V} {g' : G} (hx : Absent x w) (hy : Holds Γ y s w)
    (hc : (Γ x).ops.copyCtor s w.user = (.ok v, g')) (hv : (Γ x).cfg.Reserved v) :
    StoredReserved Γ x (execOp Γ (.ctorCopy x y) w) .unit := by
  obtain ⟨sw, hR, _⟩ := hw.rel hΓ
  refine storedReserved_of (m := copyCtor Γ x y) hΓ hv ?_
  refine copyOrMoveCtor_reserved hΓ hR (hR.absent_iff.1 hx) ((hR.holds_iff hΓ).1 hy) hv fun w₁ vars₁ hR1 hy1 => ?_
  exact ⟨_, evalArg_copy_run (g' := g') hR1 hy1 (by rw [← hR.user]; exact hc), rfl⟩

/-- C32, move construction: a reserved value arrives in the new optional. -/
theorem C32_move_ctor (hΓ : EnvWF Γ) (hw : Reach Γ w) {x y : Nat} {s s' v : V} {g' : G} (hx : Absent x w) (hy : Holds Γ y s w)
    (hm : (Γ x).ops.moveCtor s w.user = (.ok v, s', g')) (hv : (Γ x).cfg.Reserved v) :
    StoredReserved Γ x (execOp Γ (.ctorMove x y) w) .unit := by
  obtain ⟨sw, hR, _⟩ := hw.rel hΓ
  have hx' := hR.absent_iff.1 hx
  have hy' := (hR.holds_iff hΓ).1 hy
  have hxy : x ≠ y := by rintro rfl; rw [hx'] at hy'; simp at hy'
  refine storedReserved_of (m := moveCtor Γ x y) hΓ hv ?_
  refine copyOrMoveCtor_reserved hΓ hR hx' hy' hv fun w₁ vars₁ hR1 hy1 => ?_
  obtain ⟨t, ht⟩ := evalArg_move_run hR1 hy1 (by rw [← hR.user]; exact hm)
  exact ⟨_, ht, upd_other _ _ hxy⟩

/-- C32, copy assignment to an empty optional. -/
theorem C32_copy_assign_empty (hΓ : EnvWF Γ) (hw : Reach Γ w) {x y : Nat} {s v : V} {g' : G} (hx : IsEmpty Γ x w) (hy : Holds Γ y s w)
    (hc : (Γ x).ops.copyCtor s w.user = (.ok v, g')) (hv : (Γ x).cfg.Reserved v) :
    StoredReserved Γ x (execOp Γ (.assignCopy x y) w) .unit := by
  obtain ⟨sw, hR, _⟩ := hw.rel hΓ
  have hy' := (hR.holds_iff hΓ).1 hy
  refine storedReserved_of (m := copyAssign Γ x y) hΓ hv ?_
  refine copyOrMoveAssign_reserved hΓ hR ((hR.isEmpty_iff hΓ).1 hx) hy' hv fun w₁ hR1 => ?_
  exact ⟨_, evalArg_copy_run (g' := g') hR1 hy' (by rw [← hR.user]; exact hc), rfl⟩

/-- C32, move assignment to an empty optional. -/
theorem C32_move_assign_empty (hΓ : EnvWF Γ) (hw : Reach Γ w) {x y : Nat} {s s' v : V} {g' : G} (hx : IsEmpty Γ x w) (hy : Holds Γ y s w)
    (hm : (Γ x).ops.moveCtor s w.user = (.ok v, s', g')) (hv : (Γ x).cfg.Reserved v) :
    StoredReserved Γ x (execOp Γ (.assignMove x y) w) .unit := by
  obtain ⟨sw, hR, _⟩ := hw.rel hΓ
  have hx' := (hR.isEmpty_iff hΓ).1 hx
  have hy' := (hR.holds_iff hΓ).1 hy
  have hxy : x ≠ y := by rintro rfl; rw [hx'] at hy'; simp at hy'
  refine storedReserved_of (m := moveAssign Γ x y) hΓ hv ?_
  refine copyOrMoveAssign_reserved hΓ hR hx' hy' hv fun w₁ hR1 => ?_
  obtain ⟨t, ht⟩ := evalArg_move_run hR1 hy' (by rw [← hR.user]; exact hm)
  exact ⟨_, ht, upd_other _ _ hxy⟩

/-- C32, copy assignment to an engaged optional, which may be the same one: the payload's assignment leaves a reserved value. -/
theorem C32_copy_assign_engaged (hΓ : EnvWF Γ) (hw : Reach Γ w) {x y : Nat} {u s v : V} {g' : G} (hx : Holds Γ x u w) (hy : Holds Γ y s w)
    (hc : (if x = y then (Γ x).ops.selfCopyAssign u w.user else (Γ x).ops.copyAssign u s w.user) = (none, v, g'))
    (hv : (Γ x).cfg.Reserved v) :
    StoredReserved Γ x (execOp Γ (.assignCopy x y) w) .unit := by
  obtain ⟨sw, hR, _⟩ := hw.rel hΓ
  have hx' := (hR.holds_iff hΓ).1 hx
  have hy' := (hR.holds_iff hΓ).1 hy
  obtain ⟨r, hr, hF⟩ := hR.full hx'
  obtain ⟨r', h1, hF', _⟩ := setPayload_run (w := { w with user := g' }) (v' := v) hr hF.any
  refine storedReserved_of (m := copyAssign Γ x y) hΓ hv ?_
  refine copyOrMoveAssign_reserved_full hΓ hR hx' hy' hv ⟨{ w with user := g', mem := upd w.mem x (some r') }, r', ?_, upd_same _ _ _, hF'⟩
  simp only [payloadAssign]
  rw [bind_ok (hR.getPayload hx'), bind_ok (hR.getPayload hy'), bind_ok (userPure_run (g := w.user) _ rfl)]
  simp only [hc]
  rw [bind_ok h1]; rfl

/-- C32, move assignment to another engaged optional. -/
theorem C32_move_assign_engaged (hΓ : EnvWF Γ) (hw : Reach Γ w) {x y : Nat} {u s s' v : V} {g' : G} (hx : Holds Γ x u w)
    (hy : Holds Γ y s w) (hxy : x ≠ y) (hm : (Γ x).ops.moveAssign u s w.user = (none, v, s', g')) (hv : (Γ x).cfg.Reserved v) :
    StoredReserved Γ x (execOp Γ (.assignMove x y) w) .unit := by
  obtain ⟨sw, hR, _⟩ := hw.rel hΓ
  have hx' := (hR.holds_iff hΓ).1 hx
  have hy' := (hR.holds_iff hΓ).1 hy
  obtain ⟨r, hr, hF⟩ := hR.full hx'
  obtain ⟨t, ht, hFt⟩ := hR.full hy'
  obtain ⟨r', h1, hF', _⟩ := setPayload_run (w := { w with user := g' }) (v' := v) hr hF.any
  obtain ⟨t', h2, _⟩ := setPayload_run (w := { w with user := g', mem := upd w.mem x (some r') }) (v' := s') (x := y)
    (s := t) (by simp [upd, Ne.symm hxy, ht]) hFt.any
  refine storedReserved_of (m := moveAssign Γ x y) hΓ hv ?_
  refine copyOrMoveAssign_reserved_full hΓ hR hx' hy' hv
    ⟨{ w with user := g', mem := upd (upd w.mem x (some r')) y (some t') }, r', ?_, by simp [upd, hxy], hF'⟩
  simp only [payloadAssign]
  rw [bind_ok (hR.getPayload hx'), bind_ok (hR.getPayload hy'), if_neg hxy, bind_ok (userPure_run (g := w.user) _ rfl)]
  simp only [hm]
  rw [bind_ok h1, bind_ok h2]; rfl

/-- C32, self move assignment. -/
theorem C32_move_assign_self (hΓ : EnvWF Γ) (hw : Reach Γ w) {x : Nat} {u v : V} {g' : G} (hx : Holds Γ x u w)
    (hm : (Γ x).ops.selfMoveAssign u w.user = (none, v, g')) (hv : (Γ x).cfg.Reserved v) :
    StoredReserved Γ x (execOp Γ (.assignMove x x) w) .unit := by
  obtain ⟨sw, hR, _⟩ := hw.rel hΓ
  have hx' := (hR.holds_iff hΓ).1 hx
  obtain ⟨r, hr, hF⟩ := hR.full hx'
  obtain ⟨r', h1, hF', _⟩ := setPayload_run (w := { w with user := g' }) (v' := v) hr hF.any
  refine storedReserved_of (m := moveAssign Γ x x) hΓ hv ?_
  refine copyOrMoveAssign_reserved_full hΓ hR hx' hx' hv ⟨{ w with user := g', mem := upd w.mem x (some r') }, r', ?_, upd_same _ _ _, hF'⟩
  simp only [payloadAssign]
  rw [bind_ok (hR.getPayload hx'), bind_ok (hR.getPayload hx'), if_pos trivial, bind_ok (userPure_run (g := w.user) _ rfl)]
  simp only [hm]
  rw [bind_ok h1]; rfl

/-- C32, `transform`: the function returns a reserved value of the result's type. -/
theorem C32_transform (hΓ : EnvWF Γ) (hw : Reach Γ w) {nt : Bool} {x dst : Nat} {f : V → G → Except Exn V × V × G} {u u' v : V} {g' : G}
    (hd : Absent dst w) (hx : Holds Γ x u w) (hf : f u w.user = (.ok v, u', g')) (hv : (Γ dst).cfg.Reserved v) :
    StoredReserved Γ dst (execOp Γ (.transform nt x dst f) w) .unit := by
  obtain ⟨sw, hR, _⟩ := hw.rel hΓ
  have hd' := hR.absent_iff.1 hd
  have hx' := (hR.holds_iff hΓ).1 hx
  have hne : dst ≠ x := by rintro rfl; rw [hd'] at hx'; simp at hx'
  refine storedReserved_of (m := transform Γ nt x dst f) hΓ hv ?_
  unfold transform
  rw [bind_ok hx.1]
  simp only [if_true]
  rw [bind_ok (hR.assertHasFull hΓ hx')]
  obtain ⟨w₁, h1, hR1⟩ := hR.allocate hd'
  obtain ⟨w₂, h2, hR2⟩ := hR1.initEmptyFlag hΓ (fun s hs => hs)
  have hx2 : upd sw.vars dst (some none) x = some (some u) := by rw [upd_other _ _ (Ne.symm hne), hx']
  unfold storageFunctionCtor
  rw [bind_ok h1]
  apply Caught.onThrow
  rw [bind_ok h2]
  refine constructWith_reserved hΓ hR2 (upd_same _ _ _) hv fun w₃ hR3 => ?_
  obtain ⟨t, ht, hF⟩ := hR3.full hx2
  obtain ⟨t', h3, _⟩ := setPayload_run (w := { w₃ with user := g' }) (v' := u') ht hF.any
  refine ⟨{ w₃ with user := g', mem := upd w₃.mem x (some t') }, ?_, upd_other _ _ hne⟩
  rw [bind_ok (hR3.getPayload hx2), bind_ok (userPure_run (g := w.user) _ (hR3.user.trans hR.user.symm))]
  simp only [hf]
  rw [bind_ok h3]; rfl

/-! Example: a class with values mod 128, of which copying and moving make the representative below 128; sentinel 0. -/

def normOps : Ops (BitVec 8) Unit where
  copyCtor v g := (.ok (v &&& 127#8), g)
  moveCtor v g := (.ok (v &&& 127#8), v, g)
  copyAssign _ s g := (none, s &&& 127#8, g)
  moveAssign _ s g := (none, s &&& 127#8, s, g)
  selfCopyAssign v g := (none, v &&& 127#8, g)
  selfMoveAssign v g := (none, v &&& 127#8, g)
  swap a b g := (none, b, a, g)
  selfSwap v g := (none, v, g)
  dtor _ g := g
  nothrowCopyCtor := true
  nothrowMoveCtor := true
  nothrowMoveAssign := true
  nothrowSwap := true

def normEnv (ndebug : Bool) : Env (BitVec 8) Unit := fun _ => ⟨⟨1, byteRepr, .inplace, .assign 0#8 (· == ·), ndebug⟩, normOps⟩

theorem normEnv_wf (b : Bool) : EnvWF (normEnv b) where
  cfg _ := {
    fits := Or.inr ⟨by simp [normEnv], by simp [normEnv]⟩
    inside := by simp [normEnv, Config.loc]
    bytes := by intro v i hi; simp [normEnv, Config.loc]
    sentinelFits := by intro s h; simp [normEnv] at h
    assignRefl := by rintro s e ⟨⟩; rfl
    customRefl := by intro s e h; simp [normEnv] at h }
  ops _ := ⟨fun _ v _ => ⟨_, rfl⟩, fun _ v _ => ⟨_, rfl⟩, fun _ _ _ _ => rfl, fun _ _ _ => rfl, fun _ _ _ _ => rfl, fun _ _ _ => rfl⟩

def normHist : List (Op (BitVec 8) Unit) := [.ctorInPlace 0 (lit 128#8), .ctorDefault 1, .ctorInPlace 3 (lit 7#8)]

def normWorld (b : Bool) : World (BitVec 8) Unit := (run (normEnv b) normHist (.init ())).2

theorem norm_reach (b : Bool) : Reach (normEnv b) (normWorld b) := by
  refine .of_legal (normEnv_wf b) ⟨?_, rfl, ?_, ?_⟩
  · intro op hop
    simp only [normHist, List.mem_cons, List.not_mem_nil, or_false] at hop
    rcases hop with rfl | rfl | rfl <;> first | exact trivial | exact lit_lawful _
  · intro p hp
    simp [Spec.SWorld.init] at hp
    rcases hp with rfl | rfl <;> simp [Config.Storable, normEnv, Config.loc]
  · intro p hp
    simp [normHist] at hp
    rcases hp with rfl | rfl | rfl <;> trivial

theorem norm0 (b : Bool) : Holds (normEnv b) 0 128#8 (normWorld b) := by cases b <;> exact ⟨rfl, rfl⟩
theorem norm1 (b : Bool) : IsEmpty (normEnv b) 1 (normWorld b) := by cases b <;> rfl
theorem norm2 (b : Bool) : Absent 2 (normWorld b) := by cases b <;> rfl
theorem norm3 (b : Bool) : Holds (normEnv b) 3 7#8 (normWorld b) := by cases b <;> exact ⟨rfl, rfl⟩

example (b : Bool) : StoredReserved (normEnv b) 2 (execOp (normEnv b) (.ctorCopy 2 0) (normWorld b)) .unit :=
  C32_copy_ctor (normEnv_wf b) (norm_reach b) (norm2 b) (norm0 b) rfl rfl
example (b : Bool) : StoredReserved (normEnv b) 2 (execOp (normEnv b) (.ctorMove 2 0) (normWorld b)) .unit :=
  C32_move_ctor (normEnv_wf b) (norm_reach b) (norm2 b) (norm0 b) rfl rfl
example (b : Bool) : StoredReserved (normEnv b) 1 (execOp (normEnv b) (.assignCopy 1 0) (normWorld b)) .unit :=
  C32_copy_assign_empty (normEnv_wf b) (norm_reach b) (norm1 b) (norm0 b) rfl rfl
example (b : Bool) : StoredReserved (normEnv b) 1 (execOp (normEnv b) (.assignMove 1 0) (normWorld b)) .unit :=
  C32_move_assign_empty (normEnv_wf b) (norm_reach b) (norm1 b) (norm0 b) rfl rfl
example (b : Bool) : StoredReserved (normEnv b) 3 (execOp (normEnv b) (.assignCopy 3 0) (normWorld b)) .unit :=
  C32_copy_assign_engaged (normEnv_wf b) (norm_reach b) (norm3 b) (norm0 b) rfl rfl
example (b : Bool) : StoredReserved (normEnv b) 0 (execOp (normEnv b) (.assignCopy 0 0) (normWorld b)) .unit :=
  C32_copy_assign_engaged (normEnv_wf b) (norm_reach b) (norm0 b) (norm0 b) rfl rfl
example (b : Bool) : StoredReserved (normEnv b) 3 (execOp (normEnv b) (.assignMove 3 0) (normWorld b)) .unit :=
  C32_move_assign_engaged (normEnv_wf b) (norm_reach b) (norm3 b) (norm0 b) (by decide) rfl rfl
example (b : Bool) : StoredReserved (normEnv b) 0 (execOp (normEnv b) (.assignMove 0 0) (normWorld b)) .unit :=
  C32_move_assign_self (normEnv_wf b) (norm_reach b) (norm0 b) rfl rfl
example (b : Bool) : StoredReserved (normEnv b) 2 (execOp (normEnv b) (.transform false 3 2 fun v g => (.ok (v - 7#8), v, g)) (normWorld b)) .unit :=
  C32_transform (normEnv_wf b) (norm_reach b) (norm2 b) (norm3 b) rfl rfl

/-- The member functions that hand out a reference are not covered, and neither is the payload swap: a reserved value
written that way is not caught, the optional silently becomes "empty". -/
example : ((execOp exEnv (.modify 20 fun _ g => (none, 42#8, g)) exWorld).1 = .ok .unit) ∧
    IsEmpty exEnv 20 (execOp exEnv (.modify 20 fun _ g => (none, 42#8, g)) exWorld).2 := ⟨rfl, rfl⟩

/-! ### C33 -/

/-- What happens after the payload of `y` has become reserved behind the library's back: the payload object is alive, yet
destroying the optional runs no destructor (user state unchanged) and leaks the object. -/
def LeaksOnDtor (Γ : Env V G) (y : Nat) (w : World V G) : Prop :=
  ∃ id, HoldsPayload y id w ∧ ∃ w', execOp Γ (.dtor y) w = (.ok .unit, w') ∧ w'.user = w.user ∧
    Event.payloadLeak id ∈ w'.log

theorem leaksOnDtor_of {y : Nat} {t : Storage V} {v : V} (he : IsEmpty Γ y w) (ht : w.mem y = some t)
    (hF : FullAny (Γ y).cfg t v) : LeaksOnDtor Γ y w := by
  obtain ⟨⟨id, hp⟩, hf, _⟩ := hF
  refine ⟨id, ⟨t, v, ht, hp⟩, ?_⟩
  have h1 : storageDtor Γ y w = (.ok (), { w with mem := fun z => if z = y then none else w.mem z, log := w.log ++ [.payloadLeak id] ++ [] }) := by
    apply noexceptIf_ok
    rw [bind_ok he]
    simp [release, ht, hp, hf]
  refine ⟨_, (bind_ok (m := dtor Γ y) h1).trans rfl, rfl, by simp⟩

/-- C33, move construction: the move leaves a reserved value in the source. -/
theorem C33_move_ctor (hΓ : EnvWF Γ) (hw : Reach Γ w) {x y : Nat} {s s' v : V} {g' : G} (hx : Absent x w)
    (hy : Holds Γ y s w) (hm : (Γ x).ops.moveCtor s w.user = (.ok v, s', g')) (hv : (Γ x).cfg.Storable v)
    (hs' : (Γ y).cfg.Reserved s') :
    ∃ w', (if (Γ x).cfg.ndebug
      then execOp Γ (.ctorMove x y) w = (.ok .unit, w') ∧ Holds Γ x v w' ∧ IsEmpty Γ y w' ∧ LeaksOnDtor Γ y w'
      else execOp Γ (.ctorMove x y) w = (.abort .assertFail, w')) := by
  obtain ⟨sw, hR, _⟩ := hw.rel hΓ
  have hx' : sw.vars x = none := (hR.absent_iff).1 hx
  have hy' : sw.vars y = some (some s) := (hR.holds_iff hΓ).1 hy
  have hxy : x ≠ y := by rintro rfl; rw [hx'] at hy'; simp at hy'
  obtain ⟨w₁, h1, hR1⟩ := defaultCtor_run hΓ hR hx'
  have hu1 : w₁.user = w.user := hR1.user.trans hR.user.symm
  have hy1 : upd sw.vars x (some none) y = some (some s) := by rw [upd_other _ _ (Ne.symm hxy), hy']
  obtain ⟨w₂, h2, hx2, hy2, ⟨t, ht, hF⟩, hu2⟩ := constructMove_reserved hΓ (by rw [hR1.user]; exact hR1) (upd_same _ _ _)
    hy1 hxy (by rw [hu1]; exact hm) hv hs'
  refine ⟨w₂, ?_⟩
  cases hd : (Γ x).cfg.ndebug
  · show execOp Γ (.ctorMove x y) w = _
    refine bind_abort (noexceptIf_abort ?_)
    rw [bind_ok h1]
    refine onThrow_abort ?_
    rw [bind_ok (hR1.hasValueFull hΓ hy1)]
    simp only [if_true]
    rw [bind_ok h2]
    exact assertSame_fail hd hx2.1 hy2
  · refine ⟨?_, hx2, hy2, leaksOnDtor_of hy2 ht hF⟩
    refine (bind_ok (noexceptIf_ok (w' := w₂) (a := ()) ?_)).trans rfl
    rw [bind_ok h1]
    refine onThrow_ok ?_
    rw [bind_ok (hR1.hasValueFull hΓ hy1)]
    simp only [if_true]
    rw [bind_ok h2]
    exact assertSame_off hd

/-- C33, move assignment to an empty optional. -/
theorem C33_move_assign_empty (hΓ : EnvWF Γ) (hw : Reach Γ w) {x y : Nat} {s s' v : V} {g' : G} (hx : IsEmpty Γ x w)
    (hy : Holds Γ y s w) (hm : (Γ x).ops.moveCtor s w.user = (.ok v, s', g')) (hv : (Γ x).cfg.Storable v)
    (hs' : (Γ y).cfg.Reserved s') :
    ∃ w', (if (Γ x).cfg.ndebug
      then execOp Γ (.assignMove x y) w = (.ok .unit, w') ∧ Holds Γ x v w' ∧ IsEmpty Γ y w' ∧ LeaksOnDtor Γ y w'
      else execOp Γ (.assignMove x y) w = (.abort .assertFail, w')) := by
  obtain ⟨sw, hR, _⟩ := hw.rel hΓ
  have hx' : sw.vars x = some none := (hR.isEmpty_iff hΓ).1 hx
  have hy' : sw.vars y = some (some s) := (hR.holds_iff hΓ).1 hy
  have hxy : x ≠ y := by rintro rfl; rw [hx'] at hy'; simp at hy'
  obtain ⟨w₂, h2, hx2, hy2, ⟨t, ht, hF⟩, hu2⟩ := constructMove_reserved hΓ (by rw [hR.user]; exact hR) hx' hy' hxy hm hv hs'
  have hav : assignValue Γ x (.moveOf y) w = (.ok (), w₂) := by
    unfold assignValue
    rw [bind_ok hx]
    simp only [Bool.false_eq_true, if_false]
    refine (bind_ok (a := ()) (w' := w₂) h2).trans ?_
    exact assertHas_run hx2.1
  refine ⟨w₂, ?_⟩
  cases hd : (Γ x).cfg.ndebug
  · refine bind_abort (noexceptIf_abort ?_)
    rw [bind_ok hy.1]
    simp only [if_true]
    rw [bind_ok hav]
    exact assertSame_fail hd hx2.1 hy2
  · refine ⟨?_, hx2, hy2, leaksOnDtor_of hy2 ht hF⟩
    refine (bind_ok (noexceptIf_ok (w' := w₂) (a := ()) ?_)).trans rfl
    rw [bind_ok hy.1]
    simp only [if_true]
    rw [bind_ok hav]
    exact assertSame_off hd

/-- C33, move assignment to an engaged optional. -/
theorem C33_move_assign_engaged (hΓ : EnvWF Γ) (hw : Reach Γ w) {x y : Nat} {d s s' v : V} {g' : G} (hx : Holds Γ x d w)
    (hy : Holds Γ y s w) (hxy : x ≠ y) (hm : (Γ x).ops.moveAssign d s w.user = (none, v, s', g'))
    (hv : (Γ x).cfg.Storable v) (hs' : (Γ y).cfg.Reserved s') :
    ∃ w', (if (Γ x).cfg.ndebug
      then execOp Γ (.assignMove x y) w = (.ok .unit, w') ∧ Holds Γ x v w' ∧ IsEmpty Γ y w' ∧ LeaksOnDtor Γ y w'
      else execOp Γ (.assignMove x y) w = (.abort .assertFail, w')) := by
  obtain ⟨sw, hR, _⟩ := hw.rel hΓ
  have hx' : sw.vars x = some (some d) := (hR.holds_iff hΓ).1 hx
  have hy' : sw.vars y = some (some s) := (hR.holds_iff hΓ).1 hy
  obtain ⟨r, hr, hFr⟩ := hR.full hx'
  obtain ⟨t, ht, hFt⟩ := hR.full hy'
  obtain ⟨r', h1, hFr', _⟩ := setPayload_run (w := { w with user := g' }) (v' := v) hr hFr.any
  obtain ⟨t', h2, hFt', _⟩ := setPayload_run (w := { w with user := g', mem := upd w.mem x (some r') }) (v' := s') (x := y)
    (s := t) (by simp [upd, Ne.symm hxy, ht]) hFt.any
  let w₂ : World V G := { w with user := g', mem := upd (upd w.mem x (some r')) y (some t') }
  have hx2 : w₂.mem x = some r' := by simp [w₂, upd, hxy]
  have hy2 : w₂.mem y = some t' := by simp [w₂, upd]
  have hhx : hasValue Γ x w₂ = (.ok true, w₂) := by rw [hasValue_run hx2 (isEmpty_full (hΓ.cfg x) (hFr'.full hv))]; rfl
  have hhy : hasValue Γ y w₂ = (.ok false, w₂) := by rw [hasValue_run hy2 (isEmpty_reserved (hΓ.cfg y) hFt' hs')]; rfl
  have hav : assignValue Γ x (.moveOf y) w = (.ok (), w₂) := by
    unfold assignValue
    rw [bind_ok hx.1]
    simp only [if_true]
    refine (bind_ok (a := ()) (w' := w₂) ?_).trans (assertHas_run hhx)
    simp only [payloadAssign]
    rw [bind_ok (hR.getPayload hx'), bind_ok (hR.getPayload hy'), if_neg hxy, bind_ok (userPure_run (g := w.user) _ rfl)]
    simp only [hm]
    rw [bind_ok h1, bind_ok h2]; rfl
  have hdx : Holds Γ x v w₂ := by
    refine ⟨hhx, ?_⟩
    obtain ⟨⟨id, hid⟩, _⟩ := hFr'
    apply noexceptIf_ok
    rw [bind_ok (assertHas_run hhx), getPayload_run hx2 hid]
  refine ⟨w₂, ?_⟩
  cases hd : (Γ x).cfg.ndebug
  · refine bind_abort (noexceptIf_abort ?_)
    rw [bind_ok hy.1]
    simp only [if_true]
    rw [bind_ok hav]
    exact assertSame_fail hd hhx hhy
  · refine ⟨?_, hdx, hhy, leaksOnDtor_of hhy hy2 hFt'⟩
    refine (bind_ok (noexceptIf_ok (w' := w₂) (a := ()) ?_)).trans rfl
    rw [bind_ok hy.1]
    simp only [if_true]
    rw [bind_ok hav]
    exact assertSame_off hd

/-! Example: a class that becomes 0 when moved from, with sentinel 0. -/

def movedOutEnv (ndebug : Bool) : Env (BitVec 8) (List String) :=
  fun _ => ⟨⟨1, byteRepr, .inplace, .assign 0#8 (· == ·), ndebug⟩, loggingOps⟩

theorem movedOutEnv_wf (b : Bool) : EnvWF (movedOutEnv b) where
  cfg _ := {
    fits := Or.inr ⟨by simp [movedOutEnv], by simp [movedOutEnv]⟩
    inside := by simp [movedOutEnv, Config.loc]
    bytes := by intro v i hi; simp [movedOutEnv, Config.loc]
    sentinelFits := by intro s h; simp [movedOutEnv] at h
    assignRefl := by rintro s e ⟨⟩; rfl
    customRefl := by intro s e h; simp [movedOutEnv] at h }
  ops _ := loggingOps_lawful

def movedOutHist : List (Op (BitVec 8) (List String)) := [.ctorInPlace 0 (lit 5#8), .ctorDefault 1, .ctorInPlace 3 (lit 7#8)]

def movedOutWorld (b : Bool) : World (BitVec 8) (List String) := (run (movedOutEnv b) movedOutHist (.init [])).2

theorem movedOut_reach (b : Bool) : Reach (movedOutEnv b) (movedOutWorld b) := by
  refine .of_legal (movedOutEnv_wf b) ⟨?_, rfl, ?_, ?_⟩
  · intro op hop
    simp only [movedOutHist, List.mem_cons, List.not_mem_nil, or_false] at hop
    rcases hop with rfl | rfl | rfl <;> first | exact trivial | exact lit_lawful _
  · intro p hp
    simp [Spec.SWorld.init] at hp
    rcases hp with rfl | rfl <;> simp [Config.Storable, movedOutEnv, Config.loc]
  · intro p hp
    simp [movedOutHist] at hp
    rcases hp with rfl | rfl | rfl <;> trivial

theorem movedOut0 (b : Bool) : Holds (movedOutEnv b) 0 5#8 (movedOutWorld b) := by cases b <;> exact ⟨rfl, rfl⟩
theorem movedOut1 (b : Bool) : IsEmpty (movedOutEnv b) 1 (movedOutWorld b) := by cases b <;> rfl
theorem movedOut3 (b : Bool) : Holds (movedOutEnv b) 3 7#8 (movedOutWorld b) := by cases b <;> exact ⟨rfl, rfl⟩

example (b : Bool) := C33_move_ctor (movedOutEnv_wf b) (movedOut_reach b) (x := 2) (y := 0) (s' := 0#8) (v := 5#8)
  (g' := ["move"]) (by cases b <;> rfl) (movedOut0 b) (by cases b <;> rfl) rfl rfl
example (b : Bool) := C33_move_assign_empty (movedOutEnv_wf b) (movedOut_reach b) (x := 1) (y := 0) (s' := 0#8) (v := 5#8)
  (g' := ["move"]) (movedOut1 b) (movedOut0 b) (by cases b <;> rfl) rfl rfl
example (b : Bool) := C33_move_assign_engaged (movedOutEnv_wf b) (movedOut_reach b) (x := 3) (y := 0) (s' := 0#8) (v := 5#8)
  (g' := ["move="]) (movedOut3 b) (movedOut0 b) (by decide) (by cases b <;> rfl) rfl rfl

example := C33_transfer_returns (Γ := exEnv) (x := 21) (y := 20) rfl (by decide) (.inr (.inr (.inl rfl)))
  (w := exWorld) (o := .unit) (w' := (execOp exEnv (.assignCopy 21 20) exWorld).2) rfl
example := C32_returns_engaged (Γ := exEnv) (x := 21) rfl (.inr (.inl ⟨.copyOf 20, rfl⟩))
  (w := exWorld) (o := .unit) (w' := (execOp exEnv (.assignVal 21 (.copyOf 20)) exWorld).2) rfl

/-! ### C35 -/

/-- C35. Default construction of an optional with a sentinel (given as constant: `AssignmentFlagManipulator`, or through
`sentinel_flag_manipulator`), for any equality operator and any sentinel. The result is empty iff the sentinel equals
itself; otherwise the assertion in the constructor fails, or (NDEBUG) the optional claims to have a value although it
has none, and `*x` accesses a payload that does not exist. -/
theorem C35_default {x : Nat} {sv : V} {eq : V → V → Bool}
    (hm : (Γ x).cfg.manip = .assign sv eq ∨ (Γ x).cfg.manip = sentinelFlagManipulator sv eq)
    (hin : (Γ x).cfg.loc.off + (Γ x).cfg.loc.size ≤ (Γ x).cfg.size) (hx : Absent x w) :
    ∃ w', if eq sv sv then execOp Γ (.ctorDefault x) w = (.ok .unit, w') ∧ IsEmpty Γ x w'
      else if (Γ x).cfg.ndebug then execOp Γ (.ctorDefault x) w = (.ok .unit, w') ∧ hasValue Γ x w' = (.ok true, w') ∧
        execOp Γ (.deref x) w' = (.abort (.ub .noObject), w')
      else execOp Γ (.ctorDefault x) w = (.abort .assertFail, w') := by
  have hx' : w.mem x = none := hx
  let s' : Storage V := ⟨fill (fun _ => none) (Γ x).cfg.loc.off (Γ x).cfg.loc.size ((Γ x).cfg.loc.repr sv), none,
    some ⟨w.nextObj, some sv⟩⟩
  have hi : (Γ x).cfg.initFlag w.nextObj .raw = .ok (s', true) := by
    unfold Config.initFlag
    rcases hm with hm | hm <;> simp [hm, sentinelFlagManipulator, Storage.raw, s', show ¬ (Γ x).cfg.size < (Γ x).cfg.loc.off + (Γ x).cfg.loc.size by omega]
  let w' : World V G := { mem := upd w.mem x (some s'), nextObj := w.nextObj + 1, log := w.log ++ [.flagInit w.nextObj], user := w.user }
  let w₁ : World V G := { w with mem := upd w.mem x (some .raw) }
  have h1 : allocate x w = (.ok (), w₁) := by simp only [allocate, hx']; rfl
  have h2 : initEmptyFlag (Γ x).cfg x w₁ = (.ok (), w') := by
    unfold initEmptyFlag
    rw [bind_ok (readStorage_ok (s := .raw) (by simp [w₁])), bind_ok (m := freshId) rfl, bind_ok (a := (s', true)) (by
      show liftE ((Γ x).cfg.initFlag w.nextObj .raw) _ = _
      rw [hi]; rfl)]
    simp only [if_true]
    rw [bind_ok (m := writeStorage x s') rfl]
    simp only [emit, w', w₁, Prod.mk.injEq, true_and, World.mk.injEq, and_true]
    funext z
    by_cases hz : z = x <;> simp [upd, hz]
  have he : (Γ x).cfg.isEmpty s' = .ok (eq sv sv) := by
    unfold Config.isEmpty
    rcases hm with hm | hm <;> simp [hm, sentinelFlagManipulator, Config.readFlag, s']
  have hh : hasValue Γ x w' = (.ok (!(eq sv sv)), w') := hasValue_run (by simp [w']) he
  refine ⟨w', ?_⟩
  cases heq : eq sv sv
  · rw [heq] at hh
    cases hd : (Γ x).cfg.ndebug
    · show execOp Γ (.ctorDefault x) w = _
      refine bind_abort (noexceptIf_abort ?_)
      rw [bind_ok h1, bind_ok h2]
      exact assertHas_fail hd hh
    · refine ⟨?_, hh, ?_⟩
      · refine (bind_ok (noexceptIf_ok (a := ()) (w' := w') ?_)).trans rfl
        rw [bind_ok h1, bind_ok h2]
        exact assertHas_off hd
      · refine bind_abort (noexceptIf_abort ?_)
        rw [bind_ok (assertHas_off hd)]
        unfold getPayload
        rw [bind_ok (readStorage_ok (s := s') (by simp [w']))]
        rfl
  · rw [heq] at hh
    refine ⟨?_, hh⟩
    refine (bind_ok (noexceptIf_ok (a := ()) (w' := w') ?_)).trans rfl
    rw [bind_ok h1, bind_ok h2]
    exact assertHas_run hh

/-- A one-byte type with a NaN-like value 255 as sentinel. -/
def nanEnv (ndebug : Bool) : Env (BitVec 8) Unit :=
  fun _ => ⟨⟨1, byteRepr, .inplace, .assign 255#8 (fun a b => a == b && a != 255#8), ndebug⟩, scalarOps⟩

example := C35_default (Γ := nanEnv true) (w := .init ()) (x := 0) (.inl rfl) (by simp [nanEnv, Config.loc]) rfl

end Verif.Props
