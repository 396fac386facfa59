import Verif.Lemmas.Step
import Verif.Examples

/-!
# C07-C11, C41: copying, moving, swapping, self operations, aliasing arguments

The payload operations are arbitrary functions of the operand values and the user state, so that "the payload ends up
as `copyAssign u v`" also says which payload operation was called, how often, and in which user state.
-/

namespace Verif.Props
open Verif Verif.Model Verif.Spec Verif.Examples

variable {V G : Type} {Γ : Env V G} {w : World V G}

/-- The outcome of a call that ends with an in-place user operation. -/
def ofErr : Option Exn → Res (Obs V)
  | none => .ok .unit
  | some e => .throw e

/-! ### C07 -/

/-- C07. If the payload assignment throws, the optional stays engaged with what the assignment left behind; nothing is
constructed or destroyed; the exception reaches the caller. -/
theorem C07_assign_throws (hΓ : EnvWF Γ) (hw : Reach Γ w) {x : Nat} {u v' : V} {f nt c e g'} (hx : Holds Γ x u w)
    (ha : AArgLawful (.ext f nt c)) (hf : f u w.user = (some e, v', g')) (hv : (Γ x).cfg.Storable v') :
    ∃ w', execOp Γ (.assignVal x (.ext f nt c)) w = (.throw e, w') ∧ Reach Γ w' ∧ Holds Γ x v' w' ∧ w'.user = g' ∧
      SameObjects w w' := by
  obtain ⟨vars, hs⟩ := hw.view hΓ
  have hx' : vars x = some (some u) := hs.full hx
  obtain ⟨w', h1, h2, h3⟩ := hw.call hΓ hs (op := .assignVal x (.ext f nt c)) (r := .throw e) ha
    (by spec_eval [hx', hf]; rfl) (by simp) (by simp [NoReserved, hv])
  have hq := quiet_assignVal hx (.ext f nt c)
  rw [h1] at hq
  exact ⟨w', h1, h2, h3.holds (by simp), h3.1, hq.same⟩

example := C07_assign_throws exEnv_wf ex_reach ex20 (f := fun _ g => (some (.user 4), 8#8, g)) (nt := true)
  (c := fun g => (.ok 7#8, g)) (fun _ _ => ⟨_, rfl⟩) rfl (ex_storable (by decide) 20 (by omega))

/-! ### C08 -/

/-- C08. Copy construction from an empty optional. -/
theorem C08_copy_ctor_empty (hΓ : EnvWF Γ) (hw : Reach Γ w) {x y : Nat} (hxy : Γ x = Γ y) (hx : Absent x w)
    (hy : IsEmpty Γ y w) :
    ∃ w', execOp Γ (.ctorCopy x y) w = (.ok .unit, w') ∧ Reach Γ w' ∧ IsEmpty Γ x w' ∧ w'.mem y = w.mem y ∧
      w'.user = w.user := by
  have hne : y ≠ x := by rintro rfl; rw [IsEmpty, hasValue_absent hx] at hy; simp at hy
  obtain ⟨vars, hs⟩ := hw.view hΓ
  have hx' : vars x = none := hs.abs hx
  have hy' : vars y = some none := hs.emp hy
  obtain ⟨w', h1, h2, h3⟩ := hw.call hΓ hs (op := .ctorCopy x y) (r := .ok .unit) hxy
    (by spec_eval [hx', hy']; rfl) (by simp) (by simp [NoReserved])
  have hf := (execOp_change Γ (.ctorCopy x y) w).1 y (by simp [Op.writes, hne])
  rw [h1] at hf
  exact ⟨w', h1, h2, h3.isEmpty (by simp), hf, h3.1⟩

example := C08_copy_ctor_empty exEnv_wf ex_reach (x := 25) (y := 21) rfl ex25 ex21

/-- C08. Copy construction from an engaged optional: the payload is the result of the payload's copy constructor; the
source is unchanged. -/
theorem C08_copy_ctor (hΓ : EnvWF Γ) (hw : Reach Γ w) {x y : Nat} {v v' : V} {g'} (hxy : Γ x = Γ y) (hx : Absent x w)
    (hy : Holds Γ y v w) (hc : (Γ x).ops.copyCtor v w.user = (.ok v', g')) (hv : (Γ x).cfg.Storable v') :
    ∃ w', execOp Γ (.ctorCopy x y) w = (.ok .unit, w') ∧ Reach Γ w' ∧ Holds Γ x v' w' ∧ Holds Γ y v w' ∧
      w'.mem y = w.mem y ∧ w'.user = g' := by
  have hne : y ≠ x := by rintro rfl; have := hy.1; rw [hasValue_absent hx] at this; simp at this
  obtain ⟨vars, hs⟩ := hw.view hΓ
  have hx' : vars x = none := hs.abs hx
  have hy' : vars y = some (some v) := hs.full hy
  obtain ⟨w', h1, h2, h3⟩ := hw.call hΓ hs (op := .ctorCopy x y) (r := .ok .unit) hxy
    (by spec_eval [hx', hy', hc]; rfl) (by simp) (by simp [NoReserved, hv])
  have hf := (execOp_change Γ (.ctorCopy x y) w).1 y (by simp [Op.writes, hne])
  rw [h1] at hf
  exact ⟨w', h1, h2, h3.holds (by simp), h3.holds (by simp [hne, hy']), hf, h3.1⟩

example := C08_copy_ctor exEnv_wf ex_reach (x := 25) (y := 20) (v' := 5#8) rfl ex25 ex20 rfl (ex_storable (by decide) 25 (by omega))

/-- C08. If the payload's copy constructor throws, no optional results, the source is unchanged, nothing leaks. -/
theorem C08_copy_ctor_throws (hΓ : EnvWF Γ) (hw : Reach Γ w) {x y : Nat} {v : V} {e g'} (hxy : Γ x = Γ y)
    (hx : Absent x w) (hy : Holds Γ y v w) (hc : (Γ x).ops.copyCtor v w.user = (.error e, g')) :
    ∃ w', execOp Γ (.ctorCopy x y) w = (.throw e, w') ∧ Reach Γ w' ∧ Absent x w' ∧ w'.mem y = w.mem y ∧ w'.user = g' ∧
      ∀ i, leaked w'.log i = 0 := by
  have hne : y ≠ x := by rintro rfl; have := hy.1; rw [hasValue_absent hx] at this; simp at this
  obtain ⟨vars, hs⟩ := hw.view hΓ
  have hx' : vars x = none := hs.abs hx
  have hy' : vars y = some (some v) := hs.full hy
  obtain ⟨w', h1, h2, h3⟩ := hw.call hΓ hs (op := .ctorCopy x y) (r := .throw e) hxy
    (by spec_eval [hx', hy', hc]; rfl) (by simp) (by simp [NoReserved])
  have hf := (execOp_change Γ (.ctorCopy x y) w).1 y (by simp [Op.writes, hne])
  rw [h1] at hf
  exact ⟨w', h1, h2, h3.absent (by simp [hx']), hf, h3.1, h2.leaked hΓ⟩

example := C08_copy_ctor_throws exEnv_wf ex_reach (x := 25) (y := 22) (e := .user 13) rfl ex25 ex22 rfl

/-- C08. Copy assignment, both engaged: the payload's copy assignment runs on the existing payload object, also if it
throws. -/
theorem C08_copy_assign_engaged (hΓ : EnvWF Γ) (hw : Reach Γ w) {x y : Nat} {u v u' : V} {e g'} (hne : x ≠ y) (hxy : Γ x = Γ y)
    (hx : Holds Γ x u w) (hy : Holds Γ y v w) (hc : (Γ x).ops.copyAssign u v w.user = (e, u', g'))
    (hv : (Γ x).cfg.Storable u') :
    ∃ w', execOp Γ (.assignCopy x y) w = (ofErr e, w') ∧ Reach Γ w' ∧ Holds Γ x u' w' ∧ Holds Γ y v w' ∧
      w'.mem y = w.mem y ∧ w'.user = g' ∧ SameObjects w w' := by
  obtain ⟨vars, hs⟩ := hw.view hΓ
  have hx' : vars x = some (some u) := hs.full hx
  have hy' : vars y = some (some v) := hs.full hy
  have hf := (execOp_change Γ (.assignCopy x y) w).1 y (by simp [Op.writes, hne.symm])
  have hq : Quiet w (execOp Γ (.assignCopy x y) w).2 := quiet_unit (quiet_copyOrMoveAssign hx hy _ _) _
  cases e with
  | none =>
    obtain ⟨w', h1, h2, h3⟩ := hw.call hΓ hs (op := .assignCopy x y) (r := .ok .unit) hxy
      (by spec_eval [hx', hy', hc, hne]; rfl) (by simp) (by simp [NoReserved, hv])
    rw [h1] at hf hq
    exact ⟨w', h1, h2, h3.holds (by simp), h3.holds (by simp [hne.symm, hy']), hf, h3.1, hq.same⟩
  | some e =>
    obtain ⟨w', h1, h2, h3⟩ := hw.call hΓ hs (op := .assignCopy x y) (r := .throw e) hxy
      (by spec_eval [hx', hy', hc, hne]; rfl) (by simp) (by simp [NoReserved, hv])
    rw [h1] at hf hq
    exact ⟨w', h1, h2, h3.holds (by simp), h3.holds (by simp [hne.symm, hy']), hf, h3.1, hq.same⟩

example := C08_copy_assign_engaged exEnv_wf ex_reach (x := 20) (y := 22) (e := some (.user 13)) (u' := 6#8) (by decide) rfl
  ex20 ex22 rfl (ex_storable (by decide) 20 (by omega))

/-- C08. Copy assignment to an empty optional: copy construction. -/
theorem C08_copy_assign_to_empty (hΓ : EnvWF Γ) (hw : Reach Γ w) {x y : Nat} {v v' : V} {g'} (hxy : Γ x = Γ y)
    (hx : IsEmpty Γ x w) (hy : Holds Γ y v w) (hc : (Γ x).ops.copyCtor v w.user = (.ok v', g'))
    (hv : (Γ x).cfg.Storable v') :
    ∃ w', execOp Γ (.assignCopy x y) w = (.ok .unit, w') ∧ Reach Γ w' ∧ Holds Γ x v' w' ∧ Holds Γ y v w' ∧
      w'.mem y = w.mem y ∧ w'.user = g' := by
  have hne : y ≠ x := by rintro rfl; have := hy.1; rw [hx] at this; simp at this
  obtain ⟨vars, hs⟩ := hw.view hΓ
  have hx' : vars x = some none := hs.emp hx
  have hy' : vars y = some (some v) := hs.full hy
  obtain ⟨w', h1, h2, h3⟩ := hw.call hΓ hs (op := .assignCopy x y) (r := .ok .unit) hxy
    (by spec_eval [hx', hy', hc]; rfl) (by simp) (by simp [NoReserved, hv])
  have hf := (execOp_change Γ (.assignCopy x y) w).1 y (by simp [Op.writes, hne])
  rw [h1] at hf
  exact ⟨w', h1, h2, h3.holds (by simp), h3.holds (by simp [hne, hy']), hf, h3.1⟩

example := C08_copy_assign_to_empty exEnv_wf ex_reach (x := 21) (y := 20) (v' := 5#8) rfl ex21 ex20 rfl (ex_storable (by decide) 21 (by omega))

/-- C08. … and if it throws the target stays empty. -/
theorem C08_copy_assign_to_empty_throws (hΓ : EnvWF Γ) (hw : Reach Γ w) {x y : Nat} {v : V} {e g'} (hxy : Γ x = Γ y)
    (hx : IsEmpty Γ x w) (hy : Holds Γ y v w) (hc : (Γ x).ops.copyCtor v w.user = (.error e, g')) :
    ∃ w', execOp Γ (.assignCopy x y) w = (.throw e, w') ∧ Reach Γ w' ∧ IsEmpty Γ x w' ∧ w'.mem y = w.mem y ∧
      w'.user = g' := by
  have hne : y ≠ x := by rintro rfl; have := hy.1; rw [hx] at this; simp at this
  obtain ⟨vars, hs⟩ := hw.view hΓ
  have hx' : vars x = some none := hs.emp hx
  have hy' : vars y = some (some v) := hs.full hy
  obtain ⟨w', h1, h2, h3⟩ := hw.call hΓ hs (op := .assignCopy x y) (r := .throw e) hxy
    (by spec_eval [hx', hy', hc]; rfl) (by simp) (by simp [NoReserved])
  have hf := (execOp_change Γ (.assignCopy x y) w).1 y (by simp [Op.writes, hne])
  rw [h1] at hf
  exact ⟨w', h1, h2, h3.isEmpty (by simp [hx']), hf, h3.1⟩

example := C08_copy_assign_to_empty_throws exEnv_wf ex_reach (x := 21) (y := 22) (e := .user 13) rfl ex21 ex22 rfl

/-- C08. Copy (or move) assignment from an empty optional empties the target and destroys its payload exactly once. -/
theorem C08_assign_from_empty (hΓ : EnvWF Γ) (hw : Reach Γ w) {x y id : Nat} {u : V} (hxy : Γ x = Γ y) (hx : Holds Γ x u w)
    (hid : HoldsPayload x id w) (hy : IsEmpty Γ y w) {op : Op V G} (hop : op = .assignCopy x y ∨ op = .assignMove x y) :
    ∃ w', execOp Γ op w = (.ok .unit, w') ∧ Reach Γ w' ∧ IsEmpty Γ x w' ∧ IsEmpty Γ y w' ∧
      w'.user = (Γ x).ops.dtor u w.user ∧ destroyed w.log id = 0 ∧ destroyed w'.log id = 1 := by
  have hne : y ≠ x := by rintro rfl; have := hx.1; rw [hy] at this; simp at this
  obtain ⟨vars, hs⟩ := hw.view hΓ
  have hx' : vars x = some (some u) := hs.full hx
  have hy' : vars y = some none := hs.emp hy
  obtain ⟨w', h1, h2, h3⟩ := hw.call hΓ hs (op := op) (r := .ok .unit)
    (sw' := ⟨fun z => if z = x then some none else vars z, (Γ x).ops.dtor u w.user, []⟩)
    (by rcases hop with rfl | rfl <;> exact hxy) (by rcases hop with rfl | rfl <;> spec_eval [hx', hy'])
    (by simp) (by simp [NoReserved])
  have hex : IsEmpty Γ x w' := h3.isEmpty (by simp)
  have hey : IsEmpty Γ y w' := h3.isEmpty (by simp [hne, hy'])
  have hd := hw.call_destroys hΓ h1 h2 hid (x := x)
    (by
      intro z hz
      by_cases hzx : z = x
      · exact .inl hzx
      · right
        rcases hop with rfl | rfl <;> simp [Op.writes, hzx] at hz
        subst hz; exact h2.no_payload_of_empty hΓ hey)
    (h2.no_payload_of_empty hΓ hex)
  exact ⟨w', h1, h2, hex, hey, h3.1, hd.1, hd.2⟩

example := C08_assign_from_empty exEnv_wf ex_reach (x := 20) (y := 21) (id := 1) rfl ex20 ⟨_, _, rfl, rfl⟩ ex21 (.inr rfl)

/-- C08/C09. Copy or move assignment between two empty optionals (also of one to itself) changes nothing at all. -/
theorem C08_assign_empty_empty {x y : Nat} (hx : IsEmpty Γ x w) (hy : IsEmpty Γ y w)
    {op : Op V G} (hop : op = .assignCopy x y ∨ op = .assignMove x y) : execOp Γ op w = (.ok .unit, w) := by
  have hr : Model.reset Γ x w = (.ok (), w) := noexceptIf_ok ((bind_ok hx).trans rfl)
  have ha : assertSame Γ x y w = (.ok (), w) := by
    unfold assertSame assertM
    split
    · rfl
    · show M.bind _ _ w = _
      unfold M.bind
      rw [bind_ok hx, bind_ok hy]
      simp [pure_run, M.pure]
  have hbody : ∀ nt, ∀ a : AArg V G, copyOrMoveAssign Γ nt a x y w = (.ok (), w) := by
    intro nt a
    refine noexceptIf_ok ?_
    rw [bind_ok hy]
    simp only [Bool.false_eq_true, if_false]
    rw [bind_ok hr, ha]
  rcases hop with rfl | rfl
  · exact bind_ok (hbody _ _)
  · exact bind_ok (hbody _ _)

example := C08_assign_empty_empty ex21 ex23 (.inl rfl)
example := C08_assign_empty_empty ex21 ex21 (.inr rfl)

/-! ### C09 -/

/-- C09. Move construction from an engaged optional: the source stays engaged with the moved-from value. -/
theorem C09_move_ctor (hΓ : EnvWF Γ) (hw : Reach Γ w) {x y : Nat} {v a v' : V} {g'} (hxy : Γ x = Γ y) (hx : Absent x w)
    (hy : Holds Γ y v w) (hc : (Γ x).ops.moveCtor v w.user = (.ok a, v', g')) (ha : (Γ x).cfg.Storable a)
    (hv : (Γ y).cfg.Storable v') :
    ∃ w', execOp Γ (.ctorMove x y) w = (.ok .unit, w') ∧ Reach Γ w' ∧ Holds Γ x a w' ∧ Holds Γ y v' w' ∧
      w'.user = g' := by
  have hne : y ≠ x := by rintro rfl; have := hy.1; rw [hasValue_absent hx] at this; simp at this
  obtain ⟨vars, hs⟩ := hw.view hΓ
  have hx' : vars x = none := hs.abs hx
  have hy' : vars y = some (some v) := hs.full hy
  obtain ⟨w', h1, h2, h3⟩ := hw.call hΓ hs (op := .ctorMove x y) (r := .ok .unit) hxy
    (by spec_eval [hx', hy', hc]; rfl) (by simp)
    (by simp only [NoReserved]; intro p hp; simp at hp; rcases hp with rfl | rfl <;> assumption)
  exact ⟨w', h1, h2, h3.holds (by simp), h3.holds (by simp [hne]), h3.1⟩

example := C09_move_ctor exEnv_wf ex_reach (x := 25) (y := 20) (a := 5#8) (v' := 0#8) rfl ex25 ex20 rfl
  (ex_storable (by decide) 25 (by omega)) (ex_storable (by decide) 20 (by omega))

/-- C09. … and if the payload's move constructor throws: no new optional, the source is engaged with whatever the move
constructor left behind. -/
theorem C09_move_ctor_throws (hΓ : EnvWF Γ) (hw : Reach Γ w) {x y : Nat} {v v' : V} {e g'} (hxy : Γ x = Γ y)
    (hx : Absent x w) (hy : Holds Γ y v w) (hc : (Γ x).ops.moveCtor v w.user = (.error e, v', g'))
    (hv : (Γ y).cfg.Storable v') :
    ∃ w', execOp Γ (.ctorMove x y) w = (.throw e, w') ∧ Reach Γ w' ∧ Absent x w' ∧ Holds Γ y v' w' ∧ w'.user = g' := by
  have hne : y ≠ x := by rintro rfl; have := hy.1; rw [hasValue_absent hx] at this; simp at this
  obtain ⟨vars, hs⟩ := hw.view hΓ
  have hx' : vars x = none := hs.abs hx
  have hy' : vars y = some (some v) := hs.full hy
  obtain ⟨w', h1, h2, h3⟩ := hw.call hΓ hs (op := .ctorMove x y) (r := .throw e) hxy
    (by spec_eval [hx', hy', hc]; rfl) (by simp) (by simp [NoReserved, hv])
  exact ⟨w', h1, h2, h3.absent (by simp [hne.symm, hx']), h3.holds (by simp), h3.1⟩

example := C09_move_ctor_throws exEnv_wf ex_reach (x := 25) (y := 24) (e := .user 99) (v' := 98#8) rfl ex25 ex24 rfl
  (ex_storable (by decide) 24 (by omega))

/-- C09. Move construction from an empty optional: both are empty. -/
theorem C09_move_ctor_empty (hΓ : EnvWF Γ) (hw : Reach Γ w) {x y : Nat} (hxy : Γ x = Γ y) (hx : Absent x w)
    (hy : IsEmpty Γ y w) :
    ∃ w', execOp Γ (.ctorMove x y) w = (.ok .unit, w') ∧ Reach Γ w' ∧ IsEmpty Γ x w' ∧ IsEmpty Γ y w' ∧
      w'.user = w.user := by
  have hne : y ≠ x := by rintro rfl; rw [IsEmpty, hasValue_absent hx] at hy; simp at hy
  obtain ⟨vars, hs⟩ := hw.view hΓ
  have hx' : vars x = none := hs.abs hx
  have hy' : vars y = some none := hs.emp hy
  obtain ⟨w', h1, h2, h3⟩ := hw.call hΓ hs (op := .ctorMove x y) (r := .ok .unit) hxy
    (by spec_eval [hx', hy']; rfl) (by simp) (by simp [NoReserved])
  exact ⟨w', h1, h2, h3.isEmpty (by simp), h3.isEmpty (by simp [hne, hy']), h3.1⟩

example := C09_move_ctor_empty exEnv_wf ex_reach (x := 25) (y := 21) rfl ex25 ex21

/-- C09. Move assignment, both engaged: one payload move assignment on the existing payload objects, also if it throws. -/
theorem C09_move_assign_engaged (hΓ : EnvWF Γ) (hw : Reach Γ w) {x y : Nat} {u v u' v' : V} {e g'} (hne : x ≠ y)
    (hxy : Γ x = Γ y) (hx : Holds Γ x u w) (hy : Holds Γ y v w)
    (hc : (Γ x).ops.moveAssign u v w.user = (e, u', v', g')) (hu : (Γ x).cfg.Storable u')
    (hv : (Γ y).cfg.Storable v') :
    ∃ w', execOp Γ (.assignMove x y) w = (ofErr e, w') ∧ Reach Γ w' ∧ Holds Γ x u' w' ∧ Holds Γ y v' w' ∧
      w'.user = g' ∧ SameObjects w w' := by
  obtain ⟨vars, hs⟩ := hw.view hΓ
  have hx' : vars x = some (some u) := hs.full hx
  have hy' : vars y = some (some v) := hs.full hy
  have hq : Quiet w (execOp Γ (.assignMove x y) w).2 := quiet_unit (quiet_copyOrMoveAssign hx hy _ _) _
  cases e with
  | none =>
    obtain ⟨w', h1, h2, h3⟩ := hw.call hΓ hs (op := .assignMove x y) (r := .ok .unit) hxy
      (by spec_eval [hx', hy', hc, hne]; rfl) (by simp)
      (by simp only [NoReserved]; intro p hp; simp at hp; rcases hp with rfl | rfl <;> assumption)
    rw [h1] at hq
    exact ⟨w', h1, h2, h3.holds (by simp [hne]), h3.holds (by simp), h3.1, hq.same⟩
  | some e =>
    obtain ⟨w', h1, h2, h3⟩ := hw.call hΓ hs (op := .assignMove x y) (r := .throw e) hxy
      (by spec_eval [hx', hy', hc, hne]; rfl) (by simp)
      (by simp only [NoReserved]; intro p hp; simp at hp; rcases hp with rfl | rfl <;> assumption)
    rw [h1] at hq
    exact ⟨w', h1, h2, h3.holds (by simp [hne]), h3.holds (by simp), h3.1, hq.same⟩

example := C09_move_assign_engaged exEnv_wf ex_reach (x := 20) (y := 24) (e := some (.user 99)) (u' := 6#8) (v' := 98#8)
  (by decide) rfl ex20 ex24 rfl (ex_storable (by decide) 20 (by omega)) (ex_storable (by decide) 24 (by omega))
example := C09_move_assign_engaged exEnv_wf ex_reach (x := 20) (y := 22) (e := none) (u' := 13#8) (v' := 0#8)
  (by decide) rfl ex20 ex22 rfl (ex_storable (by decide) 20 (by omega)) (ex_storable (by decide) 22 (by omega))

/-- C09. Move assignment to an empty optional: move construction; the source stays engaged. -/
theorem C09_move_assign_to_empty (hΓ : EnvWF Γ) (hw : Reach Γ w) {x y : Nat} {v a v' : V} {g'} (hxy : Γ x = Γ y)
    (hx : IsEmpty Γ x w) (hy : Holds Γ y v w) (hc : (Γ x).ops.moveCtor v w.user = (.ok a, v', g'))
    (ha : (Γ x).cfg.Storable a) (hv : (Γ y).cfg.Storable v') :
    ∃ w', execOp Γ (.assignMove x y) w = (.ok .unit, w') ∧ Reach Γ w' ∧ Holds Γ x a w' ∧ Holds Γ y v' w' ∧
      w'.user = g' := by
  have hne : y ≠ x := by rintro rfl; have := hy.1; rw [hx] at this; simp at this
  obtain ⟨vars, hs⟩ := hw.view hΓ
  have hx' : vars x = some none := hs.emp hx
  have hy' : vars y = some (some v) := hs.full hy
  obtain ⟨w', h1, h2, h3⟩ := hw.call hΓ hs (op := .assignMove x y) (r := .ok .unit) hxy
    (by spec_eval [hx', hy', hc]; rfl) (by simp)
    (by simp only [NoReserved]; intro p hp; simp at hp; rcases hp with rfl | rfl <;> assumption)
  exact ⟨w', h1, h2, h3.holds (by simp), h3.holds (by simp [hne]), h3.1⟩

example := C09_move_assign_to_empty exEnv_wf ex_reach (x := 21) (y := 20) (a := 5#8) (v' := 0#8) rfl ex21 ex20 rfl
  (ex_storable (by decide) 21 (by omega)) (ex_storable (by decide) 20 (by omega))

/-- C09. … and if it throws, the target stays empty and the source engaged. -/
theorem C09_move_assign_to_empty_throws (hΓ : EnvWF Γ) (hw : Reach Γ w) {x y : Nat} {v v' : V} {e g'} (hxy : Γ x = Γ y)
    (hx : IsEmpty Γ x w) (hy : Holds Γ y v w) (hc : (Γ x).ops.moveCtor v w.user = (.error e, v', g'))
    (hv : (Γ y).cfg.Storable v') :
    ∃ w', execOp Γ (.assignMove x y) w = (.throw e, w') ∧ Reach Γ w' ∧ IsEmpty Γ x w' ∧ Holds Γ y v' w' ∧
      w'.user = g' := by
  have hne : y ≠ x := by rintro rfl; have := hy.1; rw [hx] at this; simp at this
  obtain ⟨vars, hs⟩ := hw.view hΓ
  have hx' : vars x = some none := hs.emp hx
  have hy' : vars y = some (some v) := hs.full hy
  obtain ⟨w', h1, h2, h3⟩ := hw.call hΓ hs (op := .assignMove x y) (r := .throw e) hxy
    (by spec_eval [hx', hy', hc]; rfl) (by simp) (by simp [NoReserved, hv])
  exact ⟨w', h1, h2, h3.isEmpty (by simp [hne.symm, hx']), h3.holds (by simp), h3.1⟩

example := C09_move_assign_to_empty_throws exEnv_wf ex_reach (x := 21) (y := 24) (e := .user 99) (v' := 98#8) rfl ex21 ex24
  rfl (ex_storable (by decide) 24 (by omega))

/-! ### C10 -/

/-- C10. Two engaged optionals: one payload swap on the existing payload objects, also if it throws. -/
theorem C10_swap_engaged (hΓ : EnvWF Γ) (hw : Reach Γ w) {x y : Nat} {a b a' b' : V} {e g'} (hne : x ≠ y)
    (hxy : Γ x = Γ y) (hx : Holds Γ x a w) (hy : Holds Γ y b w) (hc : (Γ x).ops.swap a b w.user = (e, a', b', g'))
    (ha : (Γ x).cfg.Storable a') (hb : (Γ y).cfg.Storable b') :
    ∃ w', execOp Γ (.swap x y) w = (ofErr e, w') ∧ Reach Γ w' ∧ Holds Γ x a' w' ∧ Holds Γ y b' w' ∧ w'.user = g' ∧
      SameObjects w w' := by
  obtain ⟨vars, hs⟩ := hw.view hΓ
  have hx' : vars x = some (some a) := hs.full hx
  have hy' : vars y = some (some b) := hs.full hy
  have hq : Quiet w (execOp Γ (.swap x y) w).2 := quiet_unit (quiet_swap hx hy) _
  cases e with
  | none =>
    obtain ⟨w', h1, h2, h3⟩ := hw.call hΓ hs (op := .swap x y) (r := .ok .unit) hxy
      (by spec_eval [hx', hy', hc, hne]; rfl) (by simp)
      (by simp only [NoReserved]; intro p hp; simp at hp; rcases hp with rfl | rfl <;> assumption)
    rw [h1] at hq
    exact ⟨w', h1, h2, h3.holds (by simp [hne]), h3.holds (by simp), h3.1, hq.same⟩
  | some e =>
    obtain ⟨w', h1, h2, h3⟩ := hw.call hΓ hs (op := .swap x y) (r := .throw e) hxy
      (by spec_eval [hx', hy', hc, hne]; rfl) (by simp)
      (by simp only [NoReserved]; intro p hp; simp at hp; rcases hp with rfl | rfl <;> assumption)
    rw [h1] at hq
    exact ⟨w', h1, h2, h3.holds (by simp [hne]), h3.holds (by simp), h3.1, hq.same⟩

example := C10_swap_engaged exEnv_wf ex_reach (x := 20) (y := 22) (e := none) (a' := 13#8) (b' := 5#8)
  (by decide) rfl ex20 ex22 rfl (ex_storable (by decide) 20 (by omega)) (ex_storable (by decide) 22 (by omega))

/-- C10. An engaged and an empty optional exchange roles: one payload move construction, one destruction of the
moved-from payload. Both argument orders. -/
theorem C10_swap_mixed (hΓ : EnvWF Γ) (hw : Reach Γ w) {x y id : Nat} {v a v' : V} {g'} (hxy : Γ x = Γ y)
    (hx : Holds Γ x v w) (hid : HoldsPayload x id w) (hy : IsEmpty Γ y w)
    (hc : (Γ x).ops.moveCtor v w.user = (.ok a, v', g'))
    (ha : (Γ y).cfg.Storable a) (hv : (Γ x).cfg.Storable v') {op : Op V G} (hop : op = .swap x y ∨ op = .swap y x) :
    ∃ w', execOp Γ op w = (.ok .unit, w') ∧ Reach Γ w' ∧ IsEmpty Γ x w' ∧ Holds Γ y a w' ∧
      w'.user = (Γ x).ops.dtor v' g' ∧ destroyed w.log id = 0 ∧ destroyed w'.log id = 1 := by
  have hne : y ≠ x := by rintro rfl; have := hx.1; rw [hy] at this; simp at this
  obtain ⟨vars, hs⟩ := hw.view hΓ
  have hx' : vars x = some (some v) := hs.full hx
  have hy' : vars y = some none := hs.emp hy
  obtain ⟨w', h1, h2, h3⟩ := hw.call hΓ hs (op := op) (r := .ok .unit)
    (sw' := ⟨fun z => if z = x then some none else if z = y then some (some a) else
       if z = x then some (some v') else vars z, (Γ x).ops.dtor v' g', [(x, v'), (y, a)]⟩)
    (by rcases hop with rfl | rfl <;> simp [OpOK, hxy])
    (by rcases hop with rfl | rfl <;> spec_eval [hx', hy', hc, ← hxy, hne.symm])
    (by simp)
    (by simp only [NoReserved]; intro p hp; simp at hp; rcases hp with rfl | rfl <;> assumption)
  have hex : IsEmpty Γ x w' := h3.isEmpty (by simp)
  have hhy : Holds Γ y a w' := h3.holds (by simp [hne])
  have hd := hw.call_destroys' hΓ h1 h2 hid (h2.no_payload_of_empty hΓ hex id)
  exact ⟨w', h1, h2, hex, hhy, h3.1, hd.1, hd.2⟩

example := C10_swap_mixed exEnv_wf ex_reach (x := 20) (y := 21) (id := 1) (a := 5#8) (v' := 0#8) rfl ex20 ⟨_, _, rfl, rfl⟩ ex21 rfl
  (ex_storable (by decide) 21 (by omega)) (ex_storable (by decide) 20 (by omega)) (.inr rfl)

/-- C10. If that payload move throws, engagement of both is unchanged and nothing was destroyed. -/
theorem C10_swap_mixed_throws (hΓ : EnvWF Γ) (hw : Reach Γ w) {x y : Nat} {v v' : V} {e g'} (hxy : Γ x = Γ y)
    (hx : Holds Γ x v w) (hy : IsEmpty Γ y w) (hc : (Γ x).ops.moveCtor v w.user = (.error e, v', g'))
    (hv : (Γ x).cfg.Storable v') {op : Op V G} (hop : op = .swap x y ∨ op = .swap y x) :
    ∃ w', execOp Γ op w = (.throw e, w') ∧ Reach Γ w' ∧ Holds Γ x v' w' ∧ IsEmpty Γ y w' ∧ w'.user = g' := by
  have hne : y ≠ x := by rintro rfl; have := hx.1; rw [hy] at this; simp at this
  obtain ⟨vars, hs⟩ := hw.view hΓ
  have hx' : vars x = some (some v) := hs.full hx
  have hy' : vars y = some none := hs.emp hy
  obtain ⟨w', h1, h2, h3⟩ := hw.call hΓ hs (op := op) (r := .throw e)
    (sw' := ⟨fun z => if z = x then some (some v') else vars z, g', [(x, v')]⟩)
    (by rcases hop with rfl | rfl <;> simp [OpOK, hxy])
    (by rcases hop with rfl | rfl <;> spec_eval [hx', hy', hc, ← hxy, hne.symm])
    (by simp) (by simp [NoReserved, hv])
  exact ⟨w', h1, h2, h3.holds (by simp), h3.isEmpty (by simp [hne, hy']), h3.1⟩

example := C10_swap_mixed_throws exEnv_wf ex_reach (x := 24) (y := 21) (e := .user 99) (v' := 98#8) rfl ex24 ex21 rfl
  (ex_storable (by decide) 24 (by omega)) (.inl rfl)

/-- C10, C11. Swapping two empty optionals (also one with itself) changes nothing at all. -/
theorem C10_swap_empty {x y : Nat} (hx : IsEmpty Γ x w) (hy : IsEmpty Γ y w) :
    execOp Γ (.swap x y) w = (.ok .unit, w) := by
  have hb : swapBody Γ x y w = (.ok (), w) := by
    unfold swapBody
    rw [bind_ok hx, bind_ok hy]
    rfl
  exact bind_ok (noexceptIf_ok hb)

example := C10_swap_empty ex21 ex23

/-! ### C11 -/

/-- C11. `o = o` on an engaged optional: exactly one self copy assignment of the payload, no construction or
destruction. -/
theorem C11_self_copy_assign (hΓ : EnvWF Γ) (hw : Reach Γ w) {x : Nat} {v v' : V} {e g'} (hx : Holds Γ x v w)
    (hc : (Γ x).ops.selfCopyAssign v w.user = (e, v', g')) (hv : (Γ x).cfg.Storable v') :
    ∃ w', execOp Γ (.assignCopy x x) w = (ofErr e, w') ∧ Reach Γ w' ∧ Holds Γ x v' w' ∧ w'.user = g' ∧
      SameObjects w w' := by
  obtain ⟨vars, hs⟩ := hw.view hΓ
  have hx' : vars x = some (some v) := hs.full hx
  have hq : Quiet w (execOp Γ (.assignCopy x x) w).2 := quiet_unit (quiet_copyOrMoveAssign hx hx _ _) _
  cases e with
  | none =>
    obtain ⟨w', h1, h2, h3⟩ := hw.call hΓ hs (op := .assignCopy x x) (r := .ok .unit) rfl
      (by spec_eval [hx', hc]; rfl) (by simp) (by simp [NoReserved, hv])
    rw [h1] at hq
    exact ⟨w', h1, h2, h3.holds (by simp), h3.1, hq.same⟩
  | some e =>
    obtain ⟨w', h1, h2, h3⟩ := hw.call hΓ hs (op := .assignCopy x x) (r := .throw e) rfl
      (by spec_eval [hx', hc]; rfl) (by simp) (by simp [NoReserved, hv])
    rw [h1] at hq
    exact ⟨w', h1, h2, h3.holds (by simp), h3.1, hq.same⟩

example := C11_self_copy_assign exEnv_wf ex_reach (x := 20) (e := none) (v' := 5#8) ex20 rfl (ex_storable (by decide) 20 (by omega))

/-- C11. `o = std::move(o)` on an engaged optional. -/
theorem C11_self_move_assign (hΓ : EnvWF Γ) (hw : Reach Γ w) {x : Nat} {v v' : V} {e g'} (hx : Holds Γ x v w)
    (hc : (Γ x).ops.selfMoveAssign v w.user = (e, v', g')) (hv : (Γ x).cfg.Storable v') :
    ∃ w', execOp Γ (.assignMove x x) w = (ofErr e, w') ∧ Reach Γ w' ∧ Holds Γ x v' w' ∧ w'.user = g' ∧
      SameObjects w w' := by
  obtain ⟨vars, hs⟩ := hw.view hΓ
  have hx' : vars x = some (some v) := hs.full hx
  have hq : Quiet w (execOp Γ (.assignMove x x) w).2 := quiet_unit (quiet_copyOrMoveAssign hx hx _ _) _
  cases e with
  | none =>
    obtain ⟨w', h1, h2, h3⟩ := hw.call hΓ hs (op := .assignMove x x) (r := .ok .unit) rfl
      (by spec_eval [hx', hc]; rfl) (by simp) (by simp [NoReserved, hv])
    rw [h1] at hq
    exact ⟨w', h1, h2, h3.holds (by simp), h3.1, hq.same⟩
  | some e =>
    obtain ⟨w', h1, h2, h3⟩ := hw.call hΓ hs (op := .assignMove x x) (r := .throw e) rfl
      (by spec_eval [hx', hc]; rfl) (by simp) (by simp [NoReserved, hv])
    rw [h1] at hq
    exact ⟨w', h1, h2, h3.holds (by simp), h3.1, hq.same⟩

example := C11_self_move_assign exEnv_wf ex_reach (x := 20) (e := none) (v' := 5#8) ex20 rfl (ex_storable (by decide) 20 (by omega))

/-- C11. `o.swap(o)` on an engaged optional. -/
theorem C11_self_swap (hΓ : EnvWF Γ) (hw : Reach Γ w) {x : Nat} {v v' : V} {e g'} (hx : Holds Γ x v w)
    (hc : (Γ x).ops.selfSwap v w.user = (e, v', g')) (hv : (Γ x).cfg.Storable v') :
    ∃ w', execOp Γ (.swap x x) w = (ofErr e, w') ∧ Reach Γ w' ∧ Holds Γ x v' w' ∧ w'.user = g' ∧ SameObjects w w' := by
  obtain ⟨vars, hs⟩ := hw.view hΓ
  have hx' : vars x = some (some v) := hs.full hx
  have hq : Quiet w (execOp Γ (.swap x x) w).2 := quiet_unit (quiet_swap hx hx) _
  cases e with
  | none =>
    obtain ⟨w', h1, h2, h3⟩ := hw.call hΓ hs (op := .swap x x) (r := .ok .unit) rfl
      (by spec_eval [hx', hc]; rfl) (by simp) (by simp [NoReserved, hv])
    rw [h1] at hq
    exact ⟨w', h1, h2, h3.holds (by simp), h3.1, hq.same⟩
  | some e =>
    obtain ⟨w', h1, h2, h3⟩ := hw.call hΓ hs (op := .swap x x) (r := .throw e) rfl
      (by spec_eval [hx', hc]; rfl) (by simp) (by simp [NoReserved, hv])
    rw [h1] at hq
    exact ⟨w', h1, h2, h3.holds (by simp), h3.1, hq.same⟩

example := C11_self_swap exEnv_wf ex_reach (x := 20) (e := none) (v' := 5#8) ex20 rfl (ex_storable (by decide) 20 (by omega))

/-- C11. On an empty optional the three self operations do nothing at all. -/
theorem C11_self_empty {x : Nat} (hx : IsEmpty Γ x w) {op : Op V G}
    (hop : op = .assignCopy x x ∨ op = .assignMove x x ∨ op = .swap x x) : execOp Γ op w = (.ok .unit, w) := by
  rcases hop with rfl | rfl | rfl
  · exact C08_assign_empty_empty hx hx (.inl rfl)
  · exact C08_assign_empty_empty hx hx (.inr rfl)
  · exact C10_swap_empty hx hx

example := C11_self_empty ex21 (.inr (.inr rfl))

/-! ### C41 -/

/-- C41. `o = *o` (`operator=(U&&)` with an lvalue referring to the own payload). -/
theorem C41_assign_own_payload (hΓ : EnvWF Γ) (hw : Reach Γ w) {x : Nat} {v v' : V} {e g'} (hx : Holds Γ x v w)
    (hc : (Γ x).ops.selfCopyAssign v w.user = (e, v', g')) (hv : (Γ x).cfg.Storable v') :
    ∃ w', execOp Γ (.assignVal x (.copyOf x)) w = (ofErr e, w') ∧ Reach Γ w' ∧ Holds Γ x v' w' ∧ w'.user = g' ∧
      SameObjects w w' := by
  obtain ⟨vars, hs⟩ := hw.view hΓ
  have hx' : vars x = some (some v) := hs.full hx
  have hq := quiet_assignVal hx (.copyOf x)
  cases e with
  | none =>
    obtain ⟨w', h1, h2, h3⟩ := hw.call hΓ hs (op := .assignVal x (.copyOf x)) (r := .ok .unit) trivial
      (by spec_eval [hx', hc]; rfl) (by simp) (by simp [NoReserved, hv])
    rw [h1] at hq
    exact ⟨w', h1, h2, h3.holds (by simp), h3.1, hq.same⟩
  | some e =>
    obtain ⟨w', h1, h2, h3⟩ := hw.call hΓ hs (op := .assignVal x (.copyOf x)) (r := .throw e) trivial
      (by spec_eval [hx', hc]; rfl) (by simp) (by simp [NoReserved, hv])
    rw [h1] at hq
    exact ⟨w', h1, h2, h3.holds (by simp), h3.1, hq.same⟩

example := C41_assign_own_payload exEnv_wf ex_reach (x := 20) (e := none) (v' := 5#8) ex20 rfl (ex_storable (by decide) 20 (by omega))

/-- C41. `o = std::move(*o)`. -/
theorem C41_move_assign_own_payload (hΓ : EnvWF Γ) (hw : Reach Γ w) {x : Nat} {v v' : V} {e g'} (hx : Holds Γ x v w)
    (hc : (Γ x).ops.selfMoveAssign v w.user = (e, v', g')) (hv : (Γ x).cfg.Storable v') :
    ∃ w', execOp Γ (.assignVal x (.moveOf x)) w = (ofErr e, w') ∧ Reach Γ w' ∧ Holds Γ x v' w' ∧ w'.user = g' ∧
      SameObjects w w' := by
  obtain ⟨vars, hs⟩ := hw.view hΓ
  have hx' : vars x = some (some v) := hs.full hx
  have hq := quiet_assignVal hx (.moveOf x)
  cases e with
  | none =>
    obtain ⟨w', h1, h2, h3⟩ := hw.call hΓ hs (op := .assignVal x (.moveOf x)) (r := .ok .unit) trivial
      (by spec_eval [hx', hc]; rfl) (by simp) (by simp [NoReserved, hv])
    rw [h1] at hq
    exact ⟨w', h1, h2, h3.holds (by simp), h3.1, hq.same⟩
  | some e =>
    obtain ⟨w', h1, h2, h3⟩ := hw.call hΓ hs (op := .assignVal x (.moveOf x)) (r := .throw e) trivial
      (by spec_eval [hx', hc]; rfl) (by simp) (by simp [NoReserved, hv])
    rw [h1] at hq
    exact ⟨w', h1, h2, h3.holds (by simp), h3.1, hq.same⟩

example := C41_move_assign_own_payload exEnv_wf ex_reach (x := 20) (e := none) (v' := 5#8) ex20 rfl (ex_storable (by decide) 20 (by omega))

/-- C41. `o.emplace(*o)` and `o.emplace(std::move(*o))` read the payload after it was destroyed, in every reachable
world where `o` is engaged. (The same holds for `std::optional`: the specification is `undef`.) -/
theorem C41_emplace_own_payload (hΓ : EnvWF Γ) (hw : Reach Γ w) {x : Nat} {v : V} (hx : Holds Γ x v w) {a : Arg V G}
    (ha : a = .copyOf x ∨ a = .moveOf x) :
    (execOp Γ (.emplace x a) w).1 = .abort (.ub .noObject) ∧
    ∀ sw, Sees Γ w sw → (Spec.specOp (fun x => (Γ x).ops) (.emplace x a) sw).1 = .undef := by
  constructor
  · obtain ⟨vars, hs⟩ := hw.view hΓ
    have hx' : vars x = some (some v) := hs.full hx
    obtain ⟨w1, h1, h2, h3⟩ := hw.call hΓ hs (op := .reset x) (r := .ok .unit) trivial
      (by spec_eval [hx']; rfl) (by simp) (by simp [NoReserved])
    have hr : Model.reset Γ x w = (.ok (), w1) := by
      have h1 : (Model.reset Γ x >>= fun _ => pure Obs.unit) w = (.ok .unit, w1) := h1
      rcases hm : Model.reset Γ x w with ⟨r | e | k, w'⟩
      · rw [bind_ok hm] at h1; simp only [pure_run, Prod.mk.injEq] at h1; rw [h1.2]
      · rw [bind_throw hm] at h1; simp at h1
      · rw [bind_abort hm] at h1; simp at h1
    obtain ⟨sw1, hR1, _⟩ := h2.rel hΓ
    have hx1 : sw1.vars x = some none := (hR1.isEmpty_iff hΓ).1 (h3.isEmpty (by simp))
    obtain ⟨w2, hc⟩ := constructWith_abort (nt := nothrowArg (Γ x).ops a) (mk := evalArg Γ (Γ x).ops a)
        (k := .ub .noObject) hΓ hR1 hx1 (by
      intro w₁ hR
      obtain ⟨_, s, hs, hraw⟩ := hR.hole
      have hg : getPayload x w₁ = (.abort (.ub .noObject), w₁) := by
        unfold getPayload
        rw [bind_ok (readStorage_ok hs), hraw.1.1]; rfl
      rcases ha with rfl | rfl
      · exact ⟨_, bind_abort hg⟩
      · exact ⟨_, bind_abort hg⟩)
    have he : Model.emplace Γ x a w = (.abort (.ub .noObject), w2) := by
      unfold Model.emplace
      rw [bind_ok hr]
      exact bind_abort hc
    show ((Model.emplace Γ x a >>= fun v => pure (Obs.val v)) w).1 = _
    rw [bind_abort he]
  · intro sw hs
    have hx' : sw.vars x = some (some v) := hs.full hx
    rcases ha with rfl | rfl <;> spec_eval [hx']

example := C41_emplace_own_payload exEnv_wf ex_reach ex20 (.inl rfl)

end Verif.Props
