import Verif.Lemmas.Step
import Verif.Examples

/-!
# C14-C18: value_or and the monadic operations

The callable `f` gets the payload by reference: it returns its result together with what it leaves in the payload.
`w'.user = g'`, where `g'` is what one call of the callable makes of the user state, says that it was called exactly
once and that no other user code (copy, move, destructor) ran.
-/

namespace Verif.Props
open Verif Verif.Model Verif.Spec Verif.Examples

variable {V G : Type} {Γ : Env V G} {w : World V G}

/-! ### C14 -/

/-- C14. `value_or` on an engaged lvalue: a copy of the payload; the default is not touched; the world is the same up to
the effects of the copy constructor. Also if the copy throws. -/
theorem C14_value_or_lvalue (hΓ : EnvWF Γ) {x : Nat} {v : V} {r g'} (hx : Holds Γ x v w)
    (hw : Reach Γ w) (d : G → Except Exn V × G) (hc : (Γ x).ops.copyCtor v w.user = (r, g')) :
    execOp Γ (.valueOr false x d) w =
      (match r with | .ok u => .ok (.val u) | .error e => .throw e, { w with user := g' }) := by
  obtain ⟨sw, hR, _⟩ := hw.rel hΓ
  obtain ⟨s, hs, ⟨id, hp⟩, _⟩ := hR.full ((hR.holds_iff hΓ).1 hx)
  have hg : getPayload x w = (.ok v, w) := by
    unfold getPayload; rw [bind_ok (readStorage_ok hs), hp]; rfl
  have hv : Model.valueOr Γ false x d w = userCall ((Γ x).ops.copyCtor v) w := by
    unfold Model.valueOr
    rw [bind_ok hx.1]
    simp only [if_true, Bool.false_eq_true, if_false]
    exact bind_ok hg
  show ((Model.valueOr Γ false x d >>= fun v => pure (Obs.val v)) w) = _
  cases r with
  | ok u => rw [bind_ok (hv.trans (userCall_ok hc))]; rfl
  | error e => rw [bind_throw (hv.trans (userCall_error hc))]

example := C14_value_or_lvalue exEnv_wf ex20 ex_reach (fun g => (.ok 1#8, g ++ ["default"])) rfl
example := C14_value_or_lvalue exEnv_wf ex22 ex_reach (fun g => (.ok 1#8, g ++ ["default"])) rfl

/-- C14. `value_or` on an engaged rvalue: the payload is moved out; the optional stays engaged with the moved-from value,
also if the move throws. -/
theorem C14_value_or_rvalue (hΓ : EnvWF Γ) (hw : Reach Γ w) {x : Nat} {v v' : V} {r g'} (hx : Holds Γ x v w)
    (d : G → Except Exn V × G) (hc : (Γ x).ops.moveCtor v w.user = (r, v', g')) (hv : (Γ x).cfg.Storable v') :
    ∃ w', execOp Γ (.valueOr true x d) w = (match r with | .ok u => .ok (.val u) | .error e => .throw e, w') ∧
      Reach Γ w' ∧ Holds Γ x v' w' ∧ w'.user = g' := by
  obtain ⟨vars, hs⟩ := hw.view hΓ
  have hx' : vars x = some (some v) := hs.full hx
  cases r with
  | ok u =>
    obtain ⟨w', h1, h2, h3⟩ := hw.call hΓ hs (op := .valueOr true x d) (r := .ok (.val u)) trivial
      (by spec_eval [hx', hc]; rfl) (by simp) (by simp [NoReserved, hv])
    exact ⟨w', h1, h2, h3.holds (by simp), h3.1⟩
  | error e =>
    obtain ⟨w', h1, h2, h3⟩ := hw.call hΓ hs (op := .valueOr true x d) (r := .throw e) trivial
      (by spec_eval [hx', hc]; rfl) (by simp) (by simp [NoReserved, hv])
    exact ⟨w', h1, h2, h3.holds (by simp), h3.1⟩

example := C14_value_or_rvalue exEnv_wf ex_reach ex20 (fun g => (.ok 1#8, g)) (v' := 0#8) rfl
  (ex_storable (by decide) 20 (by omega))

/-- C14. `value_or` on an empty optional: the converted default (or the exception of that conversion); nothing else
changes. -/
theorem C14_value_or_empty {x : Nat} (hx : IsEmpty Γ x w) (rv : Bool) {d : G → Except Exn V × G} {r g'}
    (hd : d w.user = (r, g')) :
    execOp Γ (.valueOr rv x d) w =
      (match r with | .ok u => .ok (.val u) | .error e => .throw e, { w with user := g' }) := by
  have hv : Model.valueOr Γ rv x d w = userCall d w := by
    unfold Model.valueOr
    rw [bind_ok hx]; rfl
  show ((Model.valueOr Γ rv x d >>= fun v => pure (Obs.val v)) w) = _
  cases r with
  | ok u => rw [bind_ok (hv.trans (userCall_ok hd))]; rfl
  | error e => rw [bind_throw (hv.trans (userCall_error hd))]

example := C14_value_or_empty (Γ := exEnv) ex21 true (d := fun g => (.ok 1#8, g ++ ["default"])) rfl

/-! ### C15 -/

/-- C15. `and_then` on an engaged optional returns exactly `f`'s optional. -/
theorem C15_and_then (hΓ : EnvWF Γ) (hw : Reach Γ w) {x dst : Nat} {v v' : V} {o : Option V} {f g'} (hx : Holds Γ x v w)
    (hd : Absent dst w) (hf : f v w.user = (.ok o, v', g')) (hv : (Γ x).cfg.Storable v')
    (ho : ∀ u, o = some u → (Γ dst).cfg.Storable u) :
    ∃ w', execOp Γ (.andThen x dst f) w = (.ok .unit, w') ∧ Reach Γ w' ∧
      (match o with | none => IsEmpty Γ dst w' | some u => Holds Γ dst u w') ∧ Holds Γ x v' w' ∧ w'.user = g' := by
  have hne : x ≠ dst := by rintro rfl; have := hx.1; rw [hasValue_absent hd] at this; simp at this
  obtain ⟨vars, hs⟩ := hw.view hΓ
  have hx' : vars x = some (some v) := hs.full hx
  have hd' : vars dst = none := hs.abs hd
  cases o with
  | none =>
    obtain ⟨w', h1, h2, h3⟩ := hw.call hΓ hs (op := .andThen x dst f) (r := .ok .unit) trivial
      (by spec_eval [hx', hd', hf]; rfl) (by simp) (by simp [NoReserved, hv])
    exact ⟨w', h1, h2, h3.isEmpty (by simp), h3.holds (by simp [hne]), h3.1⟩
  | some u =>
    have hu := ho u rfl
    obtain ⟨w', h1, h2, h3⟩ := hw.call hΓ hs (op := .andThen x dst f) (r := .ok .unit) trivial
      (by spec_eval [hx', hd', hf]; rfl) (by simp)
      (by simp only [NoReserved]; intro p hp; simp at hp; rcases hp with rfl | rfl <;> assumption)
    exact ⟨w', h1, h2, h3.holds (by simp), h3.holds (by simp [hne]), h3.1⟩

example := C15_and_then exEnv_wf ex_reach (dst := 25) (f := fun v g => (.ok (some (v + 1)), 1#8, g ++ ["f"])) ex20 ex25 rfl
  (ex_storable (by decide) 20 (by omega)) (by rintro u ⟨⟩; exact ex_storable (by decide) 25 (by omega))

/-- C15. If `f` throws: the exception reaches the caller, there is no result, the source holds what `f` left. -/
theorem C15_and_then_throws (hΓ : EnvWF Γ) (hw : Reach Γ w) {x dst : Nat} {v v' : V} {e f g'} (hx : Holds Γ x v w)
    (hd : Absent dst w) (hf : f v w.user = (.error e, v', g')) (hv : (Γ x).cfg.Storable v') :
    ∃ w', execOp Γ (.andThen x dst f) w = (.throw e, w') ∧ Reach Γ w' ∧ Absent dst w' ∧ Holds Γ x v' w' ∧
      w'.user = g' := by
  have hne : x ≠ dst := by rintro rfl; have := hx.1; rw [hasValue_absent hd] at this; simp at this
  obtain ⟨vars, hs⟩ := hw.view hΓ
  have hx' : vars x = some (some v) := hs.full hx
  have hd' : vars dst = none := hs.abs hd
  obtain ⟨w', h1, h2, h3⟩ := hw.call hΓ hs (op := .andThen x dst f) (r := .throw e) trivial
    (by spec_eval [hx', hd', hf]; rfl) (by simp) (by simp [NoReserved, hv])
  exact ⟨w', h1, h2, h3.absent (by simp [hne.symm, hd']), h3.holds (by simp), h3.1⟩

example := C15_and_then_throws exEnv_wf ex_reach (dst := 25) (f := fun _ g => (.error (.user 3), 1#8, g ++ ["f"])) ex20 ex25 rfl
  (ex_storable (by decide) 20 (by omega))

/-- C15, C16. `and_then` and `transform` on an empty optional: an empty result, `f` is not called (no user code runs at
all), the source stays empty. -/
theorem C15_monadic_empty (hΓ : EnvWF Γ) (hw : Reach Γ w) {x dst : Nat} {op : Op V G} (hx : IsEmpty Γ x w)
    (hd : Absent dst w) (hop : (∃ f, op = .andThen x dst f) ∨ ∃ nt f, op = .transform nt x dst f) :
    ∃ w', execOp Γ op w = (.ok .unit, w') ∧ Reach Γ w' ∧ IsEmpty Γ dst w' ∧ IsEmpty Γ x w' ∧ w'.user = w.user := by
  have hne : x ≠ dst := by rintro rfl; rw [IsEmpty, hasValue_absent hd] at hx; simp at hx
  obtain ⟨vars, hs⟩ := hw.view hΓ
  have hx' : vars x = some none := hs.emp hx
  have hd' : vars dst = none := hs.abs hd
  obtain ⟨w', h1, h2, h3⟩ := hw.call hΓ hs (op := op) (r := .ok .unit)
    (sw' := ⟨fun z => if z = dst then some none else vars z, w.user, []⟩)
    (by rcases hop with ⟨f, rfl⟩ | ⟨nt, f, rfl⟩ <;> trivial)
    (by rcases hop with ⟨f, rfl⟩ | ⟨nt, f, rfl⟩ <;> spec_eval [hx', hd']) (by simp) (by simp [NoReserved])
  exact ⟨w', h1, h2, h3.isEmpty (by simp), h3.isEmpty (by simp [hne, hx']), h3.1⟩

example := C15_monadic_empty exEnv_wf ex_reach ex21 ex25 (.inl ⟨fun _ g => (.ok none, 1#8, g ++ ["f"]), rfl⟩)

/-! ### C16, C17 -/

/-- C16. `transform` on an engaged optional with `f` returning `u`: the result holds exactly `u`; the only user code that
ran is `f` (in particular no copy, move or destructor of the result). No matter whether the result type's move
constructors are noexcept (`nt`). -/
theorem C16_transform (hΓ : EnvWF Γ) (hw : Reach Γ w) {nt : Bool} {x dst : Nat} {v v' u : V} {f g'} (hx : Holds Γ x v w)
    (hd : Absent dst w) (hf : f v w.user = (.ok u, v', g')) (hv : (Γ x).cfg.Storable v')
    (hu : (Γ dst).cfg.Storable u) :
    ∃ w', execOp Γ (.transform nt x dst f) w = (.ok .unit, w') ∧ Reach Γ w' ∧ Holds Γ dst u w' ∧ Holds Γ x v' w' ∧
      w'.user = g' := by
  have hne : x ≠ dst := by rintro rfl; have := hx.1; rw [hasValue_absent hd] at this; simp at this
  obtain ⟨vars, hs⟩ := hw.view hΓ
  have hx' : vars x = some (some v) := hs.full hx
  have hd' : vars dst = none := hs.abs hd
  obtain ⟨w', h1, h2, h3⟩ := hw.call hΓ hs (op := .transform nt x dst f) (r := .ok .unit) trivial
    (by spec_eval [hx', hd', hf]; rfl) (by simp)
    (by simp only [NoReserved]; intro p hp; simp at hp; rcases hp with rfl | rfl <;> assumption)
  exact ⟨w', h1, h2, h3.holds (by simp), h3.holds (by simp [hne]), h3.1⟩

example := C16_transform exEnv_wf ex_reach (nt := true) (dst := 25) (f := fun v g => (.ok (v + 1), 1#8, g ++ ["f"])) ex20 ex25 rfl
  (ex_storable (by decide) 20 (by omega)) (ex_storable (by decide) 25 (by omega))

/-- C17, the part that holds: if the payload of the result is not nothrow constructible from what `f` returns (`nt`, see
`C17_result_type_partial`) and `f` throws, the exception reaches the caller, no result exists, and the source is still engaged with what `f`
left in it. Missing for the full property: nothrow constructible results, for which it is false (`C17_transform_terminates`). -/
theorem C17_transform_throws_partial (hΓ : EnvWF Γ) (hw : Reach Γ w) {nt : Bool} {x dst : Nat} {v v' : V} {e f g'} (hx : Holds Γ x v w)
    (hd : Absent dst w) (hf : f v w.user = (.error e, v', g')) (hv : (Γ x).cfg.Storable v')
    (hn : nt = false) :
    ∃ w', execOp Γ (.transform nt x dst f) w = (.throw e, w') ∧ Reach Γ w' ∧ Absent dst w' ∧ Holds Γ x v' w' ∧
      w'.user = g' := by
  have hne : x ≠ dst := by rintro rfl; have := hx.1; rw [hasValue_absent hd] at this; simp at this
  obtain ⟨vars, hs⟩ := hw.view hΓ
  have hx' : vars x = some (some v) := hs.full hx
  have hd' : vars dst = none := hs.abs hd
  obtain ⟨w', h1, h2, h3⟩ := hw.call hΓ hs (op := .transform nt x dst f) (r := .throw e) trivial
    (by spec_eval [hx', hd', hf]; rfl) (by simp) (by simp [NoReserved, hv]) (by simp [StepOK, hn])
  exact ⟨w', h1, h2, h3.absent (by simp [hne.symm, hd']), h3.holds (by simp), h3.1⟩

example := C17_transform_throws_partial exEnv_wf ex_reach (dst := 25) (f := fun _ g => (.error (.user 3), 1#8, g ++ ["f"]))
  ex20 ex25 rfl (ex_storable (by decide) 20 (by omega)) rfl

/-- C17 fails for every result that is nothrow constructible from what `f` returns: whenever `f` throws in `transform` on an engaged optional,
`std::terminate` is called, because `ConstructPayloadFromFunction` is declared
`noexcept(is_nothrow_constructible_v<PayloadType, invoke_result>)` (optional.h:1084-1086) and this does not take the
callable into account. -/
theorem C17_transform_terminates (hΓ : EnvWF Γ) (hw : Reach Γ w) {nt : Bool} {x dst : Nat} {v v' : V} {e f g'} (hx : Holds Γ x v w)
    (hd : Absent dst w) (hf : f v w.user = (.error e, v', g')) (hn : nt = true) :
    (execOp Γ (.transform nt x dst f) w).1 = .abort .terminate := by
  have hne : x ≠ dst := by rintro rfl; have := hx.1; rw [hasValue_absent hd] at this; simp at this
  obtain ⟨sw, hR, _⟩ := hw.rel hΓ
  have hRu : w.user = sw.user := hR.user
  have hx' := (hR.holds_iff hΓ).1 hx
  have hd' := hR.absent_iff.1 hd
  obtain ⟨w₁, h1, hR1⟩ := hR.allocate hd'
  obtain ⟨w₂, h2, hR2⟩ := hR1.initEmptyFlag hΓ (fun s hs => hs)
  obtain ⟨w₃, h3⟩ := constructWith_terminate (x := dst) (mk := do
      let v ← getPayload x
      let (r, v') ← userPure (fun g => let (r, v', g') := f v g; ((r, v'), g'))
      setPayload (Γ x).cfg x v'
      match r with
      | .ok a => pure a
      | .error e => throwE e) hΓ hR2 (upd_same _ _ _) (by
    intro w₁ hR
    have hx1 : upd sw.vars dst (some none) x = some (some v) := by rw [upd_other _ _ hne, hx']
    obtain ⟨s, hs, ⟨id, hp⟩, _⟩ := hR.full hx1
    have hu : w₁.user = w.user := hR.user.trans hRu.symm
    refine ⟨e, { w₁ with user := g', mem := upd w₁.mem x (some ⟨fill s.bytes 0 (Γ x).cfg.size ((Γ x).cfg.repr v'), some ⟨id, v'⟩, s.flag⟩) }, ?_⟩
    rw [bind_ok (hR.getPayload hx1)]
    simp [bind, M.bind, userPure, hu, hf, setPayload, readStorage, hs, hp, writeStorage, throwE]
    rfl)
  have h4 : Model.transform Γ nt x dst f w = (.abort .terminate, w₃) := by
    unfold Model.transform
    rw [bind_ok hx.1]
    simp only [if_true]
    rw [bind_ok (assertHas_run hx.1)]
    unfold storageFunctionCtor constructPayloadFromFunction
    rw [bind_ok h1]
    refine onThrow_abort ?_
    rw [bind_ok h2, hn]
    exact h3
  show ((Model.transform Γ nt x dst f >>= fun _ => pure Obs.unit) w).1 = _
  rw [bind_abort h4]

example := C17_transform_terminates (env_wf scalarOps_lawful false) exS_reach (x := 20) (dst := 25) (v := 5#8)
  (f := fun v g => (.error (.user 3), v, g)) ⟨rfl, rfl⟩ rfl rfl rfl

/-- C17, exactly, with `nt` as the type that `f` returns determines it: if this type is `U`, a throwing `f` terminates the program if and
only if the move constructor of `U` is noexcept; if it is `U const` (then the result is an `optional<U>` as well, optional.h:1736), if and
only if the copy constructor is. Missing for the full property: these cases. -/
theorem C17_result_type_partial (hΓ : EnvWF Γ) (hw : Reach Γ w) {returnsConst : Bool} {x dst : Nat} {v v' : V} {e f g'} (hx : Holds Γ x v w)
    (hd : Absent dst w) (hf : f v w.user = (.error e, v', g')) (hv : (Γ x).cfg.Storable v') :
    ((execOp Γ (.transform (resultNothrow (Γ dst).ops returnsConst) x dst f) w).1 = .abort .terminate ↔
      (returnsConst = false ∧ (Γ dst).ops.nothrowMoveCtor = true) ∨ (returnsConst = true ∧ (Γ dst).ops.nothrowCopyCtor = true)) ∧
    ((execOp Γ (.transform (resultNothrow (Γ dst).ops returnsConst) x dst f) w).1 = .throw e ↔
      (returnsConst = false → (Γ dst).ops.nothrowMoveCtor = false) ∧ (returnsConst = true → (Γ dst).ops.nothrowCopyCtor = false)) := by
  have key : ∀ nt, (execOp Γ (.transform nt x dst f) w).1 = if nt then .abort .terminate else .throw e := by
    intro nt
    cases nt
    · obtain ⟨w', h, _⟩ := C17_transform_throws_partial hΓ hw hx hd hf hv rfl
      rw [h]; rfl
    · exact C17_transform_terminates hΓ hw hx hd hf rfl
  rw [key]
  cases returnsConst <;> rcases h1 : (Γ dst).ops.nothrowMoveCtor <;> rcases h2 : (Γ dst).ops.nothrowCopyCtor <;> simp [resultNothrow, h1, h2]

example := C17_result_type_partial exEnv_wf ex_reach (returnsConst := true) (dst := 25)
  (f := fun _ g => (.error (.user 3), 1#8, g ++ ["f"])) ex20 ex25 rfl (ex_storable (by decide) 20 (by omega))

/-- C17 is false: a concrete legal history followed by a `transform` whose callable throws; `std::optional` propagates
the exception, the library terminates. -/
theorem C17_false :
    ∃ (Γ : Env (BitVec 8) Unit) (w : World (BitVec 8) Unit) (f : BitVec 8 → Unit → Except Exn (BitVec 8) × BitVec 8 × Unit)
      (sw : SWorld (BitVec 8) Unit), EnvWF Γ ∧ Reach Γ w ∧ Sees Γ w sw ∧
      (Spec.specOp (fun x => (Γ x).ops) (.transform true 20 25 f) sw).1 = .throw (.user 3) ∧
      (execOp Γ (.transform true 20 25 f) w).1 = .abort .terminate := by
  obtain ⟨vars, hs⟩ := exS_reach.view (env_wf scalarOps_lawful false)
  refine ⟨env Unit scalarOps false, exWorldS, fun v g => (.error (.user 3), v, g), _, env_wf scalarOps_lawful false,
    exS_reach, hs, ?_, rfl⟩
  have hx : vars 20 = some (some 5#8) := hs.full (x := 20) ⟨rfl, rfl⟩
  have hd : vars 25 = none := hs.abs (x := 25) rfl
  spec_eval [hx, hd]

/-! ### C18 -/

/-- C18. `or_else` on an engaged lvalue: a copy of the optional, `f` is not called, the source is bit-for-bit unchanged;
also if the copy throws (then there is no result). -/
theorem C18_or_else_lvalue (hΓ : EnvWF Γ) (hw : Reach Γ w) {x dst : Nat} {v : V} {r f g'} (hxy : Γ x = Γ dst)
    (hx : Holds Γ x v w) (hd : Absent dst w) (hc : (Γ x).ops.copyCtor v w.user = (r, g'))
    (hv : ∀ u, r = .ok u → (Γ dst).cfg.Storable u) :
    ∃ w', execOp Γ (.orElse false x dst f) w = (match r with | .ok _ => .ok .unit | .error e => .throw e, w') ∧
      Reach Γ w' ∧ (match r with | .ok u => Holds Γ dst u w' | .error _ => Absent dst w') ∧ w'.mem x = w.mem x ∧
      w'.user = g' := by
  have hne : x ≠ dst := by rintro rfl; have := hx.1; rw [hasValue_absent hd] at this; simp at this
  obtain ⟨vars, hs⟩ := hw.view hΓ
  have hx' : vars x = some (some v) := hs.full hx
  have hd' : vars dst = none := hs.abs hd
  have hfr := (execOp_change Γ (.orElse false x dst f) w).1 x (by simp [Op.writes, hne])
  cases r with
  | ok u =>
    have hu := hv u rfl
    obtain ⟨w', h1, h2, h3⟩ := hw.call hΓ hs (op := .orElse false x dst f) (r := .ok .unit) hxy
      (by spec_eval [hx', hd', hc]; rfl) (by simp) (by simp [NoReserved, hu])
    rw [h1] at hfr
    exact ⟨w', h1, h2, h3.holds (by simp), hfr, h3.1⟩
  | error e =>
    obtain ⟨w', h1, h2, h3⟩ := hw.call hΓ hs (op := .orElse false x dst f) (r := .throw e) hxy
      (by spec_eval [hx', hd', hc]; rfl) (by simp) (by simp [NoReserved])
    rw [h1] at hfr
    exact ⟨w', h1, h2, h3.absent (by simp [hd']), hfr, h3.1⟩

example := C18_or_else_lvalue exEnv_wf ex_reach (x := 20) (dst := 25) (f := fun g => (.ok none, g ++ ["f"])) rfl ex20 ex25 rfl
  (by rintro u ⟨⟩; exact ex_storable (by decide) 25 (by omega))

/-- C18. `or_else` on an engaged rvalue: the payload is moved into the result; the source stays engaged with the
moved-from value; `f` is not called. -/
theorem C18_or_else_rvalue (hΓ : EnvWF Γ) (hw : Reach Γ w) {x dst : Nat} {v v' : V} {r f g'} (hxy : Γ x = Γ dst)
    (hx : Holds Γ x v w) (hd : Absent dst w) (hc : (Γ x).ops.moveCtor v w.user = (r, v', g'))
    (hv : ∀ u, r = .ok u → (Γ dst).cfg.Storable u) (hv' : (Γ x).cfg.Storable v') :
    ∃ w', execOp Γ (.orElse true x dst f) w = (match r with | .ok _ => .ok .unit | .error e => .throw e, w') ∧
      Reach Γ w' ∧ (match r with | .ok u => Holds Γ dst u w' | .error _ => Absent dst w') ∧ Holds Γ x v' w' ∧
      w'.user = g' := by
  have hne : x ≠ dst := by rintro rfl; have := hx.1; rw [hasValue_absent hd] at this; simp at this
  obtain ⟨vars, hs⟩ := hw.view hΓ
  have hx' : vars x = some (some v) := hs.full hx
  have hd' : vars dst = none := hs.abs hd
  cases r with
  | ok u =>
    have hu := hv u rfl
    obtain ⟨w', h1, h2, h3⟩ := hw.call hΓ hs (op := .orElse true x dst f) (r := .ok .unit) hxy
      (by spec_eval [hx', hd', hc]; rfl) (by simp)
      (by simp only [NoReserved]; intro p hp; simp at hp; rcases hp with rfl | rfl <;> assumption)
    exact ⟨w', h1, h2, h3.holds (by simp), h3.holds (by simp [hne]), h3.1⟩
  | error e =>
    obtain ⟨w', h1, h2, h3⟩ := hw.call hΓ hs (op := .orElse true x dst f) (r := .throw e) hxy
      (by spec_eval [hx', hd', hc]; rfl) (by simp) (by simp [NoReserved, hv'])
    exact ⟨w', h1, h2, h3.absent (by simp [hne.symm, hd']), h3.holds (by simp), h3.1⟩

example := C18_or_else_rvalue exEnv_wf ex_reach (x := 20) (dst := 25) (v' := 0#8) (f := fun g => (.ok none, g ++ ["f"])) rfl ex20
  ex25 rfl (by rintro u ⟨⟩; exact ex_storable (by decide) 25 (by omega)) (ex_storable (by decide) 20 (by omega))

/-- C18. `or_else` on an empty optional: `f` is called once and the result is exactly `f`'s optional, or `f`'s exception. -/
theorem C18_or_else_empty (hΓ : EnvWF Γ) (hw : Reach Γ w) {x dst : Nat} {r f g'} {rv : Bool} (hxy : Γ x = Γ dst)
    (hx : IsEmpty Γ x w) (hd : Absent dst w) (hf : f w.user = (r, g'))
    (hv : ∀ u, r = .ok (some u) → (Γ dst).cfg.Storable u) :
    ∃ w', execOp Γ (.orElse rv x dst f) w = (match r with | .ok _ => .ok .unit | .error e => .throw e, w') ∧
      Reach Γ w' ∧ (match r with
        | .ok none => IsEmpty Γ dst w' | .ok (some u) => Holds Γ dst u w' | .error _ => Absent dst w') ∧
      IsEmpty Γ x w' ∧ w'.user = g' := by
  have hne : x ≠ dst := by rintro rfl; rw [IsEmpty, hasValue_absent hd] at hx; simp at hx
  obtain ⟨vars, hs⟩ := hw.view hΓ
  have hx' : vars x = some none := hs.emp hx
  have hd' : vars dst = none := hs.abs hd
  rcases r with e | (_ | u)
  · obtain ⟨w', h1, h2, h3⟩ := hw.call hΓ hs (op := .orElse rv x dst f) (r := .throw e) hxy
      (by spec_eval [hx', hd', hf]; rfl) (by simp) (by simp [NoReserved])
    exact ⟨w', h1, h2, h3.absent (by simp [hd']), h3.isEmpty (by simp [hx']), h3.1⟩
  · obtain ⟨w', h1, h2, h3⟩ := hw.call hΓ hs (op := .orElse rv x dst f) (r := .ok .unit) hxy
      (by spec_eval [hx', hd', hf]; rfl) (by simp) (by simp [NoReserved])
    exact ⟨w', h1, h2, h3.isEmpty (by simp), h3.isEmpty (by simp [hne, hx']), h3.1⟩
  · have hu := hv u rfl
    obtain ⟨w', h1, h2, h3⟩ := hw.call hΓ hs (op := .orElse rv x dst f) (r := .ok .unit) hxy
      (by spec_eval [hx', hd', hf]; rfl) (by simp) (by simp [NoReserved, hu])
    exact ⟨w', h1, h2, h3.holds (by simp), h3.isEmpty (by simp [hne, hx']), h3.1⟩

example := C18_or_else_empty exEnv_wf ex_reach (x := 21) (dst := 25) (rv := true) (f := fun g => (.ok (some 3#8), g ++ ["f"])) rfl
  ex21 ex25 rfl (by rintro u ⟨⟩; exact ex_storable (by decide) 25 (by omega))

end Verif.Props
