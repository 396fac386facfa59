import Verif.Lemmas.Step
import Verif.Examples

/-!
# C04, C05, C06, C12, C13, C42: construction, value assignment, emplace, reset, access

All statements are about an arbitrary reachable world `w`; `Holds`, `IsEmpty`, `Absent` say what the caller sees of an
optional. `Reach Γ w'` in a conclusion means that the optionals stay usable: all theorems apply to `w'` again.
-/

namespace Verif.Props
open Verif Verif.Model Verif.Spec Verif.Examples

variable {V G : Type} {Γ : Env V G} {w : World V G}

/-! ### C04 -/

/-- C04. Default (nullopt) construction does not throw, calls no user code and gives an optional without value, whose
`value()` throws `bad_optional_access`. -/
theorem C04_default_ctor (hΓ : EnvWF Γ) (hw : Reach Γ w) {x : Nat} (hx : Absent x w) :
    ∃ w', execOp Γ (.ctorDefault x) w = (.ok .unit, w') ∧ Reach Γ w' ∧ IsEmpty Γ x w' ∧ w'.user = w.user ∧
      execOp Γ (.hasValue x) w' = (.ok (.bool false), w') ∧
      execOp Γ (.value x) w' = (.throw .badOptionalAccess, w') := by
  obtain ⟨vars, hs⟩ := hw.view hΓ
  have hx' : vars x = none := hs.abs hx
  obtain ⟨w', h1, h2, h3⟩ := hw.call hΓ hs (op := .ctorDefault x) (r := .ok .unit) trivial
    (by spec_eval [hx']; rfl) (by simp) (by simp [NoReserved])
  have he : IsEmpty Γ x w' := h3.isEmpty (by simp)
  refine ⟨w', h1, h2, he, h3.1, bind_ok he, ?_⟩
  exact bind_throw ((bind_ok he).trans rfl)

example := C04_default_ctor exEnv_wf ex_reach ex25

/-! ### C05 -/

/-- C05, constructors. -/
theorem C05_ctor (hΓ : EnvWF Γ) (hw : Reach Γ w) {x : Nat} {v : V} {nt c g'} (hx : Absent x w)
    (ha : ArgLawful (.ext nt c)) (hc : c w.user = (.ok v, g')) (hv : (Γ x).cfg.Storable v) :
    ∃ w', execOp Γ (.ctorInPlace x (.ext nt c)) w = (.ok .unit, w') ∧ Reach Γ w' ∧ Holds Γ x v w' ∧ w'.user = g' := by
  obtain ⟨vars, hs⟩ := hw.view hΓ
  have hx' : vars x = none := hs.abs hx
  obtain ⟨w', h1, h2, h3⟩ := hw.call hΓ hs (op := .ctorInPlace x (.ext nt c)) (r := .ok .unit) ha
    (by spec_eval [hx', hc]; rfl) (by simp) (by simp [NoReserved, hv])
  exact ⟨w', h1, h2, h3.holds (by simp), h3.1⟩

example := C05_ctor exEnv_wf ex_reach ex25 (nt := true) (c := fun g => (.ok 7#8, g)) (fun _ _ => ⟨_, rfl⟩) rfl
  (ex_storable (by decide) 25 (by omega))

/-- C05, emplace on an engaged optional: the old payload is destroyed first. -/
theorem C05_emplace_engaged (hΓ : EnvWF Γ) (hw : Reach Γ w) {x : Nat} {u v : V} {nt c g'} (hx : Holds Γ x u w)
    (ha : ArgLawful (.ext nt c)) (hc : c ((Γ x).ops.dtor u w.user) = (.ok v, g')) (hv : (Γ x).cfg.Storable v) :
    ∃ w', execOp Γ (.emplace x (.ext nt c)) w = (.ok (.val v), w') ∧ Reach Γ w' ∧ Holds Γ x v w' ∧ w'.user = g' := by
  obtain ⟨vars, hs⟩ := hw.view hΓ
  have hx' : vars x = some (some u) := hs.full hx
  obtain ⟨w', h1, h2, h3⟩ := hw.call hΓ hs (op := .emplace x (.ext nt c)) (r := .ok (.val v)) ha
    (by spec_eval [hx', hc]; rfl) (by simp) (by simp [NoReserved, hv])
  exact ⟨w', h1, h2, h3.holds (by simp), h3.1⟩

example := C05_emplace_engaged exEnv_wf ex_reach ex20 (nt := true) (c := fun g => (.ok 7#8, g)) (fun _ _ => ⟨_, rfl⟩) rfl
  (ex_storable (by decide) 20 (by omega))

/-- C05, emplace on an empty optional. -/
theorem C05_emplace_empty (hΓ : EnvWF Γ) (hw : Reach Γ w) {x : Nat} {v : V} {nt c g'} (hx : IsEmpty Γ x w)
    (ha : ArgLawful (.ext nt c)) (hc : c w.user = (.ok v, g')) (hv : (Γ x).cfg.Storable v) :
    ∃ w', execOp Γ (.emplace x (.ext nt c)) w = (.ok (.val v), w') ∧ Reach Γ w' ∧ Holds Γ x v w' ∧ w'.user = g' := by
  obtain ⟨vars, hs⟩ := hw.view hΓ
  have hx' : vars x = some none := hs.emp hx
  obtain ⟨w', h1, h2, h3⟩ := hw.call hΓ hs (op := .emplace x (.ext nt c)) (r := .ok (.val v)) ha
    (by spec_eval [hx', hc]; rfl) (by simp) (by simp [NoReserved, hv])
  exact ⟨w', h1, h2, h3.holds (by simp), h3.1⟩

example := C05_emplace_empty exEnv_wf ex_reach ex21 (nt := true) (c := fun g => (.ok 7#8, g)) (fun _ _ => ⟨_, rfl⟩) rfl
  (ex_storable (by decide) 21 (by omega))

/-- C05, value assignment to an empty optional constructs the payload. -/
theorem C05_assign_empty (hΓ : EnvWF Γ) (hw : Reach Γ w) {x : Nat} {v : V} {f nt c g'} (hx : IsEmpty Γ x w)
    (ha : AArgLawful (.ext f nt c)) (hc : c w.user = (.ok v, g')) (hv : (Γ x).cfg.Storable v) :
    ∃ w', execOp Γ (.assignVal x (.ext f nt c)) w = (.ok .unit, w') ∧ Reach Γ w' ∧ Holds Γ x v w' ∧ w'.user = g' := by
  obtain ⟨vars, hs⟩ := hw.view hΓ
  have hx' : vars x = some none := hs.emp hx
  obtain ⟨w', h1, h2, h3⟩ := hw.call hΓ hs (op := .assignVal x (.ext f nt c)) (r := .ok .unit) ha
    (by spec_eval [hx', hc]; rfl) (by simp) (by simp [NoReserved, hv])
  exact ⟨w', h1, h2, h3.holds (by simp), h3.1⟩

example := C05_assign_empty exEnv_wf ex_reach ex21 (f := fun _ g => (none, 8#8, g)) (nt := true)
  (c := fun g => (.ok 7#8, g)) (fun _ _ => ⟨_, rfl⟩) rfl (ex_storable (by decide) 21 (by omega))

/-- C05, value assignment to an engaged optional uses the payload's assignment on the existing payload object. -/
theorem C05_assign_engaged (hΓ : EnvWF Γ) (hw : Reach Γ w) {x : Nat} {u v : V} {f nt c g'} (hx : Holds Γ x u w)
    (ha : AArgLawful (.ext f nt c)) (hf : f u w.user = (none, v, g')) (hv : (Γ x).cfg.Storable v) :
    ∃ w', execOp Γ (.assignVal x (.ext f nt c)) w = (.ok .unit, w') ∧ Reach Γ w' ∧ Holds Γ x v w' ∧ w'.user = g' ∧
      SameObjects w w' := by
  obtain ⟨vars, hs⟩ := hw.view hΓ
  have hx' : vars x = some (some u) := hs.full hx
  obtain ⟨w', h1, h2, h3⟩ := hw.call hΓ hs (op := .assignVal x (.ext f nt c)) (r := .ok .unit) ha
    (by spec_eval [hx', hf]; rfl) (by simp) (by simp [NoReserved, hv])
  have hq := quiet_assignVal hx (.ext f nt c)
  rw [h1] at hq
  exact ⟨w', h1, h2, h3.holds (by simp), h3.1, hq.same⟩

example := C05_assign_engaged exEnv_wf ex_reach ex20 (f := fun _ g => (none, 8#8, g)) (nt := true)
  (c := fun g => (.ok 7#8, g)) (fun _ _ => ⟨_, rfl⟩) rfl (ex_storable (by decide) 20 (by omega))

/-- C05, reading back: an optional that holds `v` yields exactly `v` from `*o` and `value()`, without changing anything. -/
theorem C05_read_back (hΓ : EnvWF Γ) (hw : Reach Γ w) {x : Nat} {v : V} (hx : Holds Γ x v w) :
    execOp Γ (.hasValue x) w = (.ok (.bool true), w) ∧ execOp Γ (.deref x) w = (.ok (.val v), w) ∧
    execOp Γ (.value x) w = (.ok (.val v), w) := by
  refine ⟨bind_ok hx.1, bind_ok hx.2, ?_⟩
  obtain ⟨sw, hR, _⟩ := hw.rel hΓ
  obtain ⟨s, hs, ⟨id, hp⟩, _⟩ := hR.full ((hR.holds_iff hΓ).1 hx)
  refine bind_ok ((bind_ok hx.1).trans ?_)
  show getPayload x w = _
  unfold getPayload
  rw [bind_ok (readStorage_ok hs), hp]
  rfl

example := C05_read_back exEnv_wf ex_reach ex20

/-! ### C06 -/

/-- C06. If the constructor throws during `emplace` on an engaged optional, the exception reaches the caller, the old
payload object was destroyed exactly once, the optional is empty, and nothing leaks. -/
theorem C06_emplace_throws_engaged (hΓ : EnvWF Γ) (hw : Reach Γ w) {x id : Nat} {u : V} {nt c e g'} (hx : Holds Γ x u w)
    (hid : HoldsPayload x id w) (ha : ArgLawful (.ext nt c)) (hc : c ((Γ x).ops.dtor u w.user) = (.error e, g')) :
    ∃ w', execOp Γ (.emplace x (.ext nt c)) w = (.throw e, w') ∧ Reach Γ w' ∧ IsEmpty Γ x w' ∧ w'.user = g' ∧
      destroyed w.log id = 0 ∧ destroyed w'.log id = 1 ∧ ∀ i, leaked w'.log i = 0 := by
  obtain ⟨vars, hs⟩ := hw.view hΓ
  have hx' : vars x = some (some u) := hs.full hx
  obtain ⟨w', h1, h2, h3⟩ := hw.call hΓ hs (op := .emplace x (.ext nt c)) (r := .throw e) ha
    (by spec_eval [hx', hc]; rfl) (by simp) (by simp [NoReserved])
  have he : IsEmpty Γ x w' := h3.isEmpty (by simp)
  have hd := hw.call_destroys hΓ h1 h2 hid (by intro z hz; simp [Op.writes, Arg.writes] at hz; exact .inl hz)
    (h2.no_payload_of_empty hΓ he)
  exact ⟨w', h1, h2, he, h3.1, hd.1, hd.2, h2.leaked hΓ⟩

example := C06_emplace_throws_engaged exEnv_wf ex_reach ex20 (id := 1) ⟨_, _, rfl, rfl⟩ (nt := false)
  (c := fun g => (.error (.user 3), g)) (fun h => by simp at h) rfl

/-- C06. If the constructor throws during `emplace` on an empty optional, it stays empty. -/
theorem C06_emplace_throws_empty (hΓ : EnvWF Γ) (hw : Reach Γ w) {x : Nat} {nt c e g'} (hx : IsEmpty Γ x w)
    (ha : ArgLawful (.ext nt c)) (hc : c w.user = (.error e, g')) :
    ∃ w', execOp Γ (.emplace x (.ext nt c)) w = (.throw e, w') ∧ Reach Γ w' ∧ IsEmpty Γ x w' ∧ w'.user = g' := by
  obtain ⟨vars, hs⟩ := hw.view hΓ
  have hx' : vars x = some none := hs.emp hx
  obtain ⟨w', h1, h2, h3⟩ := hw.call hΓ hs (op := .emplace x (.ext nt c)) (r := .throw e) ha
    (by spec_eval [hx', hc]; rfl) (by simp) (by simp [NoReserved])
  exact ⟨w', h1, h2, h3.isEmpty (by simp [hx']), h3.1⟩

example := C06_emplace_throws_empty exEnv_wf ex_reach ex21 (nt := false)
  (c := fun g => (.error (.user 3), g)) (fun h => by simp at h) rfl

/-- C06. If the constructor throws while assigning a value to an empty optional, it stays empty. -/
theorem C06_assign_throws_empty (hΓ : EnvWF Γ) (hw : Reach Γ w) {x : Nat} {f nt c e g'} (hx : IsEmpty Γ x w)
    (ha : AArgLawful (.ext f nt c)) (hc : c w.user = (.error e, g')) :
    ∃ w', execOp Γ (.assignVal x (.ext f nt c)) w = (.throw e, w') ∧ Reach Γ w' ∧ IsEmpty Γ x w' ∧ w'.user = g' := by
  obtain ⟨vars, hs⟩ := hw.view hΓ
  have hx' : vars x = some none := hs.emp hx
  obtain ⟨w', h1, h2, h3⟩ := hw.call hΓ hs (op := .assignVal x (.ext f nt c)) (r := .throw e) ha
    (by spec_eval [hx', hc]; rfl) (by simp) (by simp [NoReserved])
  exact ⟨w', h1, h2, h3.isEmpty (by simp [hx']), h3.1⟩

example := C06_assign_throws_empty exEnv_wf ex_reach ex21 (f := fun v g => (none, v, g)) (nt := false)
  (c := fun g => (.error (.user 3), g)) (fun h => by simp at h) rfl

/-- C06. If the constructor throws inside an optional's constructor, no optional results and nothing leaks. -/
theorem C06_ctor_throws (hΓ : EnvWF Γ) (hw : Reach Γ w) {x : Nat} {nt c e g'} (hx : Absent x w)
    (ha : ArgLawful (.ext nt c)) (hc : c w.user = (.error e, g')) :
    ∃ w', execOp Γ (.ctorInPlace x (.ext nt c)) w = (.throw e, w') ∧ Reach Γ w' ∧ Absent x w' ∧ w'.user = g' ∧
      ∀ i, leaked w'.log i = 0 := by
  obtain ⟨vars, hs⟩ := hw.view hΓ
  have hx' : vars x = none := hs.abs hx
  obtain ⟨w', h1, h2, h3⟩ := hw.call hΓ hs (op := .ctorInPlace x (.ext nt c)) (r := .throw e) ha
    (by spec_eval [hx', hc]; rfl) (by simp) (by simp [NoReserved])
  exact ⟨w', h1, h2, h3.absent (by simp [hx']), h3.1, h2.leaked hΓ⟩

example := C06_ctor_throws exEnv_wf ex_reach ex25 (nt := false)
  (c := fun g => (.error (.user 3), g)) (fun h => by simp at h) rfl

/-! ### C12 -/

/-- C12. `reset()` and `= nullopt` of an engaged optional destroy the payload object exactly once, leave the
optional empty and do not throw. -/
theorem C12_reset_engaged (hΓ : EnvWF Γ) (hw : Reach Γ w) {x id : Nat} {u : V} (hx : Holds Γ x u w)
    (hid : HoldsPayload x id w) {op : Op V G} (hop : op = .reset x ∨ op = .assignNullopt x) :
    ∃ w', execOp Γ op w = (.ok .unit, w') ∧ Reach Γ w' ∧ IsEmpty Γ x w' ∧ w'.user = (Γ x).ops.dtor u w.user ∧
      destroyed w.log id = 0 ∧ destroyed w'.log id = 1 := by
  obtain ⟨vars, hs⟩ := hw.view hΓ
  have hx' : vars x = some (some u) := hs.full hx
  obtain ⟨w', h1, h2, h3⟩ := hw.call hΓ hs (op := op) (r := .ok .unit)
    (sw' := ⟨fun z => if z = x then some none else vars z, (Γ x).ops.dtor u w.user, []⟩)
    (by rcases hop with rfl | rfl <;> trivial) (by rcases hop with rfl | rfl <;> spec_eval [hx']) (by simp) (by simp [NoReserved])
  have he : IsEmpty Γ x w' := h3.isEmpty (by simp)
  have hd := hw.call_destroys hΓ h1 h2 hid
    (by intro z hz; rcases hop with rfl | rfl <;> simp [Op.writes] at hz <;> exact .inl hz)
    (h2.no_payload_of_empty hΓ he)
  exact ⟨w', h1, h2, he, h3.1, hd.1, hd.2⟩

example := C12_reset_engaged exEnv_wf ex_reach ex20 (id := 1) ⟨_, _, rfl, rfl⟩ (.inl rfl)

/-- C12. On an empty optional they do nothing at all (hence they are idempotent). -/
theorem C12_reset_empty {x : Nat} (hx : IsEmpty Γ x w) {op : Op V G} (hop : op = .reset x ∨ op = .assignNullopt x) :
    execOp Γ op w = (.ok .unit, w) := by
  have h : reset Γ x w = (.ok (), w) := noexceptIf_ok ((bind_ok hx).trans rfl)
  rcases hop with rfl | rfl
  · exact bind_ok h
  · exact bind_ok (noexceptIf_ok h)

example := C12_reset_empty ex21 (.inr rfl)

/-! ### C13 -/

/-- C13. `value()` throws iff the optional is empty, in every reachable world in which it exists. -/
theorem C13_value_throws_iff (hΓ : EnvWF Γ) (hw : Reach Γ w) {x : Nat} (hx : ¬ Absent x w) :
    ((execOp Γ (.value x) w).1 = .throw .badOptionalAccess ↔ IsEmpty Γ x w) ∧
    (∀ v, (execOp Γ (.value x) w).1 = .ok (.val v) ↔ Holds Γ x v w) := by
  obtain ⟨vars, hs⟩ := hw.view hΓ
  rcases hv : vars x with _ | (_ | v)
  · exact absurd (hs.absent hv) hx
  · have he : IsEmpty Γ x w := hs.isEmpty hv
    have h1 : execOp Γ (.value x) w = (.throw .badOptionalAccess, w) := bind_throw ((bind_ok he).trans rfl)
    rw [h1]
    refine ⟨by simp [he], fun v => ⟨fun h => by simp at h, fun h => ?_⟩⟩
    have := h.1; rw [he] at this; simp at this
  · have hh : Holds Γ x v w := hs.holds hv
    rw [(C05_read_back hΓ hw hh).2.2]
    refine ⟨⟨fun h => by simp at h, fun h => ?_⟩, fun u => ⟨fun h => ?_, fun h => ?_⟩⟩
    · have := hh.1; rw [h] at this; simp at this
    · simp at h; exact h ▸ hh
    · have h1 := hh.2; rw [h.2] at h1; simp at h1; simp [h1]

example := C13_value_throws_iff exEnv_wf ex_reach (x := 20) (fun h => by have := ex20.1; rw [hasValue_absent h] at this; simp at this)

/-- C13. Observers change nothing, in any world and whatever the outcome. -/
theorem C13_observers_pure (Γ : Env V G) (w : World V G) (x : Nat) :
    (execOp Γ (.hasValue x) w).2 = w ∧ (execOp Γ (.deref x) w).2 = w ∧ (execOp Γ (.value x) w).2 = w := by
  have hr : ∀ w : World V G, (readStorage x w).2 = w := fun w => by unfold readStorage; cases w.mem x <;> rfl
  have hb : ∀ {α β : Type} {m : M V G α} {f : α → M V G β}, (∀ w, (m w).2 = w) → (∀ a w, (f a w).2 = w) →
      ∀ w, ((m >>= f) w).2 = w := by
    intro α β m f h1 h2 w
    have := h1 w
    rcases hm : m w with ⟨a | e | k, w'⟩ <;> rw [hm] at this <;> subst this
    · rw [bind_ok hm]; exact h2 a _
    · rw [bind_throw hm]
    · rw [bind_abort hm]
  have hh : ∀ w, (Model.hasValue Γ x w).2 = w := hb hr fun s => hb (by intro w; cases (Γ x).cfg.isEmpty s <;> rfl) fun _ _ => rfl
  have hg : ∀ w : World V G, (getPayload x w).2 = w := hb hr fun s w => by cases s.payload <;> rfl
  have ha : ∀ w, (assertHas Γ x true w).2 = w := by
    intro w
    unfold assertHas assertM
    split
    · rfl
    · exact hb (m := do let h ← Model.hasValue Γ x; pure (h == true)) (hb hh fun _ _ => rfl) (fun b w => by cases b <;> rfl) w
  refine ⟨hb hh (fun _ _ => rfl) w, hb ?_ (fun _ _ => rfl) w, hb (hb hh ?_) (fun _ _ => rfl) w⟩
  · intro w
    have := hb ha (fun _ => hg) w
    unfold Model.deref noexceptIf
    rcases hm : (do assertHas Γ x true; getPayload x : M V G V) w with ⟨a | e | k, w'⟩ <;> rw [hm] at this <;> exact this
  · intro b w
    cases b
    · rfl
    · exact hg w

/-! ### C42 -/

/-- C42. Assigning a scalar goes through a temporary optional; the resulting state is the one of direct assignment (the
temporary is gone, the target holds the value), whatever the state of the target before. `hops`: the payload's move
operations hand over the value and leave no reserved value behind, as for scalars. -/
theorem C42_assign_scalar (hΓ : EnvWF Γ) (hw : Reach Γ w) {x tmp : Nat} {v : V} {nt c} (hxt : x ≠ tmp) (hΓx : Γ x = Γ tmp)
    (hx : IsEmpty Γ x w ∨ ∃ u, Holds Γ x u w) (ht : Absent tmp w) (ha : ArgLawful (.ext nt c))
    (hc : c w.user = (.ok v, w.user)) (hv : (Γ x).cfg.Storable v)
    (hops : ∀ g, (Γ x).ops.moveCtor v g = (.ok v, v, g) ∧ (∀ u, (Γ x).ops.moveAssign u v g = (none, v, v, g)) ∧
      (Γ x).ops.dtor v g = g) :
    ∃ w', execOp Γ (.assignScalar x tmp (.ext nt c)) w = (.ok .unit, w') ∧ Reach Γ w' ∧ Holds Γ x v w' ∧ Absent tmp w' ∧
      w'.user = w.user := by
  obtain ⟨vars, hs⟩ := hw.view hΓ
  have ht' : vars tmp = none := hs.abs ht
  have hxt' : tmp ≠ x := hxt.symm
  have hv' : (Γ tmp).cfg.Storable v := hΓx ▸ hv
  have hd : (Γ tmp).ops.dtor v w.user = w.user := hΓx ▸ (hops w.user).2.2
  rcases hx with hx | ⟨u, hx⟩
  · have hx' : vars x = some none := hs.emp hx
    obtain ⟨w', h1, h2, h3⟩ := hw.call hΓ hs (op := .assignScalar x tmp (.ext nt c)) (r := .ok .unit) ⟨hΓx, ha⟩
      (by spec_eval [hx', ht', hc, hxt, hxt', (hops w.user).1, (hops w.user).2.1, hd]; rfl) (by simp)
      (by simp only [NoReserved]; intro p hp; simp at hp; rcases hp with rfl | rfl <;> assumption)
    exact ⟨w', h1, h2, h3.holds (by simp [hxt]), h3.absent (by simp), h3.1⟩
  · have hx' : vars x = some (some u) := hs.full hx
    obtain ⟨w', h1, h2, h3⟩ := hw.call hΓ hs (op := .assignScalar x tmp (.ext nt c)) (r := .ok .unit) ⟨hΓx, ha⟩
      (by spec_eval [hx', ht', hc, hxt, hxt', (hops w.user).1, (hops w.user).2.1, hd]; rfl) (by simp)
      (by simp only [NoReserved]; intro p hp; simp at hp; rcases hp with rfl | rfl | rfl <;> assumption)
    exact ⟨w', h1, h2, h3.holds (by simp [hxt]), h3.absent (by simp), h3.1⟩

example := C42_assign_scalar (env_wf scalarOps_lawful false) exS_reach (x := 20) (tmp := 25) (v := 7#8) (nt := true)
  (c := fun g => (.ok 7#8, g)) (by decide) rfl (.inr ⟨5#8, rfl, rfl⟩) rfl (fun _ _ => ⟨_, rfl⟩) rfl
  (by simp [Config.Storable, env, sentCfg, Config.loc]) (fun _ => ⟨rfl, fun _ => rfl, rfl⟩)

/-- C42. `make_optional` and the converting constructors are in-place construction, hence `C05_ctor` and `C06_ctor_throws`
apply; seen from the caller, constructing from `args` equals default construction followed by `emplace(args)`. -/
theorem C42_ctor_eq_emplace (hΓ : EnvWF Γ) (hw : Reach Γ w) {x : Nat} {v : V} {nt c g'} (hx : Absent x w)
    (ha : ArgLawful (.ext nt c)) (hc : c w.user = (.ok v, g')) (hv : (Γ x).cfg.Storable v) :
    ∃ w₁ w₂ w₃, execOp Γ (.ctorInPlace x (.ext nt c)) w = (.ok .unit, w₁) ∧ execOp Γ (.ctorDefault x) w = (.ok .unit, w₂) ∧
      execOp Γ (.emplace x (.ext nt c)) w₂ = (.ok (.val v), w₃) ∧ ∀ sw, Sees Γ w₁ sw ↔ Sees Γ w₃ sw := by
  obtain ⟨vars, hs⟩ := hw.view hΓ
  have hx' : vars x = none := hs.abs hx
  obtain ⟨w₁, h1, _, h3⟩ := hw.call hΓ hs (op := .ctorInPlace x (.ext nt c)) (r := .ok .unit) ha
    (by spec_eval [hx', hc]; rfl) (by simp) (by simp [NoReserved, hv])
  obtain ⟨w₂, g1, g2, g3⟩ := hw.call hΓ hs (op := .ctorDefault x) (r := .ok .unit) trivial
    (by spec_eval [hx']; rfl) (by simp) (by simp [NoReserved])
  obtain ⟨w₃, k1, _, k3⟩ := g2.call hΓ g3 (op := .emplace x (.ext nt c)) (r := .ok (.val v)) ha
    (by spec_eval [hc]; rfl) (by simp) (by simp [NoReserved, hv])
  refine ⟨w₁, w₂, w₃, h1, g1, k1, ?_⟩
  have hveq : ∀ z, (if z = x then some (some v) else if z = x then some none else vars z) =
      (if z = x then some (some v) else vars z) := fun z => by split <;> rfl
  simp only [hveq] at k3
  intro sw
  constructor
  · intro h
    have hv := h.vars_eq h3
    have hu := h.1.symm.trans h3.1
    exact ⟨by rw [k3.1, hu], by rw [hv]; exact k3.2⟩
  · intro h
    have hv := h.vars_eq k3
    have hu := h.1.symm.trans k3.1
    exact ⟨by rw [h3.1, hu], by rw [hv]; exact h3.2⟩

example := C42_ctor_eq_emplace exEnv_wf ex_reach ex25 (nt := true) (c := fun g => (.ok 7#8, g)) (fun _ _ => ⟨_, rfl⟩) rfl
  (ex_storable (by decide) 25 (by omega))

end Verif.Props
