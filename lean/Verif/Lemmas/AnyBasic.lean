import Verif.Lemmas.Basic

/-! Helper lemmas: what `Lemmas/Basic` proves about the primitives, for the machine with arbitrary flag manipulators. -/

namespace Verif.Model.Any
open Verif.Spec.Manipulator (Act Call Phase phases next)

section rel
variable {V G : Type}

/-- The memory contains the given state of an optional. -/
def VarRel (c : Config V G) : Option (Phase V) → Option (Option V) → Prop
  | none, none => True
  | some .empty, some none => True
  | some (.engaged v), some (some v') => v = v' ∧ c.Storable v
  | _, _ => False

/-- Neither payload nor flag object is alive. -/
def Raw0 (p : Phase V) : Prop := p = .raw ∨ p = .prepared

/-- Ready for a payload. -/
def Raw (_ : Config V G) (p : Phase V) : Prop := Raw0 p ∧ p = .prepared

/-- The payload was destroyed. -/
def Gone (p : Phase V) : Prop := Raw0 p ∧ p = .raw

/-- A variable that is in the middle of an operation. -/
abbrev Hole (V : Type) := Option (Nat × (Phase V → Prop))

def VarRelH (Γ : Env V G) (H : Hole V) (z : Nat) (ms : Option (Phase V)) (st : Option (Option V)) : Prop :=
  match H with
  | none => VarRel (Γ z).cfg ms st
  | some (x, P) => if z = x then st = some none ∧ ∃ s, ms = some s ∧ P s else VarRel (Γ z).cfg ms st

/-- Only values for which `is_empty` answers correctly were ever stored. -/
def Good (Γ : Env V G) (calls : List (Call V)) : Prop :=
  ∀ p ∈ calls, ∀ v, p.2 = .construct v ∨ p.2 = .change v → (Γ p.1).cfg.Storable v

theorem Good.cons {Γ : Env V G} {calls : List (Call V)} {x : Nat} {a : Act V} (h : Good Γ calls)
    (ha : ∀ v, a = .construct v ∨ a = .change v → (Γ x).cfg.Storable v) : Good Γ ((x, a) :: calls) := fun p hp v hv => by
  rcases List.mem_cons.mp hp with rfl | hp
  · exact ha v hv
  · exact h p hp v hv

/-- The world represents the specification state. -/
structure R (Γ : Env V G) (H : Hole V) (w : World V G) (vars : Nat → Option (Option V)) (g : G) : Prop where
  rel : ∀ z, VarRelH Γ H z (w.mem z) (vars z)
  user : w.user = g
  order : phases w.calls = some w.mem
  good : Good Γ w.calls

variable {Γ : Env V G} {H : Hole V} {w : World V G} {vars : Nat → Option (Option V)} {g : G}

theorem R.full (h : R Γ H w vars g) {y v} (hy : vars y = some (some v)) :
    w.mem y = some (.engaged v) ∧ (Γ y).cfg.Storable v := by
  have := h.rel y
  rw [hy] at this
  unfold VarRelH at this
  have key : ∀ ms, VarRel (Γ y).cfg ms (some (some v)) → ms = some (.engaged v) ∧ (Γ y).cfg.Storable v := by
    rintro (_ | _ | _ | _ | v') <;> simp [VarRel]
    rintro rfl h; exact ⟨rfl, h⟩
  split at this
  · exact key _ this
  · split at this
    · simp at this
    · exact key _ this

theorem R.emp (h : R Γ none w vars g) {y} (hy : vars y = some none) : w.mem y = some .empty := by
  have := h.rel y
  rw [hy] at this
  revert this
  rcases hm : w.mem y with _ | _ | _ | _ | v <;> simp [VarRelH, VarRel]

theorem R.hole {x P} (h : R Γ (some (x, P)) w vars g) : vars x = some none ∧ ∃ s, w.mem x = some s ∧ P s := by
  simpa [VarRelH] using h.rel x

theorem shows_absent {c : Config V G} {ms} (h : VarRel c ms none) : ms = none := by
  revert h; rcases ms with _ | _ | _ | _ | v <;> simp [VarRel]

theorem R.absent (h : R Γ none w vars g) {y} (hy : vars y = none) : w.mem y = none := by
  have := h.rel y
  rw [hy] at this
  exact shows_absent this

theorem R.absentH {x P} (h : R Γ (some (x, P)) w vars g) {y} (hy : vars y = none) : w.mem y = none := by
  have := h.rel y
  rw [hy] at this
  unfold VarRelH at this
  by_cases hyx : y = x
  · simp [hyx] at this
  · simp only [if_neg hyx] at this; exact shows_absent this

theorem hasValue_run {x p} (h : w.mem x = some p) (hp : ¬ Raw0 p) :
    hasValue Γ x w = (.ok (!(Γ x).cfg.test w.calls x w.user), w) := by
  cases p with
  | raw => exact absurd (Or.inl rfl) hp
  | prepared => exact absurd (Or.inr rfl) hp
  | empty => simp [hasValue, Bind.bind, M.bind, readStorage, h, liftE, Config.isEmpty, M.pure, Pure.pure]
  | engaged v => simp [hasValue, Bind.bind, M.bind, readStorage, h, liftE, Config.isEmpty, M.pure, Pure.pure]

theorem R.hasValueFull (h : R Γ H w vars g) (_ : EnvWF Γ) {x v} (hx : vars x = some (some v)) :
    Any.hasValue Γ x w = (.ok true, w) := by
  obtain ⟨hm, hst⟩ := h.full hx
  rw [hasValue_run hm (by simp [Raw0]), hst _ _ _ _ h.order hm]; rfl

theorem R.hasValueEmp (h : R Γ none w vars g) (hΓ : EnvWF Γ) {x} (hx : vars x = some none) :
    Any.hasValue Γ x w = (.ok false, w) := by
  have hm := h.emp hx
  rw [hasValue_run hm (by simp [Raw0]), hΓ.cfg x _ _ _ _ h.order hm]; rfl

theorem R.hasValue (h : R Γ none w vars g) (hΓ : EnvWF Γ) {x o} (hx : vars x = some o) :
    Any.hasValue Γ x w = (.ok o.isSome, w) := by
  cases o with
  | none => exact h.hasValueEmp hΓ hx
  | some v => exact h.hasValueFull hΓ hx

theorem assertHas_run {x b} (h : Any.hasValue Γ x w = (.ok b, w)) : assertHas Γ x b w = (.ok (), w) := by
  unfold assertHas assertM
  split
  · rfl
  · show M.bind _ _ w = _
    unfold M.bind
    rw [bind_ok h]
    simp [pure_run, M.pure]

theorem R.assertHas (h : R Γ none w vars g) (hΓ : EnvWF Γ) {x o} (hx : vars x = some o) :
    Any.assertHas Γ x o.isSome w = (.ok (), w) :=
  assertHas_run (h.hasValue hΓ hx)

theorem R.assertHasFull (h : R Γ H w vars g) (hΓ : EnvWF Γ) {x v} (hx : vars x = some (some v)) :
    Any.assertHas Γ x true w = (.ok (), w) :=
  assertHas_run (h.hasValueFull hΓ hx)

theorem R.assertHasEmp (h : R Γ none w vars g) (hΓ : EnvWF Γ) {x} (hx : vars x = some none) :
    Any.assertHas Γ x false w = (.ok (), w) := h.assertHas hΓ hx

theorem R.congr {vars' : Nat → Option (Option V)} (h : R Γ H w vars g) (hv : ∀ z, vars' z = vars z) : R Γ H w vars' g := by
  have : vars' = vars := funext hv
  rw [this]; exact h

/-- An action on `x`. -/
theorem R.act {H' : Hole V} {vars' g'} {x : Nat} {a : Act V} {p : Option (Phase V)} (h : R Γ H w vars g)
    (hn : next a (w.mem x) = some p) (hvars : ∀ z, z ≠ x → vars' z = vars z) (hx : VarRelH Γ H' x p (vars' x))
    (hH : ∀ z, z ≠ x → ∀ ms st, VarRelH Γ H z ms st → VarRelH Γ H' z ms st)
    (ha : ∀ v, a = .construct v ∨ a = .change v → (Γ x).cfg.Storable v := by rintro v (h | h) <;> cases h) :
    R Γ H' { w with mem := fun z => if z = x then p else w.mem z, calls := (x, a) :: w.calls, user := g' } vars' g' where
  rel z := by
    by_cases hz : z = x
    · subst hz; simpa using hx
    · simp only [if_neg hz]; rw [hvars z hz]; exact hH z hz _ _ (h.rel z)
  user := rfl
  order := by simp [phases, h.order, hn]
  good := h.good.cons ha

theorem varRelH_toHole {x : Nat} {P : Phase V → Prop} (z : Nat) (hz : z ≠ x) (ms : Option (Phase V))
    (st : Option (Option V)) (h : VarRelH Γ none z ms st) : VarRelH Γ (some (x, P)) z ms st := by
  simpa [VarRelH, hz] using h

theorem varRelH_ofHole {x : Nat} {P : Phase V → Prop} (z : Nat) (hz : z ≠ x) (ms : Option (Phase V))
    (st : Option (Option V)) (h : VarRelH Γ (some (x, P)) z ms st) : VarRelH Γ none z ms st := by
  simpa [VarRelH, hz] using h

/-- `init_empty_flag` on raw memory makes the optional empty. -/
theorem R.initEmptyFlag {x} {P : Phase V → Prop} (h : R Γ (some (x, P)) w vars g) (_ : EnvWF Γ)
    (hP : ∀ s, P s → Raw0 s) :
    ∃ w', initEmptyFlag (Γ x).cfg x w = (.ok (), w') ∧ R Γ none w' vars g := by
  obtain ⟨hv, s, hs, hPs⟩ := h.hole
  have hr : s = .raw ∨ s = .prepared := hP s hPs
  have := h.act (x := x) (a := .init) (p := some .empty) (H' := none) (vars' := vars) (g' := w.user)
    (by rcases hr with rfl | rfl <;> simp [hs, next])
    (fun _ _ => rfl) (by simp [VarRelH, hv, VarRel]) varRelH_ofHole
  rw [h.user] at this
  refine ⟨_, ?_, this⟩
  rcases hr with rfl | rfl <;> simp only [Any.initEmptyFlag, hs, Any.act, h.user]

/-- `invalidate_empty_flag` on an empty optional leaves nothing alive. -/
theorem R.invalidate {x} (h : R Γ none w vars g) (_ : EnvWF Γ) (hx : vars x = some none) :
    ∃ w', invalidateEmptyFlag (Γ x).cfg (Γ x).ops.dtor x w = (.ok (), w') ∧
      R Γ (some (x, Raw (Γ x).cfg)) w' vars g := by
  have hs := h.emp hx
  have := h.act (x := x) (a := .invalidate) (p := some .prepared) (H' := some (x, Raw (Γ x).cfg)) (vars' := vars) (g' := w.user)
    (by simp [hs, next]) (fun _ _ => rfl) (by simp [VarRelH, hx, Raw, Raw0]) varRelH_toHole
  rw [h.user] at this
  exact ⟨_, by simp only [invalidateEmptyFlag, hs, Any.act, h.user], this⟩

/-- Placement new into prepared storage. -/
theorem R.newPayload {x v} (h : R Γ (some (x, Raw (Γ x).cfg)) w vars g)
    (hst : (Γ x).cfg.Storable v) :
    ∃ w', newPayload (Γ x).cfg x v w = (.ok (), w') ∧ R Γ none w' (upd vars x (some (some v))) g := by
  obtain ⟨hv, s, hs, hPs⟩ := h.hole
  have hr : s = .prepared := hPs.2
  subst hr
  have := h.act (x := x) (a := .construct v) (p := some (.engaged v)) (H' := none) (vars' := upd vars x (some (some v)))
    (g' := w.user) (by simp [hs, next]) (fun z hz => upd_other _ _ hz) (by simp [VarRelH, VarRel, hst]) varRelH_ofHole
    (by rintro v (h | h) <;> cases h; exact hst)
  rw [h.user] at this
  exact ⟨_, by simp only [Any.newPayload, hs, Any.act, h.user], this⟩

theorem R.getPayload {x v} (h : R Γ H w vars g) (hx : vars x = some (some v)) :
    getPayload x w = (.ok v, w) := by
  obtain ⟨hs, _⟩ := h.full hx
  simp [Any.getPayload, hs]

theorem R.setPayload {x v v'} (h : R Γ H w vars g) (hx : vars x = some (some v))
    (hst : (Γ x).cfg.Storable v') :
    ∃ w', setPayload (Γ x).cfg x v' w = (.ok (), w') ∧ R Γ H w' (upd vars x (some (some v'))) g := by
  obtain ⟨hs, _⟩ := h.full hx
  have hne : VarRelH Γ H x (some (.engaged v')) (some (some v')) := by
    have hx' := h.rel x
    unfold VarRelH at hx' ⊢
    split
    · exact ⟨rfl, hst⟩
    · rename_i x' P
      split
      · rename_i hxx
        simp only [hxx, if_true] at hx'
        rw [hxx] at hx
        rw [hx] at hx'
        simp at hx'
      · exact ⟨rfl, hst⟩
  have := h.act (x := x) (a := .change v') (p := some (.engaged v')) (H' := H) (vars' := upd vars x (some (some v')))
    (g' := w.user) (by simp [hs, next]) (fun z hz => upd_other _ _ hz) (by rw [upd_same]; exact hne) (fun _ _ _ _ h => h)
    (by rintro v (h | h) <;> cases h; exact hst)
  rw [h.user] at this
  exact ⟨_, by simp only [Any.setPayload, hs, Any.act, h.user], this⟩

theorem R.user_upd (h : R Γ H w vars g) (g' : G) : R Γ H { w with user := g' } vars g' :=
  ⟨h.rel, rfl, h.order, h.good⟩

theorem userPure_run {α : Type} (f : G → α × G) (hu : w.user = g) :
    userPure f w = (.ok (f g).1, { w with user := (f g).2 }) := by
  simp [userPure, hu]

/-- Destruction of a live payload. -/
theorem R.destroyPayload {x v} (h : R Γ none w vars g) (hx : vars x = some (some v)) :
    ∃ w', destroyPayloadOf Γ x w = (.ok (), w') ∧
      R Γ (some (x, Gone)) w' (upd vars x (some none)) ((Γ x).ops.dtor v g) := by
  obtain ⟨hs, _⟩ := h.full hx
  have := h.act (x := x) (a := .destroy) (p := some .raw) (H' := some (x, Gone)) (vars' := upd vars x (some none))
    (g' := (Γ x).ops.dtor v g) (by simp [hs, next]) (fun z hz => upd_other _ _ hz) (by simp [VarRelH, Gone, Raw0]) varRelH_toHole
  exact ⟨_, by simp only [destroyPayloadOf, Any.destroyPayload, hs, M.bind, userPure, Any.act, h.user], this⟩

theorem R.allocate {x} (h : R Γ none w vars g) (hx : vars x = none) :
    ∃ w', allocate x w = (.ok (), w') ∧ R Γ (some (x, Raw0)) w' (upd vars x (some none)) g := by
  have hm := h.absent hx
  have := h.act (x := x) (a := .create) (p := some .raw) (H' := some (x, Raw0)) (vars' := upd vars x (some none)) (g' := w.user)
    (by simp [hm, next]) (fun z hz => upd_other _ _ hz) (by simp [VarRelH, Raw0]) varRelH_toHole
  rw [h.user] at this
  exact ⟨_, by simp only [Any.allocate, hm, Any.act, h.user], this⟩

/-- Releasing storage in which no payload is alive. -/
theorem R.release {x} (h : R Γ H w vars g)
    (hH : H = none ∨ ∃ P, H = some (x, P)) {s} (hs : w.mem x = some s) (hp : s = .raw ∨ s = .empty) :
    ∃ w', release x w = (.ok (), w') ∧ R Γ none w' (upd vars x none) g := by
  have := h.act (x := x) (a := .release) (p := none) (H' := none) (vars' := upd vars x none) (g' := w.user)
    (by rcases hp with rfl | rfl <;> simp [hs, next]) (fun z hz => upd_other _ _ hz) (by simp [VarRelH, VarRel]) (by
      rcases hH with rfl | ⟨P, rfl⟩
      · exact fun _ _ _ _ h => h
      · exact varRelH_ofHole)
  rw [h.user] at this
  refine ⟨_, ?_, this⟩
  rcases hp with rfl | rfl <;> simp only [Any.release, hs, Any.act, h.user]

/-- Releasing the storage of an empty optional. -/
theorem R.releaseEmp {x} (h : R Γ none w vars g) (hx : vars x = some none) :
    ∃ w', Any.release x w = (.ok (), w') ∧ R Γ none w' (upd vars x none) g :=
  h.release (Or.inl rfl) (h.emp hx) (Or.inr rfl)

/-- Releasing the storage after the payload was destroyed. -/
theorem R.releaseRaw {x} (h : R Γ (some (x, Gone)) w vars g) :
    ∃ w', Any.release x w = (.ok (), w') ∧ R Γ none w' (upd vars x none) g := by
  obtain ⟨_, s, hs, hraw⟩ := h.hole
  exact h.release (Or.inr ⟨_, rfl⟩) hs (Or.inl hraw.2)

end rel
end Verif.Model.Any
