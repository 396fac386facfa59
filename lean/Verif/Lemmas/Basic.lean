import Verif.Model.Optional
import Verif.Spec.Reserved
import Verif.Spec.WellTyped

/-! Helper lemmas: evaluation of the machine monad, simulation relation, evaluation of the primitives. -/

namespace Verif.Model

section monad
variable {V G α β : Type} {m : M V G α} {f : α → M V G β} {w w' : World V G} {a : α} {e : Exn} {k : Abort}

alsoAny
theorem bind_ok (h : m w = (.ok a, w')) : (m >>= f) w = f a w' := by
  show M.bind m f w = _
  simp [M.bind, h]

alsoAny
theorem bind_throw (h : m w = (.throw e, w')) : (m >>= f) w = (.throw e, w') := by
  show M.bind m f w = _
  simp [M.bind, h]

alsoAny
theorem bind_abort (h : m w = (.abort k, w')) : (m >>= f) w = (.abort k, w') := by
  show M.bind m f w = _
  simp [M.bind, h]

alsoAny
theorem pure_run (a : α) (w : World V G) : (pure a : M V G α) w = (.ok a, w) := rfl

alsoAny
theorem onThrow_ok {h : M V G Unit} (hm : m w = (.ok a, w')) : onThrow m h w = (.ok a, w') := by
  simp [onThrow, hm]

alsoAny
theorem onThrow_abort {h : M V G Unit} (hm : m w = (.abort k, w')) : onThrow m h w = (.abort k, w') := by
  simp [onThrow, hm]

alsoAny
theorem onThrow_throw {h : M V G Unit} {w''} (hm : m w = (.throw e, w')) (hh : h w' = (.ok (), w'')) :
    onThrow m h w = (.throw e, w'') := by
  simp [onThrow, hm, hh]

alsoAny
theorem noexceptIf_ok {b : Bool} (hm : m w = (.ok a, w')) : noexceptIf b m w = (.ok a, w') := by
  simp [noexceptIf, hm]

alsoAny
theorem noexceptIf_abort {b : Bool} (hm : m w = (.abort k, w')) : noexceptIf b m w = (.abort k, w') := by
  simp [noexceptIf, hm]

alsoAny
theorem noexceptIf_throw_false (hm : m w = (.throw e, w')) : noexceptIf false m w = (.throw e, w') := by
  simp [noexceptIf, hm]

alsoAny
theorem noexceptIf_throw_true (hm : m w = (.throw e, w')) : noexceptIf true m w = (.abort .terminate, w') := by
  simp [noexceptIf, hm]

end monad

/-! ### Bytes -/

theorem fill_in {b : Nat → Option Byte} {off n f i} (h : i < n) : fill b off n f (off + i) = f i := by
  unfold fill
  rw [if_pos ⟨by omega, by omega⟩]
  congr 1; omega

theorem fill_out {b : Nat → Option Byte} {off n f i} (h : i < off ∨ off + n ≤ i) : fill b off n f i = b i := by
  unfold fill
  rw [if_neg]; omega

/-- `memcmp` of bytes that are the sentinel. -/
theorem memcmpEq_true (b : Nat → Option Byte) (sent : List Byte) (off : Nat)
    (h : ∀ i, ∀ _ : i < sent.length, b (off + i) = some sent[i]) : memcmpEq b off sent = .ok true := by
  induction sent generalizing off with
  | nil => rfl
  | cons c cs ih =>
    have h0 := h 0 (by simp)
    have ih' := ih (off + 1) (by
      intro i hi
      have := h (i + 1) (by simpa using hi)
      simpa [Nat.add_assoc, Nat.add_comm 1 i] using this)
    simp at h0
    simp [memcmpEq, h0, ih']

/-- `memcmp` of determinate bytes reports equality iff all bytes are equal. -/
theorem memcmpEq_of_determinate (b : Nat → Option Byte) (sent : List Byte) (off : Nat)
    (h : ∀ i, i < sent.length → ∃ x, b (off + i) = some x) :
    ∃ r, memcmpEq b off sent = .ok r ∧ (r = true ↔ ∀ i, ∀ _ : i < sent.length, b (off + i) = some sent[i]) := by
  induction sent generalizing off with
  | nil => exact ⟨true, rfl, by simp⟩
  | cons c cs ih =>
    obtain ⟨x, hx⟩ := h 0 (by simp)
    obtain ⟨r, hr, hiff⟩ := ih (off + 1) (by
      intro i hi
      have := h (i + 1) (by simpa using hi)
      simpa [Nat.add_assoc, Nat.add_comm 1 i] using this)
    simp at hx
    refine ⟨x == c && r, by simp [memcmpEq, hx, hr], ?_⟩
    rw [Bool.and_eq_true, hiff]
    constructor
    · rintro ⟨hc, ht⟩ i hi
      cases i with
      | zero => simpa [hx] using hc
      | succ j =>
        have := ht j (by simpa using hi)
        simpa [Nat.add_assoc, Nat.add_comm 1 j] using this
    · intro ha
      refine ⟨?_, ?_⟩
      · have := ha 0 (by simp)
        simpa [hx] using this
      · intro j hj
        have := ha (j + 1) (by simpa using hj)
        simpa [Nat.add_assoc, Nat.add_comm 1 j] using this

/-! ### Simulation relation -/

section rel
variable {V G : Type}

/-- The storage represents the empty state. -/
def Emp (c : Config V) (s : Storage V) : Prop :=
  s.payload = none ∧
  match c.manip with
  | .separate => s.flag = none ∧ s.bytes c.size = some 1#8
  | .memcpy sent => (∃ id, s.flag = some ⟨id, none⟩) ∧
      ∀ i, ∀ _ : i < sent.length, s.bytes (c.loc.off + i) = some sent[i]
  | .assign sv _ => ∃ id, s.flag = some ⟨id, some sv⟩
  | .custom _ ev => ∃ id, s.flag = some ⟨id, some ev⟩

/-- The storage holds the payload value `v`. -/
def Full (c : Config V) (s : Storage V) (v : V) : Prop :=
  (∃ id, s.payload = some ⟨id, v⟩) ∧ s.flag = none ∧ (∀ i, i < c.size → s.bytes i = c.repr v i) ∧
  (c.manip = .separate → s.bytes c.size = some 0#8) ∧ c.Storable v

def VarRel (c : Config V) : Option (Storage V) → Option (Option V) → Prop
  | none, none => True
  | some s, some none => Emp c s
  | some s, some (some v) => Full c s v
  | _, _ => False

/-- Neither payload nor flag object is alive. -/
def Raw0 (s : Storage V) : Prop := s.payload = none ∧ s.flag = none

/-- Ready for a payload: additionally a separate flag says "not empty". -/
def Raw (c : Config V) (s : Storage V) : Prop :=
  Raw0 s ∧ (c.manip = .separate → s.bytes c.size = some 0#8)

/-- A variable that is in the middle of an operation. -/
abbrev Hole (V : Type) := Option (Nat × (Storage V → Prop))

def VarRelH (Γ : Env V G) (H : Hole V) (z : Nat) (ms : Option (Storage V)) (st : Option (Option V)) : Prop :=
  match H with
  | none => VarRel (Γ z).cfg ms st
  | some (x, P) => if z = x then st = some none ∧ ∃ s, ms = some s ∧ P s else VarRel (Γ z).cfg ms st

/-- The world represents the specification state. -/
structure R (Γ : Env V G) (H : Hole V) (w : World V G) (vars : Nat → Option (Option V)) (g : G) : Prop where
  rel : ∀ z, VarRelH Γ H z (w.mem z) (vars z)
  user : w.user = g
  noLeak : ∀ id, Event.payloadLeak id ∉ w.log

/-- Point update. -/
def upd {β : Type} (f : Nat → β) (x : Nat) (b : β) : Nat → β := fun z => if z = x then b else f z

@[simp] theorem upd_same {β : Type} (f : Nat → β) (x b) : upd f x b x = b := by simp [upd]
theorem upd_other {β : Type} (f : Nat → β) {x z} (b) (h : z ≠ x) : upd f x b z = f z := by simp [upd, h]

variable {Γ : Env V G} {H : Hole V} {w : World V G} {vars : Nat → Option (Option V)} {g : G}

theorem R.full (h : R Γ H w vars g) {y v} (hy : vars y = some (some v)) :
    ∃ s, w.mem y = some s ∧ Full (Γ y).cfg s v := by
  have := h.rel y
  rw [hy] at this
  unfold VarRelH at this
  split at this
  · revert this; cases hm : w.mem y <;> simp [VarRel]
  · split at this
    · simp at this
    · revert this; cases hm : w.mem y <;> simp [VarRel]

theorem R.emp (h : R Γ none w vars g) {y} (hy : vars y = some none) :
    ∃ s, w.mem y = some s ∧ Emp (Γ y).cfg s := by
  have := h.rel y
  rw [hy] at this
  revert this; cases hm : w.mem y <;> simp [VarRelH, VarRel]

theorem R.hole {x P} (h : R Γ (some (x, P)) w vars g) :
    vars x = some none ∧ ∃ s, w.mem x = some s ∧ P s := by
  simpa [VarRelH] using h.rel x

theorem R.absent (h : R Γ none w vars g) {y} (hy : vars y = none) : w.mem y = none := by
  have := h.rel y
  rw [hy] at this
  revert this; cases hm : w.mem y <;> simp [VarRelH, VarRel]

theorem R.absentH {x P} (h : R Γ (some (x, P)) w vars g) {y} (hy : vars y = none) : w.mem y = none := by
  have := h.rel y
  rw [hy] at this
  unfold VarRelH at this
  revert this; cases hm : w.mem y <;> simp [VarRel]

/-! ### Evaluation of `is_empty` -/

theorem isEmpty_emp {c : Config V} (hc : c.WF) {s} (h : Emp c s) : c.isEmpty s = .ok true := by
  obtain ⟨hp, h⟩ := h
  unfold Config.isEmpty
  cases hm : c.manip with
  | separate => simp only [hm] at h ⊢; simp [h.2, readBool]
  | memcpy sent =>
    simp only [hm] at h ⊢
    have := hc.sentinelFits _ hm
    have := hc.inside
    rw [if_pos (by omega)]
    exact memcmpEq_true _ _ _ h.2
  | assign sv eq =>
    simp only [hm] at h ⊢
    obtain ⟨id, hf⟩ := h
    simp [Config.readFlag, hf, hc.assignRefl _ _ hm]
  | custom p ev =>
    simp only [hm] at h ⊢
    obtain ⟨id, hf⟩ := h
    simp [Config.readFlag, hf, hc.customRefl _ _ hm]

theorem isEmpty_full {c : Config V} (hc : c.WF) {s v} (h : Full c s v) : c.isEmpty s = .ok false := by
  obtain ⟨⟨id, hp⟩, hf, hb, hsep, hst⟩ := h
  unfold Config.isEmpty
  unfold Config.Storable at hst
  cases hm : c.manip with
  | separate => simp [hsep hm, readBool]
  | memcpy sent =>
    simp only [hm] at hst ⊢
    have h1 := hc.sentinelFits _ hm
    have h2 := hc.inside
    rw [if_pos (by omega)]
    obtain ⟨hdet, i, hi, hne⟩ := hst
    obtain ⟨r, hr, hiff⟩ := memcmpEq_of_determinate s.bytes sent c.loc.off (by
      intro j hj
      obtain ⟨b, hb'⟩ := hdet j hj
      exact ⟨b, by rw [hb _ (by omega), hb']⟩)
    rw [hr]
    cases r with
    | false => rfl
    | true =>
      exfalso
      have := hiff.1 rfl i hi
      rw [hb _ (by omega)] at this
      exact hne this
  | assign sv eq => simp only [hm] at hst ⊢; simp [Config.readFlag, hf, hp, hst]
  | custom p ev => simp only [hm] at hst ⊢; simp [Config.readFlag, hf, hp, hst]

/-! ### Evaluation of the primitives -/

theorem readStorage_ok {x s} (h : w.mem x = some s) : readStorage x w = (.ok s, w) := by
  simp [readStorage, h]

theorem hasValue_run {x s b} (h : w.mem x = some s) (he : (Γ x).cfg.isEmpty s = .ok b) :
    hasValue Γ x w = (.ok (!b), w) := by
  unfold hasValue
  rw [bind_ok (readStorage_ok h), he]
  rfl

theorem R.hasValue (h : R Γ none w vars g) (hΓ : EnvWF Γ) {x o} (hx : vars x = some o) :
    hasValue Γ x w = (.ok o.isSome, w) := by
  cases o with
  | none =>
    obtain ⟨s, hs, he⟩ := h.emp hx
    rw [hasValue_run hs (isEmpty_emp (hΓ.cfg x) he)]; rfl
  | some v =>
    obtain ⟨s, hs, he⟩ := h.full hx
    rw [hasValue_run hs (isEmpty_full (hΓ.cfg x) he)]; rfl

theorem R.hasValueFull (h : R Γ H w vars g) (hΓ : EnvWF Γ) {x v} (hx : vars x = some (some v)) :
    Model.hasValue Γ x w = (.ok true, w) := by
  obtain ⟨s, hs, he⟩ := h.full hx
  rw [hasValue_run hs (isEmpty_full (hΓ.cfg x) he)]; rfl

theorem R.hasValueEmp (h : R Γ none w vars g) (hΓ : EnvWF Γ) {x} (hx : vars x = some none) :
    Model.hasValue Γ x w = (.ok false, w) := h.hasValue hΓ hx

theorem assertHas_run {x b} (h : Model.hasValue Γ x w = (.ok b, w)) : assertHas Γ x b w = (.ok (), w) := by
  unfold assertHas assertM
  split
  · rfl
  · show M.bind _ _ w = _
    unfold M.bind
    rw [bind_ok h]
    simp [pure_run, M.pure]

theorem R.assertHas (h : R Γ none w vars g) (hΓ : EnvWF Γ) {x o} (hx : vars x = some o) :
    assertHas Γ x o.isSome w = (.ok (), w) :=
  assertHas_run (h.hasValue hΓ hx)

theorem R.assertHasFull (h : R Γ H w vars g) (hΓ : EnvWF Γ) {x v} (hx : vars x = some (some v)) :
    Model.assertHas Γ x true w = (.ok (), w) :=
  assertHas_run (h.hasValueFull hΓ hx)

theorem R.assertHasEmp (h : R Γ none w vars g) (hΓ : EnvWF Γ) {x} (hx : vars x = some none) :
    Model.assertHas Γ x false w = (.ok (), w) := h.assertHas hΓ hx

theorem R.congr {vars' : Nat → Option (Option V)} (h : R Γ H w vars g) (hv : ∀ z, vars' z = vars z) : R Γ H w vars' g := by
  have : vars' = vars := funext hv
  rw [this]; exact h

/-- Changing the storage of `x` only. -/
theorem R.write {H' : Hole V} {vars' g' w'} {x : Nat} {s : Storage V} (h : R Γ H w vars g)
    (hmem : w'.mem = upd w.mem x (some s)) (hvars : ∀ z, z ≠ x → vars' z = vars z)
    (hx : VarRelH Γ H' x (some s) (vars' x))
    (hH : ∀ z, z ≠ x → ∀ ms st, VarRelH Γ H z ms st → VarRelH Γ H' z ms st)
    (hu : w'.user = g') (hl : ∀ id, Event.payloadLeak id ∉ w'.log) : R Γ H' w' vars' g' where
  rel z := by
    by_cases hz : z = x
    · subst hz; rw [hmem, upd_same]; exact hx
    · rw [hmem, upd_other _ _ hz, hvars z hz]
      exact hH z hz _ _ (h.rel z)
  user := hu
  noLeak := hl

theorem varRelH_toHole {x : Nat} {P : Storage V → Prop} (z : Nat) (hz : z ≠ x) (ms : Option (Storage V))
    (st : Option (Option V)) (h : VarRelH Γ none z ms st) : VarRelH Γ (some (x, P)) z ms st := by
  simpa [VarRelH, hz] using h

theorem varRelH_ofHole {x : Nat} {P : Storage V → Prop} (z : Nat) (hz : z ≠ x) (ms : Option (Storage V))
    (st : Option (Option V)) (h : VarRelH Γ (some (x, P)) z ms st) : VarRelH Γ none z ms st := by
  simpa [VarRelH, hz] using h

theorem varRelH_holeHole {x : Nat} {P Q : Storage V → Prop} (z : Nat) (hz : z ≠ x) (ms : Option (Storage V))
    (st : Option (Option V)) (h : VarRelH Γ (some (x, P)) z ms st) : VarRelH Γ (some (x, Q)) z ms st := by
  simpa [VarRelH, hz] using h

/-- `init_empty_flag` on storage in which nothing is alive makes the optional empty. -/
theorem R.initEmptyFlag {x} {P : Storage V → Prop} (h : R Γ (some (x, P)) w vars g) (hΓ : EnvWF Γ)
    (hP : ∀ s, P s → Raw0 s) :
    ∃ w', initEmptyFlag (Γ x).cfg x w = (.ok (), w') ∧ R Γ none w' vars g := by
  obtain ⟨hv, s, hs, hPs⟩ := h.hole
  obtain ⟨hp, hf⟩ := hP s hPs
  have hc := hΓ.cfg x
  have hin := hc.inside
  unfold Model.initEmptyFlag
  rw [bind_ok (readStorage_ok hs), bind_ok (m := freshId) rfl]
  unfold Config.initFlag
  cases hm : (Γ x).cfg.manip with
  | separate =>
    refine ⟨_, rfl, ?_⟩
    refine h.write rfl (fun _ _ => rfl) ?_ varRelH_ofHole h.user h.noLeak
    rw [hv]
    simp only [VarRelH, VarRel, Emp, hm]
    exact ⟨hp, hf, fill_in (i := 0) (by omega)⟩
  | memcpy sent =>
    have hlen := hc.sentinelFits _ hm
    simp only [hp, hf, Option.isSome_none, Bool.false_eq_true, or_self, if_false]
    rw [if_neg (by omega)]
    refine ⟨_, rfl, ?_⟩
    refine h.write rfl (fun _ _ => rfl) ?_ varRelH_ofHole h.user (by simpa using h.noLeak)
    rw [hv]
    simp only [VarRelH, VarRel, Emp, hm]
    refine ⟨trivial, ⟨_, rfl⟩, fun i hi => ?_⟩
    rw [fill_in hi]
    simp [hi]
  | assign sv eq =>
    simp only [hp, hf, Option.isSome_none, Bool.false_eq_true, or_self, if_false]
    rw [if_neg (by omega)]
    refine ⟨_, rfl, ?_⟩
    refine h.write rfl (fun _ _ => rfl) ?_ varRelH_ofHole h.user (by simpa using h.noLeak)
    rw [hv]
    simp only [VarRelH, VarRel, Emp, hm]
    exact ⟨trivial, ⟨_, rfl⟩⟩
  | custom p ev =>
    simp only [hp, hf, Option.isSome_none, Bool.false_eq_true, or_self, if_false]
    rw [if_neg (by omega)]
    refine ⟨_, rfl, ?_⟩
    refine h.write rfl (fun _ _ => rfl) ?_ varRelH_ofHole h.user (by simpa using h.noLeak)
    rw [hv]
    simp only [VarRelH, VarRel, Emp, hm]
    exact ⟨trivial, ⟨_, rfl⟩⟩

/-- `invalidate_empty_flag` on an empty optional leaves nothing alive. -/
theorem R.invalidate {x} (h : R Γ none w vars g) (hΓ : EnvWF Γ) (hx : vars x = some none) :
    ∃ w', invalidateEmptyFlag (Γ x).cfg (Γ x).ops.dtor x w = (.ok (), w') ∧
      R Γ (some (x, Raw (Γ x).cfg)) w' vars g := by
  obtain ⟨s, hs, hp, he⟩ := h.emp hx
  have hc := hΓ.cfg x
  unfold invalidateEmptyFlag
  rw [bind_ok (readStorage_ok hs)]
  cases hm : (Γ x).cfg.manip with
  | separate =>
    simp only [hm] at he ⊢
    refine ⟨_, rfl, ?_⟩
    refine h.write rfl (fun _ _ => rfl) ?_ varRelH_toHole h.user h.noLeak
    simp only [VarRelH, if_pos]
    refine ⟨hx, _, rfl, ⟨hp, he.1⟩, fun _ => ?_⟩
    exact fill_in (b := s.bytes) (off := (Γ x).cfg.size) (n := 1) (f := fun _ => some 0#8) (i := 0) (by omega)
  | memcpy sent =>
    simp only [hm] at he ⊢
    obtain ⟨⟨id, hf⟩, _⟩ := he
    simp only [hf]
    refine ⟨_, rfl, ?_⟩
    refine h.write rfl (fun _ _ => rfl) ?_ varRelH_toHole h.user (by simpa using h.noLeak)
    simp only [VarRelH, if_pos]
    exact ⟨hx, _, rfl, ⟨hp, rfl⟩, by simp [hm]⟩
  | assign sv eq =>
    simp only [hm] at he ⊢
    obtain ⟨id, hf⟩ := he
    simp only [hf]
    refine ⟨_, rfl, ?_⟩
    refine h.write rfl (fun _ _ => rfl) ?_ varRelH_toHole h.user (by simpa using h.noLeak)
    simp only [VarRelH, if_pos]
    exact ⟨hx, _, rfl, ⟨hp, rfl⟩, by simp [hm]⟩
  | custom p ev =>
    simp only [hm] at he ⊢
    obtain ⟨id, hf⟩ := he
    simp only [hf]
    refine ⟨_, rfl, ?_⟩
    refine h.write rfl (fun _ _ => rfl) ?_ varRelH_toHole h.user (by simpa using h.noLeak)
    simp only [VarRelH, if_pos]
    exact ⟨hx, _, rfl, ⟨hp, rfl⟩, by simp [hm]⟩

/-- Placement new into prepared storage. -/
theorem R.newPayload {x v} (h : R Γ (some (x, Raw (Γ x).cfg)) w vars g)
    (hst : (Γ x).cfg.Storable v) :
    ∃ w', newPayload (Γ x).cfg x v w = (.ok (), w') ∧ R Γ none w' (upd vars x (some (some v))) g := by
  obtain ⟨hv, s, hs, ⟨hp, hf⟩, hsep⟩ := h.hole
  unfold Model.newPayload
  rw [bind_ok (readStorage_ok hs)]
  simp only [hp, hf, Option.isSome_none, Bool.false_eq_true, or_self, if_false]
  refine ⟨_, rfl, ?_⟩
  refine h.write rfl (fun z hz => upd_other _ _ hz) ?_ varRelH_ofHole h.user (by simpa using h.noLeak)
  rw [upd_same]
  refine ⟨⟨_, rfl⟩, rfl, fun i hi => ?_, fun hm => ?_, hst⟩
  · have := fill_in (b := s.bytes) (off := 0) (n := (Γ x).cfg.size) (f := (Γ x).cfg.repr v) hi
    simpa using this
  · show fill _ _ _ _ _ = _
    rw [fill_out (by omega)]
    exact hsep hm

theorem getPayload_run {x s p} (hs : w.mem x = some s) (hp : s.payload = some p) :
    getPayload x w = (.ok p.val, w) := by
  unfold getPayload
  rw [bind_ok (readStorage_ok hs), hp]
  rfl

theorem R.getPayload {x v} (h : R Γ H w vars g) (hx : vars x = some (some v)) :
    getPayload x w = (.ok v, w) := by
  obtain ⟨s, hs, ⟨id, hp⟩, _⟩ := h.full hx
  exact getPayload_run hs hp

theorem R.setPayload {x v v'} (h : R Γ H w vars g) (hx : vars x = some (some v))
    (hst : (Γ x).cfg.Storable v') :
    ∃ w', setPayload (Γ x).cfg x v' w = (.ok (), w') ∧ R Γ H w' (upd vars x (some (some v'))) g := by
  obtain ⟨s, hs, ⟨id, hp⟩, hf, hb, hsep, _⟩ := h.full hx
  unfold Model.setPayload
  rw [bind_ok (readStorage_ok hs)]
  simp only [hp]
  refine ⟨_, rfl, ?_⟩
  refine h.write rfl (fun z hz => upd_other _ _ hz) ?_ (fun _ _ _ _ hh => hh) h.user h.noLeak
  rw [upd_same]
  have hfull : VarRel (Γ x).cfg (some { s with
      payload := some ⟨id, v'⟩, bytes := fill s.bytes 0 (Γ x).cfg.size ((Γ x).cfg.repr v') }) (some (some v')) := by
    refine ⟨⟨_, rfl⟩, hf, fun i hi => ?_, fun hm => ?_, hst⟩
    · have := fill_in (b := s.bytes) (off := 0) (n := (Γ x).cfg.size) (f := (Γ x).cfg.repr v') hi
      simpa using this
    · show fill _ _ _ _ _ = _
      rw [fill_out (by omega)]
      exact hsep hm
  have hx' := h.rel x
  unfold VarRelH at hx' ⊢
  split
  · exact hfull
  · rename_i x' P
    split
    · rename_i hxx
      simp only [hxx, if_true] at hx'
      rw [hxx] at hx
      rw [hx] at hx'
      simp at hx'
    · exact hfull

theorem R.user_upd (h : R Γ H w vars g) (g' : G) : R Γ H { w with user := g' } vars g' :=
  ⟨h.rel, rfl, h.noLeak⟩

theorem userPure_run {α : Type} (f : G → α × G) (hu : w.user = g) :
    userPure f w = (.ok (f g).1, { w with user := (f g).2 }) := by
  simp [userPure, hu]

/-- Destruction of a live payload. -/
theorem R.destroyPayload {x v} (h : R Γ none w vars g) (hx : vars x = some (some v)) :
    ∃ w', destroyPayloadOf Γ x w = (.ok (), w') ∧
      R Γ (some (x, Raw (Γ x).cfg)) w' (upd vars x (some none)) ((Γ x).ops.dtor v g) := by
  obtain ⟨s, hs, ⟨id, hp⟩, hf, hb, hsep, _⟩ := h.full hx
  unfold destroyPayloadOf Model.destroyPayload
  rw [bind_ok (readStorage_ok hs)]
  simp only [hp]
  rw [bind_ok (userPure_run _ h.user)]
  refine ⟨_, rfl, ?_⟩
  refine h.write rfl (fun z hz => upd_other _ _ hz) ?_ varRelH_toHole rfl (by simpa using h.noLeak)
  rw [upd_same]
  simp only [VarRelH, if_pos]
  refine ⟨trivial, _, rfl, ⟨rfl, hf⟩, fun hm => ?_⟩
  dsimp only
  rw [fill_out (Or.inr (by omega))]
  exact hsep hm

theorem R.allocate {x} (h : R Γ none w vars g) (hx : vars x = none) :
    ∃ w', allocate x w = (.ok (), w') ∧ R Γ (some (x, Raw0)) w' (upd vars x (some none)) g := by
  have hm := h.absent hx
  unfold Model.allocate
  rw [hm]
  refine ⟨_, rfl, ?_⟩
  refine h.write (x := x) (s := .raw) rfl (fun z hz => upd_other _ _ hz) ?_ varRelH_toHole h.user h.noLeak
  rw [upd_same]
  simp [VarRelH, Raw0, Storage.raw]

/-- Releasing storage in which no payload is alive. -/
theorem R.release {x} (h : R Γ H w vars g)
    (hH : H = none ∨ ∃ P, H = some (x, P)) {s} (hs : w.mem x = some s) (hp : s.payload = none) :
    ∃ w', release x w = (.ok (), w') ∧ R Γ none w' (upd vars x none) g := by
  unfold Model.release
  rw [hs]
  refine ⟨_, rfl, ?_⟩
  constructor
  · intro z
    by_cases hz : z = x
    · subst hz; simp [VarRelH, VarRel]
    · simp only [if_neg hz, upd_other _ _ hz]
      rcases hH with rfl | ⟨P, rfl⟩
      · exact h.rel z
      · exact varRelH_ofHole z hz _ _ (h.rel z)
  · exact h.user
  · intro id
    have := h.noLeak id
    simp only [hp, List.append_nil, List.mem_append, not_or]
    refine ⟨this, ?_⟩
    cases s.flag <;> simp

/-- Releasing the storage of an empty optional. -/
theorem R.releaseEmp {x} (h : R Γ none w vars g) (hx : vars x = some none) :
    ∃ w', Model.release x w = (.ok (), w') ∧ R Γ none w' (upd vars x none) g := by
  obtain ⟨s, hs, he⟩ := h.emp hx
  exact h.release (Or.inl rfl) hs he.1

/-- Releasing the storage after the payload was destroyed. -/
theorem R.releaseRaw {x} (h : R Γ (some (x, Raw (Γ x).cfg)) w vars g) :
    ∃ w', Model.release x w = (.ok (), w') ∧ R Γ none w' (upd vars x none) g := by
  obtain ⟨_, s, hs, hraw⟩ := h.hole
  exact h.release (Or.inr ⟨_, rfl⟩) hs hraw.1.1

end rel

end Verif.Model
