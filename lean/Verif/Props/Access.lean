import Verif.Lemmas.Frame
import Verif.Lemmas.Compare
import Verif.Lemmas.Bounds
import Verif.Examples

/-!
# C45, C46: what is written, and where
-/

namespace Verif.Props
open Verif Verif.Model Verif.Examples
open Verif.Spec (RelOp Cmp)
variable {V G α β U : Type} {Γ : Env V G} {w w' : World V G}

/-! ### C45 -/

/-- `m` writes nothing: memory, objects and the record of lifetimes are as before, whatever the outcome; only the user's
own state may have changed (by user code that was called). -/
def WritesNothing (m : M V G α) : Prop := ∀ w, (m w).2.mem = w.mem ∧ (m w).2.nextObj = w.nextObj ∧ (m w).2.log = w.log

private theorem wn_pure (a : α) : WritesNothing (pure a : M V G α) := fun _ => ⟨rfl, rfl, rfl⟩

private theorem wn_bind {m : M V G α} {f : α → M V G β} (hm : WritesNothing m) (hf : ∀ a, WritesNothing (f a)) :
    WritesNothing (m >>= f) := by
  intro w
  have h := hm w
  rcases he : m w with ⟨a | e | a, w₁⟩ <;> rw [he] at h
  · rw [bind_ok he]
    have h' := hf a w₁
    exact ⟨h'.1.trans h.1, h'.2.1.trans h.2.1, h'.2.2.trans h.2.2⟩
  · rw [bind_throw he]; exact h
  · rw [bind_abort he]; exact h

private theorem wn_ite {b : Bool} {m n : M V G α} (hm : WritesNothing m) (hn : WritesNothing n) :
    WritesNothing (if b then m else n) := by
  cases b
  · exact hn
  · exact hm

private theorem wn_noexceptIf {b : Bool} {m : M V G α} (hm : WritesNothing m) : WritesNothing (noexceptIf b m) := by
  intro w
  have h := hm w
  unfold noexceptIf
  rcases he : m w with ⟨a | e | a, w₁⟩ <;> rw [he] at h
  · exact h
  · cases b <;> exact h
  · exact h

private theorem wn_userCall (f : G → Except Exn α × G) : WritesNothing (userCall f : M V G α) := by
  intro w
  unfold userCall
  rcases f w.user with ⟨_ | _, g⟩ <;> exact ⟨rfl, rfl, rfl⟩

private theorem wn_hasValue (x : Nat) : WritesNothing (hasValue Γ x) := by
  intro w
  rcases hm : w.mem x with _ | s
  · unfold hasValue; rw [bind_abort (readStorage_none hm)]; exact ⟨rfl, rfl, rfl⟩
  · unfold hasValue
    rw [bind_ok (readStorage_ok hm)]
    rcases (Γ x).cfg.isEmpty s with k | b <;> exact ⟨rfl, rfl, rfl⟩

private theorem wn_getPayload (x : Nat) : WritesNothing (getPayload x : M V G V) := by
  intro w
  unfold getPayload
  rcases hm : w.mem x with _ | s
  · rw [bind_abort (readStorage_none hm)]; exact ⟨rfl, rfl, rfl⟩
  · rw [bind_ok (readStorage_ok hm)]
    rcases s.payload with _ | p <;> exact ⟨rfl, rfl, rfl⟩

private theorem wn_assertHas (x : Nat) (b : Bool) : WritesNothing (assertHas Γ x b) := by
  unfold assertHas assertM
  cases (Γ x).cfg.ndebug
  · exact wn_bind (m := (do let h ← hasValue Γ x; pure (h == b))) (wn_bind (wn_hasValue x) fun _ => wn_pure _) fun c => by
      cases c <;> exact fun _ => ⟨rfl, rfl, rfl⟩
  · exact wn_pure ()

private theorem wn_deref (x : Nat) : WritesNothing (deref Γ x) :=
  wn_noexceptIf (wn_bind (wn_assertHas x true) fun _ => wn_getPayload x)

/-- C45. `has_value()`, `*o`, `o.value()`, `o.value_or(d)` of a const optional, and reading the source of a copy. -/
theorem C45_observers (Γ : Env V G) (x : Nat) (d : G → Except Exn V × G) :
    WritesNothing (hasValue Γ x) ∧ WritesNothing (deref Γ x) ∧ WritesNothing (value Γ x) ∧
    WritesNothing (valueOr Γ false x d) := by
  refine ⟨wn_hasValue x, wn_deref x, ?_, ?_⟩
  · exact wn_bind (wn_hasValue x) fun b => wn_ite (wn_getPayload x) (fun _ => ⟨rfl, rfl, rfl⟩)
  · exact wn_bind (wn_hasValue x) fun b => wn_ite (wn_bind (wn_getPayload x) fun _ => wn_userCall _) (wn_userCall d)

private theorem wn_andM {a b : M V G Bool} (ha : WritesNothing a) (hb : WritesNothing b) : WritesNothing (Model.andM a b) :=
  wn_bind ha fun _ => wn_ite hb (wn_pure _)

private theorem wn_orM {a b : M V G Bool} (ha : WritesNothing a) (hb : WritesNothing b) : WritesNothing (Model.orM a b) :=
  wn_bind ha fun _ => wn_ite (wn_pure _) hb

private theorem wn_notM {a : M V G Bool} (ha : WritesNothing a) : WritesNothing (Model.notM a) :=
  wn_bind ha fun _ => wn_pure _

private def Readable {A : Type} (l : OptLike V G A) : Prop := WritesNothing l.hasValue ∧ WritesNothing l.deref

private theorem readable_tiny (x : Nat) : Readable (tinyOpt Γ x) := ⟨wn_hasValue x, wn_deref x⟩

private theorem readable_std {A : Type} (o : Option A) : Readable (stdOpt o : OptLike V G A) :=
  ⟨wn_pure _, by cases o <;> exact fun _ => ⟨rfl, rfl, rfl⟩⟩

private theorem wn_payloadCmp {A B R : Type} {l : OptLike V G A} {r : OptLike V G B} (hl : Readable l) (hr : Readable r)
    (cmp : UserCmp G A B R) : WritesNothing (payloadCmp l r cmp) :=
  wn_bind hl.2 fun _ => wn_bind hr.2 fun _ => wn_userCall _

private theorem wn_rel {A B : Type} {l : OptLike V G A} {r : OptLike V G B} (hl : Readable l) (hr : Readable r)
    (cmp : RelOp → UserCmp G A B Bool) (cmp3 : UserCmp G A B Cmp) :
    (∀ op, WritesNothing (optRel l r op cmp)) ∧ WritesNothing (optSpaceship l r cmp3) := by
  have hp := fun op => wn_payloadCmp hl hr (cmp op)
  constructor
  · intro op
    cases op
    · exact wn_bind hl.1 fun _ => wn_andM (wn_bind hr.1 fun _ => wn_pure _) (wn_orM (wn_pure _) (hp _))
    · exact wn_bind hl.1 fun _ => wn_orM (wn_bind hr.1 fun _ => wn_pure _) (wn_andM (wn_pure _) (hp _))
    · exact wn_andM hr.1 (wn_orM (wn_notM hl.1) (hp _))
    · exact wn_orM (wn_notM hl.1) (wn_andM hr.1 (hp _))
    · exact wn_andM hl.1 (wn_orM (wn_notM hr.1) (hp _))
    · exact wn_orM (wn_notM hr.1) (wn_andM hl.1 (hp _))
  · exact wn_bind (wn_andM hl.1 hr.1) fun _ => wn_ite (wn_payloadCmp hl hr cmp3)
      (wn_bind hl.1 fun _ => wn_bind hr.1 fun _ => wn_pure _)

/-- C45. Comparisons of two optionals (tiny with tiny, tiny with `std`, `std` with tiny), for arbitrary comparison
functions of the payloads. -/
theorem C45_comparisons (Γ : Env V G) (x y : Nat) (o : Option U) (c : RelOp → UserCmp G V V Bool) (c3 : UserCmp G V V Cmp)
    (d : RelOp → UserCmp G V U Bool) (d3 : UserCmp G V U Cmp) (e : RelOp → UserCmp G U V Bool) (e3 : UserCmp G U V Cmp)
    (op : RelOp) :
    WritesNothing (optRel (tinyOpt Γ x) (tinyOpt Γ y) op c) ∧ WritesNothing (optSpaceship (tinyOpt Γ x) (tinyOpt Γ y) c3) ∧
    WritesNothing (optRel (tinyOpt Γ x) (stdOpt o) op d) ∧ WritesNothing (optSpaceship (tinyOpt Γ x) (stdOpt o) d3) ∧
    WritesNothing (optRel (stdOpt o) (tinyOpt Γ x) op e) ∧ WritesNothing (optSpaceship (stdOpt o) (tinyOpt Γ x) e3) :=
  ⟨(wn_rel (readable_tiny x) (readable_tiny y) c c3).1 op, (wn_rel (readable_tiny x) (readable_tiny y) c c3).2,
    (wn_rel (readable_tiny x) (readable_std o) d d3).1 op, (wn_rel (readable_tiny x) (readable_std o) d d3).2,
    (wn_rel (readable_std o) (readable_tiny x) e e3).1 op, (wn_rel (readable_std o) (readable_tiny x) e e3).2⟩

private theorem wn_relNullopt (x : Nat) (op : RelOp) : WritesNothing (relNullopt Γ x op) ∧ WritesNothing (nulloptRel Γ x op) := by
  cases op <;> exact ⟨wn_noexceptIf (by first | exact wn_notM (wn_hasValue x) | exact wn_hasValue x | exact wn_pure _),
    wn_noexceptIf (by first | exact wn_notM (wn_hasValue x) | exact wn_hasValue x | exact wn_pure _)⟩

private theorem wn_spaceshipNullopt (x : Nat) : WritesNothing (spaceshipNullopt Γ x) :=
  wn_noexceptIf (wn_bind (wn_hasValue x) fun _ => wn_pure _)

/-- C45. Comparisons with `nullopt` (declared and compiler-generated ones). -/
theorem C45_nullopt (Γ : Env V G) (x : Nat) (op : RelOp) :
    WritesNothing (relNullopt Γ x op) ∧ WritesNothing (nulloptRel Γ x op) ∧ WritesNothing (relNulloptRewritten Γ x op) ∧
    WritesNothing (nulloptRelRewritten Γ x op) ∧ WritesNothing (spaceshipNullopt Γ x) := by
  refine ⟨(wn_relNullopt x op).1, (wn_relNullopt x op).2, ?_, ?_, wn_spaceshipNullopt x⟩ <;>
    cases op <;>
    first
    | exact (wn_relNullopt x _).1
    | exact wn_notM (wn_relNullopt x _).1
    | exact wn_bind (wn_spaceshipNullopt x) fun _ => wn_pure _

private theorem wn_cond {R : Type} (x : Nat) (u : U) (r : R) (c : UserCmp G V U R) (c' : UserCmp G U V R) :
    WritesNothing (condRel Γ x u r c) ∧ WritesNothing (condRel' Γ x u r c') :=
  ⟨wn_bind (wn_hasValue x) fun _ => wn_ite (wn_bind (wn_deref x) fun _ => wn_userCall _) (wn_pure _),
    wn_bind (wn_hasValue x) fun _ => wn_ite (wn_bind (wn_deref x) fun _ => wn_userCall _) (wn_pure _)⟩

/-- C45. Comparisons with a plain value, and `std::hash`. -/
theorem C45_value_hash {H : Type} [OfNat H 0] (Γ : Env V G) (x : Nat) (u : U) (op : RelOp) (c : RelOp → UserCmp G V U Bool)
    (c' : RelOp → UserCmp G U V Bool) (c3 : UserCmp G V U Cmp) (h : V → G → Except Exn H × G) :
    WritesNothing (relValue Γ x u op c) ∧ WritesNothing (valueRel Γ x u op c') ∧ WritesNothing (spaceshipValue Γ x u c3) ∧
    WritesNothing (hashOf Γ x h) := by
  refine ⟨?_, ?_, (wn_cond x u _ c3 (fun a b => c3 b a)).1, ?_⟩
  · cases op <;> exact (wn_cond x u _ (c _) (c' .eq)).1
  · cases op <;> exact (wn_cond x u _ (c .eq) (c' _)).2
  · exact wn_bind (wn_hasValue x) fun _ => wn_ite (wn_bind (wn_deref x) fun _ => wn_userCall _) (wn_pure _)

/-- C45. Copying (construction, assignment, `or_else` on a const optional) writes nothing to its source. -/
theorem C45_copy_source (Γ : Env V G) (x y : Nat) (hxy : y ≠ x) (f : G → Except Exn (Option V) × G) (w : World V G) :
    (execOp Γ (.ctorCopy x y) w).2.mem y = w.mem y ∧ (execOp Γ (.assignCopy x y) w).2.mem y = w.mem y ∧
    (execOp Γ (.orElse false y x f) w).2.mem y = w.mem y :=
  ⟨(execOp_change Γ (.ctorCopy x y) w).1 y (by simpa [Op.writes] using hxy),
    (execOp_change Γ (.assignCopy x y) w).1 y (by simpa [Op.writes] using hxy),
    (execOp_change Γ (.orElse false y x f) w).1 y (by simpa [Op.writes] using hxy)⟩

/-- `WritesNothing` is no triviality: `reset()` and moving out of an optional do not have the property. -/
example : ¬ WritesNothing (reset exEnv 20) ∧ ¬ WritesNothing (valueOr exEnv true 20 fun g => (.ok 0#8, g)) := by
  constructor <;> intro h
  · have := (h exWorld).2.2
    exact absurd this (by decide)
  · have := congrArg (fun m => (m 20).map fun s => s.bytes 0) (h exWorld).1
    exact absurd this (by decide)

/-- `C45_copy_source` for the assignment of 22 to 21, which throws (the payload 13 cannot be copied). -/
example : (execOp exEnv (.assignCopy 21 22) exWorld).2.mem 22 = exWorld.mem 22 ∧
    (execOp exEnv (.assignCopy 21 22) exWorld).1 = .throw (.user 13) :=
  ⟨(C45_copy_source exEnv 21 22 (by decide) (fun g => (.ok none, g)) exWorld).2.1, rfl⟩

/-! ### C46 -/

/-- The bytes of an optional: `sizeof(payload)`, and the separate flag if there is one. -/
def extent (c : Config V) : Nat :=
  match c.decomp with
  | .separate => c.size + 1
  | _ => c.size

/-- No byte outside of any existing optional has been written. -/
def InBounds (Γ : Env V G) (w : World V G) : Prop :=
  ∀ x s, w.mem x = some s → ∀ j, extent (Γ x).cfg ≤ j → s.bytes j = none

/-- From `w` to `w'` nothing outside of an optional has been changed: for every optional of `w'`, the bytes outside of it are what
they were in `w`, unless it is a new one (of those in `T`). -/
def KeepsOutside (Γ : Env V G) (T : Nat → Prop) (w w' : World V G) : Prop :=
  ∀ x t, w'.mem x = some t →
    (∃ s, w.mem x = some s ∧ ∀ j, extent (Γ x).cfg ≤ j → t.bytes j = s.bytes j) ∨
    (T x ∧ ∀ j, extent (Γ x).cfg ≤ j → t.bytes j = none)

private theorem ko_refl {T : Nat → Prop} (w : World V G) : KeepsOutside Γ T w w := fun _ t ht => .inl ⟨t, ht, fun _ _ => rfl⟩

private theorem inBounds_write {T : Nat → Prop} {w w' : World V G} {x off n : Nat} {f : Nat → Option Byte} {s s' : Storage V}
    (hm : w.mem x = some s) (hm' : w'.mem = upd w.mem x (some s')) (hb : s'.bytes = fill s.bytes off n f)
    (hle : off + n ≤ extent (Γ x).cfg) : KeepsOutside Γ T w w' := by
  intro z t ht
  rw [hm'] at ht
  by_cases hz : z = x
  · subst hz
    rw [upd_same] at ht
    cases ht
    refine .inl ⟨s, hm, fun j hj => ?_⟩
    rw [hb]
    unfold fill
    rw [if_neg (by omega)]
  · rw [upd_other _ _ hz] at ht
    exact .inl ⟨t, ht, fun _ _ => rfl⟩

private theorem size_le_extent (c : Config V) : c.size ≤ extent c := by
  unfold extent; split <;> omega

theorem ib_destroy {T : Nat → Prop} {c : Config V} {x : Nat} (hc : (Γ x).cfg = c) (d : V → G → G) :
    Steps (KeepsOutside Γ T) (destroyPayload c d x : M V G Unit) := by
  intro w
  unfold destroyPayload
  rcases hm : w.mem x with _ | s
  · rw [bind_abort (readStorage_none hm)]; exact ko_refl _
  · rw [bind_ok (readStorage_ok hm)]
    rcases hp : s.payload with _ | p
    · exact ko_refl _
    · exact inBounds_write (f := fun _ => none) hm rfl rfl (by rw [hc, Nat.zero_add]; exact size_le_extent c)

theorem inBounds_closed (T : Nat → Prop) (hΓ : ∀ x, (Γ x).cfg.WF) :
    Closed Γ (fun _ => True) T (KeepsOutside Γ T) where
  refl := ko_refl
  trans _ _ _ h1 h2 := by
    intro x t ht
    rcases h2 x t ht with ⟨s, hs, e⟩ | h
    · rcases h1 x s hs with ⟨r, hr, e'⟩ | ⟨h, e'⟩
      · exact .inl ⟨r, hr, fun j hj => (e j hj).trans (e' j hj)⟩
      · exact .inr ⟨h, fun j hj => (e j hj).trans (e' j hj)⟩
    · exact .inr h
  user w _ := ko_refl (Γ := Γ) w
  initEmptyFlag x _ := by
    intro w
    unfold initEmptyFlag
    rcases hm : w.mem x with _ | s
    · rw [bind_abort (readStorage_none hm)]; exact ko_refl _
    · rw [bind_ok (readStorage_ok hm), bind_ok (m := freshId) rfl]
      rcases hi : (Γ x).cfg.initFlag w.nextObj s with k | ⟨s', created⟩
      · exact ko_refl _
      · have key : ∃ off n f, s'.bytes = fill s.bytes off n f ∧ off + n ≤ extent (Γ x).cfg := by
          have hs := size_le_extent (Γ x).cfg
          unfold Config.initFlag at hi
          cases hmp : (Γ x).cfg.manip with
          | separate =>
            simp only [hmp, Except.ok.injEq, Prod.mk.injEq] at hi
            obtain ⟨rfl, _⟩ := hi
            refine ⟨_, 1, fun _ => some 1#8, rfl, ?_⟩
            rcases (hΓ x).fits with ⟨hd, _⟩ | ⟨_, hd⟩
            · simp [extent, hd]
            · exact absurd hmp hd
          | memcpy sent =>
            simp only [hmp] at hi
            split at hi
            · cases hi
            split at hi
            · cases hi
            simp only [Except.ok.injEq, Prod.mk.injEq] at hi
            obtain ⟨rfl, _⟩ := hi
            exact ⟨_, _, _, rfl, by omega⟩
          | assign sv eq =>
            simp only [hmp] at hi
            split at hi
            · cases hi
            split at hi
            · cases hi
            simp only [Except.ok.injEq, Prod.mk.injEq] at hi
            obtain ⟨rfl, _⟩ := hi
            exact ⟨_, _, _, rfl, by omega⟩
          | custom p ev =>
            simp only [hmp] at hi
            split at hi
            · cases hi
            split at hi
            · cases hi
            simp only [Except.ok.injEq, Prod.mk.injEq] at hi
            obtain ⟨rfl, _⟩ := hi
            exact ⟨_, _, _, rfl, by omega⟩
        obtain ⟨off, n, f, hb, hle⟩ := key
        cases created
        · exact inBounds_write hm (s' := s') rfl hb hle
        · exact inBounds_write hm (s' := s') rfl hb hle
  invalidate x _ := by
    intro w
    unfold invalidateEmptyFlag
    rcases hm : w.mem x with _ | s
    · rw [bind_abort (readStorage_none hm)]; exact ko_refl _
    · rw [bind_ok (readStorage_ok hm)]
      have hin := (hΓ x).inside
      have hs := size_le_extent (Γ x).cfg
      have key : KeepsOutside Γ T w ((match s.flag with
          | some f => do
            writeStorage x { s with flag := none, bytes := fill s.bytes (Γ x).cfg.loc.off (Γ x).cfg.loc.size (fun _ => none) }
            emit (.flagInval f.id)
          | none =>
            match s.payload, (Γ x).cfg.decomp with
            | some _, .inplace => destroyPayload (Γ x).cfg (Γ x).ops.dtor x
            | some _, _ => ubM .memberDestroyed
            | none, _ => ubM .noObject : M V G Unit) w).2 := by
        rcases s.flag with _ | f
        · dsimp only
          rcases s.payload with _ | p
          · exact ko_refl _
          · cases (Γ x).cfg.decomp
            · exact ko_refl _
            · exact ib_destroy rfl _ w
            · exact ko_refl _
        · exact inBounds_write (f := fun _ => none) (off := (Γ x).cfg.loc.off) hm rfl rfl (by omega)
      cases hmp : (Γ x).cfg.manip with
      | separate =>
        refine inBounds_write (f := fun _ => some 0#8) hm rfl rfl ?_
        rcases (hΓ x).fits with ⟨hd, _⟩ | ⟨_, hd⟩
        · simp [extent, hd]
        · exact absurd hmp hd
      | memcpy sent => exact key
      | assign sv eq => exact key
      | custom p ev => exact key
  destroy x _ := ib_destroy rfl _
  newPayload x v _ := by
    intro w
    unfold newPayload
    rcases hm : w.mem x with _ | s
    · rw [bind_abort (readStorage_none hm)]; exact ko_refl _
    · rw [bind_ok (readStorage_ok hm)]
      split
      · exact ko_refl _
      · exact inBounds_write hm rfl rfl (by rw [Nat.zero_add]; exact size_le_extent _)
  setPayload x v _ := by
    intro w
    unfold setPayload
    rcases hm : w.mem x with _ | s
    · rw [bind_abort (readStorage_none hm)]; exact ko_refl _
    · rw [bind_ok (readStorage_ok hm)]
      rcases s.payload with _ | p
      · exact ko_refl _
      · exact inBounds_write hm rfl rfl (by rw [Nat.zero_add]; exact size_le_extent _)
  allocate x hx := by
    intro w
    unfold allocate
    rcases hm : w.mem x with _ | s
    · intro z t ht
      simp only at ht
      by_cases hz : z = x
      · rw [if_pos hz] at ht; cases ht; exact .inr ⟨hz ▸ hx, fun _ _ => rfl⟩
      · rw [if_neg hz] at ht; exact .inl ⟨t, ht, fun _ _ => rfl⟩
    · exact ko_refl _
  release x _ := by
    intro w
    unfold release
    rcases hm : w.mem x with _ | s
    · exact ko_refl _
    · intro z t ht
      simp only at ht
      by_cases hz : z = x
      · rw [if_pos hz] at ht; cases ht
      · rw [if_neg hz] at ht; exact .inl ⟨t, ht, fun _ _ => rfl⟩

/-- C46. Whatever the program does (any history, legal or not, with whatever outcome), no byte outside of an optional is
ever written. -/
theorem C46_writes (hΓ : ∀ x, (Γ x).cfg.WF) (h : List (Op V G)) (g : G) : InBounds Γ (run Γ h (.init g)).2 := by
  intro x t ht j hj
  rcases (inBounds_closed (fun _ => True) hΓ).run h (fun _ _ _ _ => trivial) (fun _ _ _ _ => trivial) (.init g) x t ht with
    ⟨s, hs, _⟩ | ⟨_, e⟩
  · cases hs
  · exact e j hj

/-- C46. Bytes outside of an optional that is neither created nor destroyed are not changed, whatever they are: the program starts
with an arbitrary memory. (In `C46_writes` they are indeterminate to begin with, so that making them so would not be noticed.) -/
theorem C46_keeps (hΓ : ∀ x, (Γ x).cfg.WF) (h : List (Op V G)) (w : World V G) (x : Nat)
    (hx : ∀ op ∈ h, x ∉ op.lifetimes) (t : Storage V) (ht : (run Γ h w).2.mem x = some t) :
    ∃ s, w.mem x = some s ∧ ∀ j, extent (Γ x).cfg ≤ j → t.bytes j = s.bytes j := by
  rcases (inBounds_closed (fun z => ∃ op ∈ h, z ∈ op.lifetimes) hΓ).run h (fun _ _ _ _ => trivial) (fun op ho z hz => ⟨op, ho, hz⟩) w x t ht with
    h | ⟨⟨op, ho, hz⟩, _⟩
  · exact h
  · exact absurd hz (hx op ho)

/-- C46. No access outside of an optional is ever attempted: the machine stops with `outOfBounds` at such an access. -/
theorem C46_no_out_of_bounds (hΓ : ∀ x, (Γ x).cfg.WF) (h : List (Op V G)) (w : World V G) :
    ∀ r ∈ (run Γ h w).1, r ≠ .abort (.ub .outOfBounds) := by
  induction h generalizing w with
  | nil => intro r hr; cases hr
  | cons op rest ih =>
    intro r hr
    have h1 := InB.execOp hΓ op w
    simp only [run] at hr
    rcases hw : execOp Γ op w with ⟨a | e | k, w'⟩ <;> rw [hw] at h1 hr
    · rcases List.mem_cons.1 hr with rfl | hr
      · exact h1
      · exact ih w' r hr
    · rcases List.mem_cons.1 hr with rfl | hr
      · exact h1
      · exact ih w' r hr
    · rcases List.mem_cons.1 hr with rfl | hr
      · exact h1
      · cases hr

private theorem memcmpEq_congr {b b' : Nat → Option Byte} (l : List Byte) (off : Nat)
    (h : ∀ j, j < off + l.length → b' j = b j) : memcmpEq b' off l = memcmpEq b off l := by
  induction l generalizing off with
  | nil => rfl
  | cons c cs ih =>
    simp only [List.length_cons] at h
    simp only [memcmpEq]
    rw [h off (by omega), ih (off + 1) (fun j hj => h j (by omega))]

/-- C46. Whether an optional is empty depends only on the bytes (and the objects) inside of it. -/
theorem C46_reads {c : Config V} (hc : c.WF) {s s' : Storage V} (hp : s'.payload = s.payload) (hf : s'.flag = s.flag)
    (hb : ∀ j, j < extent c → s'.bytes j = s.bytes j) : c.isEmpty s' = c.isEmpty s := by
  unfold Config.isEmpty
  cases hm : c.manip with
  | separate =>
    rcases hc.fits with ⟨hd, _⟩ | ⟨_, hd⟩
    · simp only
      rw [hb _ (by simp [extent, hd])]
    · exact absurd hm hd
  | memcpy sent =>
    have := size_le_extent c
    simp only
    split
    · exact memcmpEq_congr sent _ fun j hj => hb j (by omega)
    · rfl
  | assign sv eq => simp only [Config.readFlag, hp, hf]
  | custom p ev => simp only [Config.readFlag, hp, hf]

/-- In the example world, the separate flag of variable 0 is inside of its extent (2 bytes), and written; optional 20 has
one byte. -/
example : extent (exEnv 0).cfg = 2 ∧ extent (exEnv 20).cfg = 1 ∧ (exWorld.mem 0).map (fun s => (s.bytes 0, s.bytes 1, s.bytes 2))
      = some (some 42#8, some 0#8, none) ∧
    (exWorld.mem 20).map (fun s => (s.bytes 0, s.bytes 1)) = some (some 5#8, none) := ⟨rfl, rfl, rfl, rfl⟩

example := C46_no_out_of_bounds (Γ := exEnv) exEnv_wf.cfg
example := C46_keeps (Γ := exEnv) exEnv_wf.cfg
example := C46_writes (Γ := exEnv) exEnv_wf.cfg

/-- `C46_reads`: the byte behind a one-byte optional does not matter. -/
example (s : Storage (BitVec 8)) (b : Byte) :
    (exEnv 20).cfg.isEmpty { s with bytes := fun j => if j = 1 then some b else s.bytes j } = (exEnv 20).cfg.isEmpty s :=
  C46_reads (exEnv_wf.cfg 20) rfl rfl fun j hj => by
    have : extent (exEnv 20).cfg = 1 := rfl
    exact if_neg (by omega)

/-- A sentinel that is too long for the flag is what `WF` excludes: then the access is attempted. -/
example : (run (fun _ => ⟨⟨1, fun v _ => some v, .inplace, .memcpy [1#8, 2#8], false⟩, throwingOps⟩) [.ctorDefault 0]
    (.init [])).1.map (fun | .abort (.ub .outOfBounds) => true | _ => false) = [true] := rfl

end Verif.Props
