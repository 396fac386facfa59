import Verif.Lemmas.Reachable

/-! Helper lemmas: frame conditions and log growth as instances of `Closed`; payload objects of reachable worlds. -/

namespace Verif.Model

section
variable {V G : Type} {Γ : Env V G}

/-- How a world may change: every optional outside `S` keeps its storage, every optional outside `T` keeps existing or not
existing, the log grows by events satisfying `E`. -/
def Change (S T : Nat → Prop) (E : Event → Prop) (a b : World V G) : Prop :=
  (∀ z, ¬ S z → b.mem z = a.mem z) ∧ (∀ z, ¬ T z → (b.mem z).isSome = (a.mem z).isSome) ∧
  ∃ l, b.log = a.log ++ l ∧ ∀ e ∈ l, E e

theorem Change.refl {S T : Nat → Prop} {E : Event → Prop} (w : World V G) : Change S T E w w :=
  ⟨fun _ _ => rfl, fun _ _ => rfl, [], by simp, by simp⟩

theorem Change.write {S T : Nat → Prop} {E : Event → Prop} {w w' : World V G} {x : Nat} {s s' : Storage V} (hx : S x)
    (hm : w.mem x = some s) (hm' : w'.mem = upd w.mem x (some s')) {l : List Event} (hl : w'.log = w.log ++ l)
    (hE : ∀ e ∈ l, E e) : Change S T E w w' := by
  refine ⟨fun z hz => ?_, fun z hz => ?_, l, hl, hE⟩
  · rw [hm', upd_other]; rintro rfl; exact hz hx
  · rw [hm']
    by_cases h : z = x
    · subst h; simp [hm]
    · rw [upd_other _ _ h]

/-- `Leak` events occur only when `T` allows to release something. -/
def EventOK (T : Nat → Prop) : Event → Prop
  | .payloadLeak _ => ∃ x, T x
  | .flagAbandon _ => ∃ x, T x
  | _ => True

theorem change_destroyPayload {S T : Nat → Prop} (c : Config V) (d : V → G → G) {x : Nat} (hx : S x) :
    Steps (Change S T (EventOK T)) (destroyPayload c d x : M V G Unit) := by
  intro w
  unfold destroyPayload
  rcases hm : w.mem x with _ | s
  · rw [bind_abort (readStorage_none hm)]; exact Change.refl w
  · rw [bind_ok (readStorage_ok hm)]
    rcases hp : s.payload with _ | p
    · exact Change.refl w
    · refine Change.write hx hm (s' := _) rfl (l := [_]) rfl ?_
      simp [EventOK]

/-- All operations change only what they are allowed to. -/
theorem change_closed (S T : Nat → Prop) (hTS : ∀ x, T x → S x) :
    Closed Γ S T (Change S T (EventOK T) : World V G → World V G → Prop) where
  refl := Change.refl
  trans a b c := by
    rintro ⟨h1, h2, l, h3, h4⟩ ⟨g1, g2, l', g3, g4⟩
    refine ⟨fun z hz => (g1 z hz).trans (h1 z hz), fun z hz => (g2 z hz).trans (h2 z hz), l ++ l', ?_, ?_⟩
    · rw [g3, h3, List.append_assoc]
    · intro e he
      rcases List.mem_append.1 he with he | he
      · exact h4 e he
      · exact g4 e he
  user w g := ⟨fun _ _ => rfl, fun _ _ => rfl, [], by simp, by simp⟩
  initEmptyFlag x hx := by
    intro w
    unfold initEmptyFlag
    rcases hm : w.mem x with _ | s
    · rw [bind_abort (readStorage_none hm)]; exact Change.refl w
    · rw [bind_ok (readStorage_ok hm), bind_ok (m := freshId) rfl]
      rcases (Γ x).cfg.initFlag w.nextObj s with k | ⟨s', created⟩
      · exact ⟨fun _ _ => rfl, fun _ _ => rfl, [], by simp [liftE, bind, M.bind, ubM], by simp⟩
      · show Change S T _ w ((do writeStorage x s'; if created then emit (.flagInit w.nextObj) else pure ()) _ : Res Unit × World V G).2
        cases created
        · exact Change.write hx hm (s' := s') rfl (l := []) (by simp [bind, M.bind, writeStorage, pure, M.pure]) (by simp)
        · exact Change.write hx hm (s' := s') rfl (l := [_]) rfl (by simp [EventOK])
  invalidate x hx := by
    intro w
    unfold invalidateEmptyFlag
    rcases hm : w.mem x with _ | s
    · rw [bind_abort (readStorage_none hm)]; exact Change.refl w
    · rw [bind_ok (readStorage_ok hm)]
      have key : Change S T (EventOK T) w ((match s.flag with
          | some f => do
            writeStorage x { s with flag := none, bytes := fill s.bytes (Γ x).cfg.loc.off (Γ x).cfg.loc.size (fun _ => none) }
            emit (.flagInval f.id)
          | none =>
            match s.payload, (Γ x).cfg.decomp with
            | some _, .inplace => destroyPayload (Γ x).cfg (Γ x).ops.dtor x
            | some _, _ => ubM .memberDestroyed
            | none, _ => ubM .noObject : M V G Unit) w).2 := by
        rcases s.flag with _ | f
        · dsimp only
          rcases s.payload with _ | p
          · exact Change.refl w
          · cases (Γ x).cfg.decomp
            · exact Change.refl w
            · exact change_destroyPayload _ _ hx w
            · exact Change.refl w
        · exact Change.write hx hm (s' := _) rfl (l := [_]) rfl (by simp [EventOK])
      cases (Γ x).cfg.manip with
      | separate => exact Change.write hx hm (s' := _) rfl (l := []) (by simp [writeStorage]) (by simp)
      | memcpy sent => exact key
      | assign sv eq => exact key
      | custom p ev => exact key
  destroy x hx := change_destroyPayload _ _ hx
  newPayload x v hx := by
    intro w
    unfold newPayload
    rcases hm : w.mem x with _ | s
    · rw [bind_abort (readStorage_none hm)]; exact Change.refl w
    · rw [bind_ok (readStorage_ok hm)]
      split
      · exact Change.refl w
      · exact Change.write hx hm (s' := _) rfl (l := [_]) rfl (by simp [EventOK])
  setPayload x v hx := by
    intro w
    unfold setPayload
    rcases hm : w.mem x with _ | s
    · rw [bind_abort (readStorage_none hm)]; exact Change.refl w
    · rw [bind_ok (readStorage_ok hm)]
      rcases s.payload with _ | p
      · exact Change.refl w
      · exact Change.write hx hm (s' := _) rfl (l := []) (by simp [writeStorage]) (by simp)
  allocate x hx := by
    intro w
    unfold allocate
    rcases hm : w.mem x with _ | s
    · refine ⟨fun z hz => ?_, fun z hz => ?_, [], by simp, by simp⟩
      · simp only; rw [if_neg]; rintro rfl; exact hz (hTS _ hx)
      · simp only; rw [if_neg]; rintro rfl; exact hz hx
    · exact Change.refl w
  release x hx := by
    intro w
    unfold release
    rcases hm : w.mem x with _ | s
    · exact Change.refl w
    · refine ⟨fun z hz => ?_, fun z hz => ?_, _, List.append_assoc _ _ _, ?_⟩
      · simp only; rw [if_neg]; rintro rfl; exact hz (hTS _ hx)
      · simp only; rw [if_neg]; rintro rfl; exact hz hx
      · intro e he
        rcases List.mem_append.1 he with he | he <;> split at he <;> simp at he <;> subst he <;> exact ⟨x, hx⟩

theorem lifetimes_writes (op : Op V G) : ∀ z ∈ op.lifetimes, z ∈ op.writes := by
  intro z hz
  cases op <;> simp_all [Op.lifetimes, Op.writes]
  next rv _ _ _ => cases rv <;> simp

theorem execOp_change (Γ : Env V G) (op : Op V G) (w : World V G) :
    Change (· ∈ op.writes) (· ∈ op.lifetimes) (EventOK (· ∈ op.lifetimes)) w (execOp Γ op w).2 :=
  (change_closed (Γ := Γ) (· ∈ op.writes) (· ∈ op.lifetimes) (lifetimes_writes op)).execOp op (fun _ h => h) (fun _ h => h) w

/-! ### Payload objects of reachable worlds -/

theorem R.holdsPayload_iff {w : World V G} {vars g x} (h : R Γ none w vars g) :
    (∃ id, HoldsPayload x id w) ↔ ∃ v, vars x = some (some v) := by
  constructor
  · rintro ⟨id, s, v, hs, hp⟩
    have := h.rel x
    rw [hs] at this
    rcases hv : vars x with _ | (_ | u)
    · rw [hv] at this; exact absurd this (by simp [VarRelH, VarRel])
    · rw [hv] at this
      have : Emp (Γ x).cfg s := this
      rw [this.1] at hp; simp at hp
    · exact ⟨u, rfl⟩
  · rintro ⟨v, hv⟩
    obtain ⟨s, hs, ⟨id, hp⟩, _⟩ := h.full hv
    exact ⟨id, s, v, hs, hp⟩

theorem leaked_zero {l : List Event} (h : ∀ id, Event.payloadLeak id ∉ l) (id : Nat) : leaked l id = 0 :=
  List.count_eq_zero.2 (h id)

end
end Verif.Model
