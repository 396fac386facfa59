import Verif.Spec.Bytes
import Verif.Lemmas.Reachable

/-! The bytes of every optional are those of the object in it, at any time and whatever is called. -/

namespace Verif.Model
open Verif.Spec (Represented)

variable {V G : Type} {Γ : Env V G}

/-- In every optional. -/
def AllRepresented (Γ : Env V G) (w : World V G) : Prop := ∀ x s, w.mem x = some s → Represented (Γ x).cfg s

/-- Nothing is alive. -/
theorem represented_raw {c : Config V} {s : Storage V} (hp : s.payload = none) (hf : s.flag = none) : Represented c s :=
  ⟨fun _ => hf, fun _ => hf, by simp [hp], by simp [hf], by simp [hf]⟩

theorem represented_new {c : Config V} {s : Storage V} {id : Nat} {v : V} {b : Nat → Option Byte} (hp : s.payload = some ⟨id, v⟩)
    (hf : s.flag = none) (hb : s.bytes = fill b 0 c.size (c.repr v)) : Represented c s := by
  refine ⟨fun _ => hf, fun _ => hf, ?_, by simp [hf], by simp [hf]⟩
  rw [hp]
  rintro p ⟨⟩ i hi
  rw [hb]
  have := fill_in (b := b) (f := c.repr v) (off := 0) hi
  rwa [Nat.zero_add] at this

private theorem put {w w' : World V G} {x : Nat} {s' : Storage V} (h : AllRepresented Γ w) (hm : w'.mem = upd w.mem x (some s'))
    (hs : Represented (Γ x).cfg s') : AllRepresented Γ w' := by
  intro z t ht
  rw [hm] at ht
  by_cases hz : z = x
  · subst hz
    rw [upd_same] at ht
    cases ht
    exact hs
  · rw [upd_other _ _ hz] at ht
    exact h z t ht

theorem rep_destroy {x : Nat} {d : V → G → G} : Steps (fun a b => AllRepresented Γ a → AllRepresented Γ b)
    (destroyPayload (Γ x).cfg d x : M V G Unit) := by
  intro w h
  unfold destroyPayload
  rcases hm : w.mem x with _ | s
  · rw [bind_abort (readStorage_none hm)]; exact h
  · rw [bind_ok (readStorage_ok hm)]
    rcases hp : s.payload with _ | p
    · exact h
    · exact put h (w' := _) (x := x) (s' := _) rfl (represented_raw rfl ((h x s hm).one (by simp [hp])))

/-- The effect of `init_empty_flag`. -/
theorem represented_init {c : Config V} {s s' : Storage V} {id : Nat} {b : Bool} (h : Represented c s) (hi : c.initFlag id s = .ok (s', b)) :
    Represented c s' := by
  unfold Config.initFlag at hi
  cases hm : c.manip with
  | separate =>
    simp only [hm, Except.ok.injEq, Prod.mk.injEq] at hi
    obtain ⟨rfl, _⟩ := hi
    have hf := h.apart hm
    refine ⟨fun _ => hf, fun _ => hf, fun p hp i hi => ?_, by simp [hf], by simp [hf]⟩
    exact (fill_out (b := s.bytes) (off := c.size) (n := 1) (f := fun _ => some 1#8) (.inl hi)).trans (h.payload p hp i hi)
  | memcpy sent =>
    simp only [hm] at hi
    split at hi
    · cases hi
    next hn =>
    split at hi
    · cases hi
    simp only [Except.ok.injEq, Prod.mk.injEq] at hi
    obtain ⟨rfl, _⟩ := hi
    simp only [not_or, Bool.not_eq_true, Option.isSome_eq_false_iff, Option.isNone_iff_eq_none] at hn
    refine ⟨by simp [hn.1], by simp [hm], by simp [hn.1], by simp, fun f _ _ => ⟨sent, hm, fun i hi => ?_⟩⟩
    exact (fill_in hi).trans (List.getElem?_eq_getElem hi)
  | assign sv eq =>
    simp only [hm] at hi
    split at hi
    · cases hi
    next hn =>
    split at hi
    · cases hi
    simp only [Except.ok.injEq, Prod.mk.injEq] at hi
    obtain ⟨rfl, _⟩ := hi
    simp only [not_or, Bool.not_eq_true, Option.isSome_eq_false_iff, Option.isNone_iff_eq_none] at hn
    refine ⟨by simp [hn.1], by simp [hm], by simp [hn.1], ?_, by rintro f ⟨⟩; simp⟩
    rintro f ⟨⟩ v ⟨⟩ i hi
    exact fill_in hi
  | custom p ev =>
    simp only [hm] at hi
    split at hi
    · cases hi
    next hn =>
    split at hi
    · cases hi
    simp only [Except.ok.injEq, Prod.mk.injEq] at hi
    obtain ⟨rfl, _⟩ := hi
    simp only [not_or, Bool.not_eq_true, Option.isSome_eq_false_iff, Option.isNone_iff_eq_none] at hn
    refine ⟨by simp [hn.1], by simp [hm], by simp [hn.1], ?_, by rintro f ⟨⟩; simp⟩
    rintro f ⟨⟩ v ⟨⟩ i hi
    exact fill_in hi

theorem represented_closed (Γ : Env V G) :
    Closed Γ (fun _ => True) (fun _ => True) (fun a b : World V G => AllRepresented Γ a → AllRepresented Γ b) where
  refl _ := id
  trans _ _ _ h1 h2 := fun h => h2 (h1 h)
  user _ _ := id
  initEmptyFlag x _ := by
    intro w h
    unfold initEmptyFlag
    rcases hm : w.mem x with _ | s
    · rw [bind_abort (readStorage_none hm)]; exact h
    · rw [bind_ok (readStorage_ok hm), bind_ok (m := freshId) rfl]
      rcases hi : (Γ x).cfg.initFlag w.nextObj s with k | ⟨s', created⟩
      · exact h
      · have hs := represented_init (h x s hm) hi
        cases created
        · exact put h (x := x) (s' := s') rfl hs
        · exact put h (x := x) (s' := s') rfl hs
  invalidate x _ := by
    intro w h
    unfold invalidateEmptyFlag
    rcases hm : w.mem x with _ | s
    · rw [bind_abort (readStorage_none hm)]; exact h
    · rw [bind_ok (readStorage_ok hm)]
      have hs := h x s hm
      have key : AllRepresented Γ ((match s.flag with
          | some f => do
            writeStorage x { s with flag := none, bytes := fill s.bytes (Γ x).cfg.loc.off (Γ x).cfg.loc.size (fun _ => none) }
            emit (.flagInval f.id)
          | none =>
            match s.payload, (Γ x).cfg.decomp with
            | some _, .inplace => destroyPayload (Γ x).cfg (Γ x).ops.dtor x
            | some _, _ => ubM .memberDestroyed
            | none, _ => ubM .noObject : M V G Unit) w).2 := by
        rcases hf : s.flag with _ | f
        · dsimp only
          rcases s.payload with _ | p
          · exact h
          · cases (Γ x).cfg.decomp
            · exact h
            · exact rep_destroy w h
            · exact h
        · refine put h (x := x) (s' := _) rfl (represented_raw ?_ rfl)
          rcases hp : s.payload with _ | p
          · rfl
          · have := hs.one (by simp [hp])
            simp [hf] at this
      cases hmp : (Γ x).cfg.manip with
      | separate =>
        have hf := hs.apart hmp
        exact put h (x := x) (s' := _) rfl
          ⟨fun _ => hf, fun _ => hf, fun p hp i hi => (fill_out (b := s.bytes) (n := 1) (f := fun _ => some 0#8) (.inl hi)).trans (hs.payload p hp i hi), by simp [hf], by simp [hf]⟩
      | memcpy sent => exact key
      | assign sv eq => exact key
      | custom p ev => exact key
  destroy x _ := rep_destroy
  newPayload x v _ := by
    intro w h
    unfold newPayload
    rcases hm : w.mem x with _ | s
    · rw [bind_abort (readStorage_none hm)]; exact h
    · rw [bind_ok (readStorage_ok hm)]
      split
      · exact h
      next hn =>
      simp only [not_or, Bool.not_eq_true, Option.isSome_eq_false_iff, Option.isNone_iff_eq_none] at hn
      exact put h (x := x) (s' := _) rfl (represented_new rfl hn.2 rfl)
  setPayload x v _ := by
    intro w h
    unfold setPayload
    rcases hm : w.mem x with _ | s
    · rw [bind_abort (readStorage_none hm)]; exact h
    · rw [bind_ok (readStorage_ok hm)]
      rcases hp : s.payload with _ | p
      · exact h
      · exact put h (x := x) (s' := _) rfl (represented_new rfl ((h x s hm).one (by simp [hp])) rfl)
  allocate x _ := by
    intro w h
    unfold allocate
    rcases hm : w.mem x with _ | s
    · exact put h (x := x) (s' := .raw) rfl (represented_raw rfl rfl)
    · exact h
  release x _ := by
    intro w h
    unfold release
    rcases hm : w.mem x with _ | s
    · exact h
    · intro z t ht
      simp only at ht
      by_cases hz : z = x
      · rw [if_pos hz] at ht; cases ht
      · rw [if_neg hz] at ht; exact h z t ht

theorem represented_run (Γ : Env V G) (h : List (Op V G)) {w : World V G} (hw : AllRepresented Γ w) : AllRepresented Γ (run Γ h w).2 :=
  (represented_closed Γ).run h (fun _ _ _ _ => trivial) (fun _ _ _ _ => trivial) w hw

theorem Reach.represented {w : World V G} (h : Reach Γ w) : AllRepresented Γ w := by
  obtain ⟨sw, h⟩ := h
  induction h with
  | init g => exact nofun
  | call op _ _ _ _ _ _ ih => exact (represented_closed Γ).execOp op (fun _ _ => trivial) (fun _ _ => trivial) _ ih
  | program p _ _ _ _ _ ih => exact (represented_closed Γ).runProg (fun _ _ => rep_destroy) p p.changes_all _ ih

end Verif.Model
