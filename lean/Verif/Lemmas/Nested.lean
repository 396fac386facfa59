import Verif.Spec.Nested
import Verif.Lemmas.Param
import Verif.Lemmas.History

/-! Helper lemmas: optionals as payloads. -/

namespace Verif.Spec
open Verif.Model
variable {V G : Type} (o : Ops V G)

/-- The operation has a meaning, and variable 0 exists afterwards. -/
def Fine (r : SRes Unit × SWorld V G) : Prop := r.1 ≠ .undef ∧ ∃ c, r.2.vars 0 = some c

theorem argVal_moveOf (y : Nat) (w : SWorld V G) :
    argVal o (.moveOf y) w = match w.vars y with
      | some (some v) =>
        (match (o.moveCtor v w.user).1 with | .ok a => .ok a | .error e => .throw e,
          ⟨fun z => if z = y then some (some (o.moveCtor v w.user).2.1) else w.vars z, (o.moveCtor v w.user).2.2,
            w.trace ++ [(y, (o.moveCtor v w.user).2.1)]⟩)
      | _ => (.undef, w) := by
  simp only [argVal]
  rcases w.vars y with _ | _ | v
  · rfl
  · rfl
  · rcases h : o.moveCtor v w.user with ⟨r | r, v', g'⟩ <;> simp only [h]

theorem fine_ctorCopy (c : Option V) (g : G) :
    Fine (ctorCopy o 1 0 (scratch g (some c) none)) ∧
    ((ctorCopy o 1 0 (scratch g (some c) none)).1 = .ok () → ∃ d, (ctorCopy o 1 0 (scratch g (some c) none)).2.vars 1 = some d) := by
  cases c with
  | none => simp [Fine, ctorCopy, sm_bind, fresh, scratch, get, setEmpty]
  | some v =>
    rcases h : o.copyCtor v g with ⟨r | r, g'⟩ <;>
      simp [Fine, ctorCopy, sm_bind, fresh, scratch, get, argVal, getVal, user, put, h]

theorem fine_ctorMove (c : Option V) (g : G) :
    Fine (ctorMove o 1 0 (scratch g (some c) none)) ∧
    ((ctorMove o 1 0 (scratch g (some c) none)).1 = .ok () → ∃ d, (ctorMove o 1 0 (scratch g (some c) none)).2.vars 1 = some d) := by
  cases c with
  | none => simp [Fine, ctorMove, sm_bind, fresh, scratch, get, setEmpty]
  | some v =>
    rcases h : o.moveCtor v g with ⟨r | r, v', g'⟩ <;>
      simp [Fine, ctorMove, sm_bind, fresh, scratch, get, argVal_moveOf, put, h]

theorem fine_assignCopy (d c : Option V) (g : G) : Fine (assignCopy o 0 1 (scratch g (some d) (some c))) := by
  cases d with
  | none => cases c with
    | none => simp [Fine, assignCopy, sm_bind, scratch, get, SM.pure]
    | some v =>
      rcases h : o.copyCtor v g with ⟨r | r, g'⟩ <;>
        simp [Fine, assignCopy, sm_bind, scratch, get, init, argVal, getVal, user, put, h]
  | some u => cases c with
    | none => simp [Fine, assignCopy, sm_bind, scratch, get, destroyVal]
    | some v =>
      rcases h : o.copyAssign u v g with ⟨_ | r, v', g'⟩ <;>
        simp [Fine, assignCopy, sm_bind, scratch, get, payloadAssign, getVal, user, put, check, SM.pure, throw, h]

theorem fine_assignMove (d c : Option V) (g : G) :
    Fine (assignMove o 0 1 (scratch g (some d) (some c))) ∧ ∃ c', (assignMove o 0 1 (scratch g (some d) (some c))).2.vars 1 = some c' := by
  cases d with
  | none => cases c with
    | none => simp [Fine, assignMove, sm_bind, scratch, get, SM.pure]
    | some v =>
      rcases h : o.moveCtor v g with ⟨r | r, v', g'⟩ <;>
        simp [Fine, assignMove, sm_bind, scratch, get, init, argVal_moveOf, put, h]
  | some u => cases c with
    | none => simp [Fine, assignMove, sm_bind, scratch, get, destroyVal]
    | some v =>
      rcases h : o.moveAssign u v g with ⟨_ | r, v', s', g'⟩ <;>
        simp [Fine, assignMove, sm_bind, scratch, get, payloadAssign, getVal, user, put, check, SM.pure, throw, h]

theorem fine_selfCopy (c : Option V) (g : G) : Fine (assignCopy o 0 0 (scratch g (some c) none)) := by
  cases c with
  | none => simp [Fine, assignCopy, sm_bind, scratch, get, SM.pure]
  | some v =>
    rcases h : o.selfCopyAssign v g with ⟨_ | r, v', g'⟩ <;>
      simp [Fine, assignCopy, sm_bind, scratch, get, payloadAssign, getVal, user, put, check, SM.pure, throw, h]

theorem fine_selfMove (c : Option V) (g : G) : Fine (assignMove o 0 0 (scratch g (some c) none)) := by
  cases c with
  | none => simp [Fine, assignMove, sm_bind, scratch, get, SM.pure]
  | some v =>
    rcases h : o.selfMoveAssign v g with ⟨_ | r, v', g'⟩ <;>
      simp [Fine, assignMove, sm_bind, scratch, get, payloadAssign, getVal, user, put, check, SM.pure, throw, h]

theorem fine_swap (a b : Option V) (g : G) :
    Fine (Spec.swap o 0 1 (scratch g (some a) (some b))) ∧ ∃ c', (Spec.swap o 0 1 (scratch g (some a) (some b))).2.vars 1 = some c' := by
  cases a with
  | none => cases b with
    | none => simp [Fine, Spec.swap, sm_bind, scratch, get, SM.pure]
    | some v =>
      rcases h : o.moveCtor v g with ⟨r | r, v', g'⟩ <;>
        simp [Fine, Spec.swap, sm_bind, scratch, get, init, argVal_moveOf, put, destroyVal, h]
  | some u => cases b with
    | none =>
      rcases h : o.moveCtor u g with ⟨r | r, v', g'⟩ <;>
        simp [Fine, Spec.swap, sm_bind, scratch, get, init, argVal_moveOf, put, destroyVal, h]
    | some v =>
      rcases h : o.swap u v g with ⟨_ | r, v', s', g'⟩ <;>
        simp [Fine, Spec.swap, sm_bind, scratch, get, user, put, check, SM.pure, throw, h]

theorem fine_selfSwap (a : Option V) (g : G) : Fine (Spec.swap o 0 0 (scratch g (some a) none)) := by
  cases a with
  | none => simp [Fine, Spec.swap, sm_bind, scratch, get, SM.pure]
  | some u =>
    rcases h : o.selfSwap u g with ⟨_ | r, v', g'⟩ <;>
      simp [Fine, Spec.swap, sm_bind, scratch, get, user, put, check, SM.pure, throw, h]

theorem fine_dtor (c : Option V) (g : G) : (Spec.dtor o 0 (scratch g (some c) none)).1 ≠ .undef := by
  cases c <;> simp [Spec.dtor, sm_bind, scratch, get, remove, destroyVal]

/-- Unary reading of parametricity. -/
def Diag (P : V → Prop) (a b : V) : Prop := a = b ∧ P a

variable {o}

theorem diag_ops {P : V → Prop} (h : o.Keeps P) : RelOpsNoSwap (Diag P) (Eq : G → G → Prop) o o := by
  refine ⟨?_, ?_, ?_, ?_, ?_, ?_, ?_⟩
  · rintro v _ ⟨rfl, hv⟩ g _ rfl
    refine ⟨?_, rfl⟩
    rcases e : (o.copyCtor v g).1 with r | v'
    · exact rfl
    · exact ⟨rfl, h.copyCtor v g v' hv e⟩
  · rintro v _ g _ ⟨rfl, hv⟩ rfl
    refine ⟨?_, ⟨rfl, h.movedFrom v g hv⟩, rfl⟩
    rcases e : (o.moveCtor v g).1 with r | v'
    · exact rfl
    · exact ⟨rfl, h.moveCtor v g v' hv e⟩
  · rintro v _ s _ g _ ⟨rfl, hv⟩ ⟨rfl, hs⟩ rfl
    exact ⟨rfl, ⟨rfl, h.copyAssign v s g hv hs⟩, rfl⟩
  · rintro v _ s _ g _ ⟨rfl, hv⟩ ⟨rfl, hs⟩ rfl
    exact ⟨rfl, ⟨rfl, (h.moveAssign v s g hv hs).1⟩, ⟨rfl, (h.moveAssign v s g hv hs).2⟩, rfl⟩
  · rintro v _ g _ ⟨rfl, hv⟩ rfl
    exact ⟨rfl, ⟨rfl, h.selfCopyAssign v g hv⟩, rfl⟩
  · rintro v _ g _ ⟨rfl, hv⟩ rfl
    exact ⟨rfl, ⟨rfl, h.selfMoveAssign v g hv⟩, rfl⟩
  · rintro v _ g _ ⟨rfl, hv⟩ rfl
    exact rfl

theorem diag_swap {P : V → Prop} (h : o.Keeps P) : RelSwap (Diag P) (Eq : G → G → Prop) o o := by
  refine ⟨?_, ?_⟩
  · rintro v _ s _ g _ ⟨rfl, hv⟩ ⟨rfl, hs⟩ rfl
    exact ⟨rfl, ⟨rfl, (h.swap v s g hv hs).1⟩, ⟨rfl, (h.swap v s g hv hs).2⟩, rfl⟩
  · rintro v _ g _ ⟨rfl, hv⟩ rfl
    exact ⟨rfl, ⟨rfl, h.selfSwap v g hv⟩, rfl⟩

theorem diag_scratch {P : V → Prop} (g : G) {a b : Option (Option V)} (ha : ∀ v, a = some (some v) → P v)
    (hb : ∀ v, b = some (some v) → P v) : RelW (Diag P) Eq (scratch g a b) (scratch g a b) := by
  have key : ∀ c : Option (Option V), (∀ v, c = some (some v) → P v) → ORel (ORel (Diag P)) c c := by
    intro c hc
    rcases c with _ | _ | v
    · exact trivial
    · exact trivial
    · exact ⟨rfl, hc v rfl⟩
  refine ⟨fun x => ?_, rfl, trivial⟩
  simp only [scratch]
  split
  · exact key a ha
  · split
    · exact key b hb
    · exact trivial

end Verif.Spec

namespace Verif.Model
open Verif.Spec
variable {V G : Type} {T : Ty V G}

/-- The storage `s` of an optional of type `T` represents the content `c`: this is the simulation relation of C01 for one optional. -/
def Represents (T : Ty V G) (s : Storage V) (c : Option V) : Prop := VarRel T.cfg (some s) (some c)

theorem Represents.storable {s : Storage V} {v : V} (h : Represents T s (some v)) : T.cfg.Storable v := h.2.2.2.2

/-- Both operands represent contents (or do not exist). -/
theorem scratch_rel (g : G) {a b : Option (Storage V)} {a' b' : Option (Option V)} (ha : VarRel T.cfg a a') (hb : VarRel T.cfg b b') :
    RW (fun _ => T) none (scratch g a b) (Spec.scratch g a' b') := by
  refine ⟨fun z => ?_, rfl, by simp [scratch]⟩
  simp only [VarRelH, scratch, Spec.scratch]
  split
  · exact ha
  · split
    · exact hb
    · exact trivial

theorem VarRel.storable' {a : Option (Storage V)} {a' : Option (Option V)} (h : VarRel T.cfg a a') : ∀ v, a' = some (some v) → T.cfg.Storable v := by
  rintro v rfl
  cases a with
  | none => exact absurd h id
  | some s => exact h.2.2.2.2

theorem keeps_trace {P : V → Prop} {sm : SM V G Unit} (hrel : RelM (Diag P) Eq (fun _ _ => True) sm sm) {w : SWorld V G}
    (hw : RelW (Diag P) Eq w w) : ∀ p ∈ (sm w).2.trace, P p.2 := by
  intro p hp
  obtain ⟨q, _, _, h⟩ := (hrel w w hw).2.trace.left hp
  exact h.2

/-- One inner operation on representing operands. -/
theorem inner_sim {m : M V G Unit} {sm : SM V G Unit} (hs : Sims (fun _ => T) m sm)
    (hrel : RelM (Diag T.cfg.Storable) Eq (fun _ _ => True) sm sm) (g : G) {a b : Option (Storage V)} {a' b' : Option (Option V)}
    (ha : VarRel T.cfg a a') (hb : VarRel T.cfg b b') (hu : (sm (Spec.scratch g a' b')).1 ≠ .undef) :
    (m (scratch g a b)).1 = lift (sm (Spec.scratch g a' b')).1 ∧
    RW (fun _ => T) none (m (scratch g a b)).2 (sm (Spec.scratch g a' b')).2 := by
  obtain ⟨w', h1, h2⟩ := hs _ _ (scratch_rel g ha hb) hu
    (keeps_trace hrel (diag_scratch g ha.storable' hb.storable'))
  rw [h1]
  exact ⟨rfl, h2⟩

theorem exn_lift {r : SRes Unit} : (lift r).exn = r.exn := by
  cases r <;> rfl

theorem at_rel {w : World V G} {sw : SWorld V G} (h : RW (fun _ => T) none w sw) {x : Nat} {c : Option V} (hc : sw.vars x = some c)
    (s : Storage V) (d : Option V) : Represents T (w.at x s) (sw.at x d) := by
  have := h.rel x
  rw [hc] at this
  simp only [VarRelH] at this
  simp only [World.at, SWorld.at, hc, Option.getD_some]
  rcases hm : w.mem x with _ | t <;> rw [hm] at this
  · exact absurd this id
  · exact this

theorem constEnv_wf (hT : T.cfg.WF) (hl : T.ops.Lawful) : EnvWF (fun _ : Nat => T) := ⟨fun _ => hT, fun _ => hl⟩

theorem noexcept_exn {α : Type} (m : M V G α) (w : World V G) : (noexceptIf true m w).1.exn = none := by
  unfold noexceptIf
  rcases m w with ⟨a | e | a, w'⟩ <;> rfl

theorem exn_none_bind {α β : Type} {m : M V G α} {f : α → M V G β} {w : World V G} (hm : (m w).1.exn = none)
    (hf : ∀ a w', (f a w').1.exn = none) : ((m >>= f) w).1.exn = none := by
  show (M.bind m f w).1.exn = none
  unfold M.bind
  rcases h : m w with ⟨a | e | a, w'⟩ <;> rw [h] at hm
  · exact hf a w'
  · cases hm
  · rfl

theorem dtor_exn (Γ : Env V G) (x : Nat) (w : World V G) : (dtor Γ x w).1.exn = none := noexcept_exn _ _

/-- The operations of an optional obey its own exception specifications. -/
theorem nested_lawful (k : SwapFn) (T : Ty V G) : (nestedOps k T).Lawful := by
  have key : ∀ (x y : Nat) (w : World V G), T.ops.nothrowMoveCtor = true → (moveCtor (fun _ => T) x y w).1.exn = none := by
    intro x y w h
    unfold moveCtor copyOrMoveCtor
    simp only [h]
    exact noexcept_exn _ _
  have key2 : ∀ (x y : Nat) (w : World V G), (T.ops.nothrowMoveAssign && T.ops.nothrowMoveCtor) = true →
      (moveAssign (fun _ => T) x y w).1.exn = none := by
    intro x y w h
    unfold moveAssign copyOrMoveAssign
    simp only [h]
    exact noexcept_exn _ _
  have key3 : ∀ (x y : Nat) (w : World V G), (nestedOps k T).nothrowSwap = true → (freeSwap (fun _ => T) x y 2 k w).1.exn = none := by
    intro x y w h
    cases k with
    | tiny =>
      simp only [nestedOps] at h
      simp only [freeSwap, swap, h]
      exact noexcept_exn _ _
    | generic =>
      simp only [nestedOps, Bool.and_eq_true] at h
      simp only [freeSwap, genericSwap]
      refine exn_none_bind (key _ _ _ h.1) fun _ w' => exn_none_bind ?_ fun _ w'' => dtor_exn _ _ _
      have hn : ((do moveAssign (fun _ => T) x y; moveAssign (fun _ => T) y 2 : M V G Unit) w').1.exn = none :=
        exn_none_bind (key2 _ _ _ (by simp [h])) fun _ w'' => key2 _ _ _ (by simp [h])
      unfold onThrow
      split
      · next e w'' he => rw [he] at hn; cases hn
      · exact hn
  refine ⟨nofun, ?_, ?_, ?_, ?_, ?_⟩
  · intro h s g
    exact ⟨(moveCtor (fun _ => T) 1 0 (scratch g (some s) none)).2.at 1 s, by simp only [nestedOps, ctorResult, key _ _ _ h]⟩
  · intro h d s g
    exact key2 _ _ _ h
  · intro h s g
    exact key2 _ _ _ h
  · intro h a b g
    exact key3 _ _ _ h
  · intro h a g
    exact key3 _ _ _ h

variable (hT : T.cfg.WF) (hl : T.ops.Lawful) (hk : T.ops.Keeps T.cfg.Storable)
include hT hl hk

/-- The special members of the inner optional correspond to those of `std::optional`. -/
theorem nested_ops_rel (k : SwapFn) : RelOpsNoSwap (Represents T) Eq (nestedOps k T) (Spec.nestedOps T.ops) := by
  have hΓ := constEnv_wf hT hl
  have hd := diag_ops hk
  refine ⟨?_, ?_, ?_, ?_, ?_, ?_, ?_⟩
  · rintro s c h g _ rfl
    obtain ⟨⟨hu, _⟩, hf2⟩ := fine_ctorCopy T.ops c g
    obtain ⟨h1, h2⟩ := inner_sim (copyCtor_sims hΓ) (.ctorCopy hd 1 0) g (a := some s) (b := none) (b' := none) h trivial hu
    refine ⟨?_, h2.user⟩
    simp only [nestedOps, Spec.nestedOps, ctorResult, Spec.ctorResult, h1, exn_lift]
    rcases hr : (ctorCopy T.ops 1 0 (Spec.scratch g (some c) none)).1 with _ | e | _
    · obtain ⟨d, hd'⟩ := hf2 hr
      exact at_rel h2 hd' s c
    · rfl
    · exact absurd hr hu
  · rintro s c g _ h rfl
    obtain ⟨⟨hu, c', hc'⟩, hf2⟩ := fine_ctorMove T.ops c g
    obtain ⟨h1, h2⟩ := inner_sim (moveCtor_sims hΓ) (.ctorMove hd 1 0) g (a := some s) (b := none) (b' := none) h trivial hu
    refine ⟨?_, at_rel h2 hc' s c, h2.user⟩
    simp only [nestedOps, Spec.nestedOps, ctorResult, Spec.ctorResult, h1, exn_lift]
    rcases hr : (ctorMove T.ops 1 0 (Spec.scratch g (some c) none)).1 with _ | e | _
    · obtain ⟨d, hd'⟩ := hf2 hr
      exact at_rel h2 hd' s c
    · rfl
    · exact absurd hr hu
  · rintro s c t d g _ h h' rfl
    obtain ⟨hu, c', hc'⟩ := fine_assignCopy T.ops c d g
    obtain ⟨h1, h2⟩ := inner_sim (copyAssign_sims hΓ) (.assignCopy hd 0 1) g (a := some s) (b := some t) h h' hu
    exact ⟨(congrArg Res.exn h1).trans exn_lift, at_rel h2 hc' s c, h2.user⟩
  · rintro s c t d g _ h h' rfl
    obtain ⟨⟨hu, c', hc'⟩, d', hd'⟩ := fine_assignMove T.ops c d g
    obtain ⟨h1, h2⟩ := inner_sim (moveAssign_sims hΓ) (.assignMove hd 0 1) g (a := some s) (b := some t) h h' hu
    exact ⟨(congrArg Res.exn h1).trans exn_lift, at_rel h2 hc' s c, at_rel h2 hd' t d, h2.user⟩
  · rintro s c g _ h rfl
    obtain ⟨hu, c', hc'⟩ := fine_selfCopy T.ops c g
    obtain ⟨h1, h2⟩ := inner_sim (copyAssign_sims hΓ) (.assignCopy hd 0 0) g (a := some s) (b := none) (b' := none) h trivial hu
    exact ⟨(congrArg Res.exn h1).trans exn_lift, at_rel h2 hc' s c, h2.user⟩
  · rintro s c g _ h rfl
    obtain ⟨hu, c', hc'⟩ := fine_selfMove T.ops c g
    obtain ⟨h1, h2⟩ := inner_sim (moveAssign_sims hΓ) (.assignMove hd 0 0) g (a := some s) (b := none) (b' := none) h trivial hu
    exact ⟨(congrArg Res.exn h1).trans exn_lift, at_rel h2 hc' s c, h2.user⟩
  · rintro s c g _ h rfl
    exact (inner_sim (dtor_sims hΓ) (.dtor hd 0) g (a := some s) (b := none) (b' := none) h trivial (fine_dtor T.ops c g)).2.user

/-- So does `swap`, if the member function is called. -/
theorem nested_swap_rel : RelSwap (Represents T) Eq (nestedOps .tiny T) (Spec.nestedOps T.ops) := by
  have hΓ := constEnv_wf hT hl
  have hd := diag_ops hk
  refine ⟨?_, ?_⟩
  · rintro s c t d g _ h h' rfl
    obtain ⟨⟨hu, c', hc'⟩, d', hd'⟩ := fine_swap T.ops c d g
    obtain ⟨h1, h2⟩ := inner_sim (swap_sims hΓ rfl) (.swap hd (diag_swap hk) 0 1) g (a := some s) (b := some t) h h' hu
    exact ⟨(congrArg Res.exn h1).trans exn_lift, at_rel h2 hc' s c, at_rel h2 hd' t d, h2.user⟩
  · rintro s c g _ h rfl
    obtain ⟨hu, c', hc'⟩ := fine_selfSwap T.ops c g
    obtain ⟨h1, h2⟩ := inner_sim (swap_sims hΓ rfl) (.swap hd (diag_swap hk) 0 0) g (a := some s) (b := none) (b' := none) h trivial hu
    exact ⟨(congrArg Res.exn h1).trans exn_lift, at_rel h2 hc' s c, h2.user⟩

end Verif.Model
