import Verif.Lemmas.Life
import Verif.Lemmas.Threads
import Verif.Lemmas.Compare
import Verif.Model.Reentrant

/-! Helper lemmas: programs whose user code calls the library again. -/

namespace Verif.Model
open Verif.Spec (SM SWorld SRes)

/-- The end of a payload's lifetime. -/
theorem Re.endPayload_eq {V G : Type} (Γ : Env V G) (x : Nat) : Re.endPayload Γ x = (do
    let s ← readStorage x
    match s.payload with
    | none => ubM .noObject
    | some p => do
      writeStorage x { s with payload := none, bytes := fill s.bytes 0 (Γ x).cfg.size (fun _ => none) }
      emit (.payloadDtor p.id) : M V G Unit) := by
  funext w
  unfold Re.endPayload Model.destroyPayload
  rcases hm : w.mem x with _ | s
  · rw [bind_abort (readStorage_none hm), bind_abort (readStorage_none hm)]
  · rw [bind_ok (readStorage_ok hm), bind_ok (readStorage_ok hm)]
    rcases s.payload with _ | p <;> rfl

section
variable {V G α β : Type}

/-! ### Independence of the memory of busy optionals -/

/-- The world with other memory for the optionals in `B`. -/
def mask (B : List Nat) (junk : Nat → Option (Storage V)) (w : World V G) : World V G :=
  { w with mem := fun z => if z ∈ B then junk z else w.mem z }

/-- `m` runs from `w` to `w'` with result `r`, whatever is in the memory of the optionals in `B`, and leaves that as it is. -/
structure Runs (B : List Nat) (m : M V G α) (w : World V G) (r : Res α) (w' : World V G) : Prop where
  run : ∀ junk, m (mask B junk w) = (r, mask B junk w')
  keep : ∀ z ∈ B, w'.mem z = w.mem z

theorem mask_self {B : List Nat} {junk : Nat → Option (Storage V)} {w : World V G} (h : ∀ z ∈ B, w.mem z = junk z) :
    mask B junk w = w := by
  unfold mask
  congr 1
  funext z
  split
  · rename_i hz; exact (h z hz).symm
  · rfl

variable {B : List Nat} {m : M V G α} {f : α → M V G β} {w w' w'' : World V G} {a : α} {e : Exn}

theorem Runs.eq {r : Res α} (h : Runs B m w r w') : m w = (r, w') := by
  have := h.run w.mem
  rwa [mask_self (fun _ _ => rfl), mask_self h.keep] at this

theorem Runs.bind_ok {r : Res β} (h : Runs B m w (.ok a) w') (h' : Runs B (f a) w' r w'') : Runs B (m >>= f) w r w'' :=
  ⟨fun junk => by rw [Model.bind_ok (h.run junk)]; exact h'.run junk, fun z hz => (h'.keep z hz).trans (h.keep z hz)⟩

theorem Runs.bind_throw (h : Runs B m w (.throw e) w') : Runs B (m >>= f) w (.throw e) w' :=
  ⟨fun junk => Model.bind_throw (h.run junk), h.keep⟩

theorem Runs.onThrow_ok {c : M V G Unit} (h : Runs B m w (.ok a) w') : Runs B (onThrow m c) w (.ok a) w' :=
  ⟨fun junk => Model.onThrow_ok (h.run junk), h.keep⟩

theorem Runs.onThrow_throw {c : M V G Unit} (h : Runs B m w (.throw e) w') (hc : Runs B c w' (.ok ()) w'') :
    Runs B (onThrow m c) w (.throw e) w'' :=
  ⟨fun junk => Model.onThrow_throw (h.run junk) (hc.run junk), fun z hz => (hc.keep z hz).trans (h.keep z hz)⟩

theorem Runs.noexceptIf_ok {b : Bool} (h : Runs B m w (.ok a) w') : Runs B (noexceptIf b m) w (.ok a) w' :=
  ⟨fun junk => Model.noexceptIf_ok (h.run junk), h.keep⟩

theorem Runs.noexceptIf_throw (h : Runs B m w (.throw e) w') : Runs B (noexceptIf false m) w (.throw e) w' :=
  ⟨fun junk => Model.noexceptIf_throw_false (h.run junk), h.keep⟩

theorem Runs.noexceptIf_lift {b : Bool} {r : SRes α} (h : Runs B m w (lift r) w') (hb : ∀ e, r = .throw e → b = false) :
    Runs B (noexceptIf b m) w (lift r) w' :=
  ⟨fun junk => Model.noexceptIf_lift (h.run junk) hb, h.keep⟩

theorem Runs.pure (a : α) (w : World V G) : Runs B (Pure.pure a : M V G α) w (.ok a) w := ⟨fun _ => rfl, fun _ _ => rfl⟩

theorem Runs.ite_true {c : Bool} {m' : M V G α} {r : Res α} (hc : c = true) (h : Runs B m w r w') :
    Runs B (if c = true then m else m') w r w' := by rw [if_pos hc]; exact h

theorem Runs.ite_false {c : Bool} {m' : M V G α} {r : Res α} (hc : c = false) (h : Runs B m' w r w') :
    Runs B (if c = true then m else m') w r w' := by rw [hc, if_neg Bool.false_ne_true]; exact h

/-- `m` neither reads nor writes the optionals in `B`. -/
def Local (B : List Nat) (m : M V G α) : Prop := ∀ w, Runs B m w (m w).1 (m w).2

theorem Local.runs {r : Res α} (hm : Local B m) (h : m w = (r, w')) : Runs B m w r w' := by
  have := hm w
  rwa [h] at this

theorem Fits.runs {R W : Nat → Prop} {p : Steps.M V G α} (hp : Fits R W p) (hR : ∀ z ∈ B, ¬R z) (hW : ∀ z ∈ B, ¬W z) (w : World V G) :
    Runs B (toM p) w (toM p w).1 (toM p w).2 := by
  induction p generalizing w with
  | done r => exact ⟨fun _ => rfl, fun _ _ => rfl⟩
  | read x k ih =>
    have hx : x ∉ B := fun h => hp.1.elim (hR x h) (hW x h)
    have h := ih (w.mem x) (hp.2 _) w
    refine ⟨fun junk => ?_, h.keep⟩
    have h' := h.run junk
    show (k ((mask B junk w).mem x)).exec (mask B junk w) = _
    have hm : (mask B junk w).mem x = w.mem x := by simp [mask, hx]
    rw [hm]; exact h'
  | write x c k ih =>
    have hx : x ∉ B := fun h => hW x h hp.1
    have h := ih hp.2 { w with mem := fun z => if z = x then c else w.mem z }
    refine ⟨fun junk => ?_, fun z hz => ?_⟩
    · have h' := h.run junk
      refine Eq.trans ?_ h'
      show k.exec _ = k.exec _
      congr 1
      unfold mask
      congr 1
      funext z
      by_cases hz : z ∈ B
      · have : z ≠ x := fun h => hx (h ▸ hz)
        simp [hz, this]
      · simp [hz]
    · have : z ≠ x := fun h => hx (h ▸ hz)
      refine (h.keep z hz).trans ?_
      simp [this]
  | fresh k ih =>
    have h := ih w.nextObj (hp _) { w with nextObj := w.nextObj + 1 }
    exact ⟨fun junk => h.run junk, h.keep⟩
  | event e k ih =>
    have h := ih hp { w with log := w.log ++ [e] }
    exact ⟨fun junk => h.run junk, h.keep⟩
  | user f k ih =>
    have h := ih w.user (hp _) { w with user := f w.user }
    exact ⟨fun junk => h.run junk, h.keep⟩

end

/-- All optionals but those in `B`. -/
def Off (B : List Nat) (z : Nat) : Prop := z ∉ B

section
variable {V G α : Type} {B : List Nat} {x y : Nat}

theorem Fits.isLocal {p : Steps.M V G α} {m : M V G α} (hp : Fits (Off B) (Off B) p) (hm : toM p = m) : Local B m := by
  intro w
  rw [← hm]
  exact hp.runs (fun z hz h => h hz) (fun z hz h => h hz) w

variable (Γ : Env V G)

theorem local_hasValue (hx : x ∉ B) : Local B (hasValue Γ x) := (Fits.hasValue Γ (.inr hx)).isLocal (toM_hasValue Γ x)
theorem local_assertHas (hx : x ∉ B) (b : Bool) : Local B (assertHas Γ x b) :=
  (Fits.assertHas Γ (.inr hx) b).isLocal (toM_assertHas Γ x b)
theorem local_assertSame (hx : x ∉ B) (hy : y ∉ B) : Local B (assertSame Γ x y) :=
  (Fits.assertSame Γ (.inr hx) (.inr hy)).isLocal (toM_assertSame Γ x y)
theorem local_invalidate (hx : x ∉ B) (c : Config V) (d : V → G → G) : Local B (invalidateEmptyFlag c d x) :=
  (Fits.invalidate (R := Off B) hx c d).isLocal (toM_invalidateEmptyFlag x c d)
theorem local_initEmptyFlag (hx : x ∉ B) (c : Config V) : Local B (initEmptyFlag c x : M V G Unit) :=
  (Fits.initEmptyFlag (R := Off B) hx c).isLocal (toM_initEmptyFlag x c)
theorem local_newPayload (hx : x ∉ B) (c : Config V) (v : V) : Local B (newPayload c x v : M V G Unit) :=
  (Fits.newPayload (R := Off B) hx c v).isLocal (toM_newPayload x c v)
theorem local_getPayload (hx : x ∉ B) : Local B (getPayload x : M V G V) :=
  (Fits.getPayload (R := Off B) (.inr hx)).isLocal (toM_getPayload x)
theorem local_allocate (hx : x ∉ B) : Local B (allocate x : M V G Unit) := (Fits.allocate (R := Off B) hx).isLocal (toM_allocate x)
theorem local_release (hx : x ∉ B) : Local B (release x : M V G Unit) := (Fits.release (R := Off B) hx).isLocal (toM_release x)
theorem local_readStorage (hx : x ∉ B) : Local B (readStorage x : M V G _) :=
  (Fits.readStorage (R := Off B) (.inr hx)).isLocal (toM_readStorage x)
theorem local_writeStorage (hx : x ∉ B) (s : Storage V) : Local B (writeStorage x s : M V G _) :=
  (Fits.writeStorage (R := Off B) hx s).isLocal (toM_writeStorage x s)
theorem local_emit (e : Event) : Local B (emit e : M V G _) := (Fits.emit (R := Off B) (W := Off B) e).isLocal (toM_emit e)
theorem local_storageDefaultCtor (hx : x ∉ B) : Local B (storageDefaultCtor Γ x) :=
  (Fits.storageDefaultCtor (R := Off B) Γ hx).isLocal (toM_storageDefaultCtor Γ x)
theorem local_storageDtor (hx : x ∉ B) : Local B (storageDtor Γ x) :=
  (Fits.storageDtor (R := Off B) Γ hx).isLocal (toM_storageDtor Γ x)
theorem local_execOp (op : Op V G) (h : ∀ z ∈ op.reads ++ op.writes, z ∉ B) : Local B (execOp Γ op) :=
  (Fits.execOp Γ op (fun z hz => .inr (h z (List.mem_append_left _ hz))) (fun z hz => h z (List.mem_append_right _ hz))).isLocal
    (toM_execOp Γ op)

end


section
open Spec (Re.require Re.attempt Re.never)
variable {V G α β : Type} {Γ : Env V G} {B : List Nat} {x y : Nat}

/-! ### The ghost trace -/

theorem mono_undef : Mono (Spec.undef : SM V G α) := .of_eq fun _ _ => ⟨_, _, _, fun _ => rfl⟩

theorem mono_require (b : Bool) : Mono (Spec.Re.require b : SM V G Unit) := by
  unfold Spec.Re.require
  split
  · exact mono_pure _
  · exact mono_undef

theorem mono_attempt {m : SM V G α} (hm : Mono m) : Mono (Spec.Re.attempt m) := by
  intro vars user
  obtain ⟨r, vars', user', l, h⟩ := hm vars user
  unfold Spec.Re.attempt
  cases r with
  | ok a => exact ⟨.ok (.ok a), vars', user', l, fun tr => by simp only [h]⟩
  | throw e => exact ⟨.ok (.error e), vars', user', l, fun tr => by simp only [h]⟩
  | undef => exact ⟨.undef, vars', user', l, fun tr => by simp only [h]⟩

theorem mono_never {m : SM V G α} (hm : Mono m) (b : Bool) : Mono (Spec.Re.never b m) := by
  intro vars user
  obtain ⟨r, vars', user', l, h⟩ := hm vars user
  unfold Spec.Re.never
  cases r with
  | ok a => exact ⟨.ok a, vars', user', l, fun tr => by simp only [h]⟩
  | throw e =>
    cases b
    · exact ⟨.throw e, vars', user', l, fun tr => by simp [h]⟩
    · exact ⟨.undef, vars', user', l, fun tr => by simp [h]⟩
  | undef => exact ⟨.undef, vars', user', l, fun tr => by simp only [h]⟩

theorem mono_requireEmpty (x : Nat) : Mono (Spec.Re.requireEmpty x : SM V G Unit) :=
  (mono_get x).bind fun o => by
    cases o
    · exact mono_pure _
    · exact mono_undef

theorem mono_requireEngaged (x : Nat) : Mono (Spec.Re.requireEngaged x : SM V G Unit) :=
  (mono_get x).bind fun o => by
    cases o
    · exact mono_undef
    · exact mono_pure _

theorem mono_requireSame (x y : Nat) : Mono (Spec.Re.requireSame x y : SM V G Unit) :=
  (mono_get x).bind fun _ => (mono_get y).bind fun _ => mono_require _

theorem mono_reInit {m : SM V G V} (hm : Mono m) (x : Nat) (nt : Bool) : Mono (Spec.Re.init x nt m) :=
  (mono_requireEmpty x).bind fun _ => (mono_remove x).bind fun _ =>
    (mono_onThrow (mono_never hm nt) (mono_setEmpty x)).bind fun v => mono_put x v

theorem mono_reDestroyVal {d : V → SM V G Unit} (hd : ∀ v, Mono (d v)) (x : Nat) : Mono (Spec.Re.destroyVal x d) :=
  (mono_getVal x).bind fun v => (mono_remove x).bind fun _ => (mono_never (hd v) true).bind fun _ => mono_setEmpty x

/-! ### Simulation -/

/-- `m` behaves like `sm` in the given state. -/
def SimAt (Γ : Env V G) (B : List Nat) (m : M V G α) (sm : SM V G α) (w : World V G) (sw : SWorld V G) : Prop :=
  RW Γ none w sw → (∀ z ∈ B, sw.vars z = none) → (sm sw).1 ≠ .undef → TraceOK Γ (sm sw).2.trace →
    ∃ w', Runs B m w (lift (sm sw).1) w' ∧ RW Γ none w' (sm sw).2

/-- `m` behaves like `sm` in every state in which the optionals in `B` do not exist, and does not depend on the memory of these. -/
structure Sim (Γ : Env V G) (B : List Nat) (m : M V G α) (sm : SM V G α) : Prop where
  mono : Mono sm
  sim : ∀ w sw, SimAt Γ B m sm w sw

theorem RW.absent_of {w : World V G} {vars g} (h : R Γ none w vars g) {z : Nat} (hz : w.mem z = none) : vars z = none :=
  h.absent_iff.mp hz

theorem Runs.absent {m : M V G α} {w w' : World V G} {r : Res α} {vars vars' g g'} (hr : Runs B m w r w') (h : R Γ none w vars g)
    (hB : ∀ z ∈ B, vars z = none) (h' : R Γ none w' vars' g') : ∀ z ∈ B, vars' z = none := fun z hz =>
  RW.absent_of h' ((hr.keep z hz).trans (h.absent (hB z hz)))

namespace Sim

theorem pure (a : α) : Sim Γ B (Pure.pure a : M V G α) (SM.pure a) :=
  ⟨mono_pure a, fun w _ h _ _ _ => ⟨w, Runs.pure a w, h⟩⟩

theorem throwE (e : Exn) : Sim Γ B (Model.throwE e : M V G α) (Spec.throw e) :=
  ⟨mono_throw e, fun w _ h _ _ _ => ⟨w, ⟨fun _ => rfl, fun _ _ => rfl⟩, h⟩⟩

theorem undef (m : M V G α) : Sim Γ B m Spec.undef := ⟨mono_undef, fun _ _ _ _ h _ => absurd rfl h⟩

theorem bind {m : M V G α} {f : α → M V G β} {sm : SM V G α} {sf : α → SM V G β} (hm : Sim Γ B m sm) (hf : ∀ a, Sim Γ B (f a) (sf a)) :
    Sim Γ B (m >>= f) (sm >>= sf) := by
  refine ⟨hm.mono.bind fun a => (hf a).mono, fun w sw h hB hu ht => ?_⟩
  rw [sm_bind] at hu ht ⊢
  have hs := hm.sim w sw h hB
  rcases hr : sm sw with ⟨a | e | _, sw'⟩ <;> simp only [hr] at hs hu ht ⊢
  · obtain ⟨w', hw', hR⟩ := hs (by simp) (.of_mono (hf a).mono ht)
    obtain ⟨w'', hw'', hR'⟩ := (hf a).sim w' sw' hR (hw'.absent h hB hR) hu ht
    exact ⟨w'', hw'.bind_ok hw'', hR'⟩
  · obtain ⟨w', hw', hR⟩ := hs (by simp) ht
    exact ⟨w', hw'.bind_throw, hR⟩
  · exact absurd rfl hu

theorem require {m : M V G β} {b : Bool} {sf : Unit → SM V G β} (hf : b = true → Sim Γ B m (sf ())) :
    Sim Γ B m (Spec.Re.require b >>= sf) := by
  cases b
  · have : (Spec.Re.require false >>= sf : SM V G β) = Spec.undef := rfl
    rw [this]; exact undef m
  · have : (Spec.Re.require true >>= sf : SM V G β) = sf () := rfl
    rw [this]; exact hf rfl

theorem attempt {m : M V G α} {sm : SM V G α} (hm : Sim Γ B m sm) : Sim Γ B (Model.attempt m) (Spec.Re.attempt sm) := by
  refine ⟨mono_attempt hm.mono, fun w sw h hB hu ht => ?_⟩
  have hs := hm.sim w sw h hB
  unfold Spec.Re.attempt at hu ht ⊢
  rcases hr : sm sw with ⟨a | e | _, sw'⟩ <;> simp only [hr] at hs hu ht ⊢
  · obtain ⟨w', hw', hR⟩ := hs (by simp) ht
    exact ⟨w', ⟨fun junk => by unfold Model.attempt; rw [hw'.run junk]; rfl, hw'.keep⟩, hR⟩
  · obtain ⟨w', hw', hR⟩ := hs (by simp) ht
    exact ⟨w', ⟨fun junk => by unfold Model.attempt; rw [hw'.run junk]; rfl, hw'.keep⟩, hR⟩
  · exact absurd rfl hu

/-- A function that is declared noexcept, if it never throws. -/
theorem noexceptIf {m : M V G α} {sm : SM V G α} {b : Bool} (hm : Sim Γ B m sm)
    (hb : b = true → ∀ sw e, (sm sw).1 ≠ .throw e) : Sim Γ B (Model.noexceptIf b m) sm :=
  ⟨hm.mono, fun w sw h hB hu ht => by
    obtain ⟨w', hw', hR⟩ := hm.sim w sw h hB hu ht
    refine ⟨w', hw'.noexceptIf_lift fun e he => ?_, hR⟩
    cases b
    · rfl
    · exact absurd he (hb rfl sw e)⟩

/-- User code that is declared noexcept. -/
theorem never {m : M V G α} {sm : SM V G α} (hm : Sim Γ B m sm) (b : Bool) : Sim Γ B m (Spec.Re.never b sm) := by
  refine ⟨mono_never hm.mono b, fun w sw h hB hu ht => ?_⟩
  have hs := hm.sim w sw h hB
  unfold Spec.Re.never at hu ht ⊢
  rcases hr : sm sw with ⟨a | e | _, sw'⟩ <;> simp only [hr] at hs hu ht ⊢
  · exact hs (by simp) ht
  · cases b
    · exact hs (by simp) ht
    · exact absurd rfl hu
  · exact absurd rfl hu

/-- Without user code that uses optionals. -/
theorem of_sims {m : M V G α} {sm : SM V G α} (hm : Sims Γ m sm) (hmono : Mono sm) (hl : Local B m) : Sim Γ B m sm :=
  ⟨hmono, fun w sw h _ hu ht => by
    obtain ⟨w', hw', hR⟩ := hm w sw h hu ht
    exact ⟨w', hl.runs hw', hR⟩⟩

/-- A check of the library that the specification does not have, and that succeeds after `m`. -/
theorem post {m : M V G α} {sm : SM V G α} {c : α → M V G β} {b : α → β} {Q : α → SWorld V G → Prop} (hm : Sim Γ B m sm)
    (hQ : ∀ sw a sw', sm sw = (.ok a, sw') → Q a sw') (hl : ∀ a, Local B (c a))
    (hc : ∀ w sw a, RW Γ none w sw → Q a sw → c a w = (.ok (b a), w)) : Sim Γ B (m >>= c) (sm >>= fun a => SM.pure (b a)) := by
  refine ⟨hm.mono.bind fun a => mono_pure _, fun w sw h hB hu ht => ?_⟩
  rw [sm_bind] at hu ht ⊢
  have hs := hm.sim w sw h hB
  rcases hr : sm sw with ⟨a | e | _, sw'⟩ <;> simp only [hr] at hs hu ht ⊢
  · obtain ⟨w', hw', hR⟩ := hs (by simp) ht
    exact ⟨w', hw'.bind_ok ((hl a).runs (hc w' sw' a hR (hQ sw a sw' hr))), hR⟩
  · obtain ⟨w', hw', hR⟩ := hs (by simp) ht
    exact ⟨w', hw'.bind_throw, hR⟩
  · exact absurd rfl hu

theorem ite {m m' : M V G α} {sm sm' : SM V G α} (b : Bool) (h : b = true → Sim Γ B m sm) (h' : b = false → Sim Γ B m' sm') :
    Sim Γ B (if b then m else m') (if b then sm else sm') := by
  cases b
  · exact h' rfl
  · exact h rfl

/-- The library asks `has_value()`, the specification distinguishes the states. -/
theorem cases {m m' : M V G α} {sm : Option V → SM V G α} (hΓ : EnvWF Γ) (hx : x ∉ B) (hmono : ∀ o, Mono (sm o))
    (h' : ∀ v w sw, sw.vars x = some (some v) → SimAt Γ B m (sm (some v)) w sw)
    (h : ∀ w sw, sw.vars x = some none → SimAt Γ B m' (sm none) w sw) :
    Sim Γ B (hasValue Γ x >>= fun b => if b = true then m else m') (Spec.get x >>= sm) := by
  refine ⟨(mono_get x).bind hmono, fun w sw hR hB hu ht => ?_⟩
  rw [sm_bind] at hu ht ⊢
  unfold Spec.get at hu ht ⊢
  rcases hv : sw.vars x with _ | (_ | v) <;> simp only [hv] at hu ht ⊢
  · exact absurd rfl hu
  · obtain ⟨w', hw', hR'⟩ := h w sw hv hR hB hu ht
    exact ⟨w', ((local_hasValue Γ hx).runs (hR.hasValueEmp hΓ hv)).bind_ok (.ite_false rfl hw'), hR'⟩
  · obtain ⟨w', hw', hR'⟩ := h' v w sw hv hR hB hu ht
    exact ⟨w', ((local_hasValue Γ hx).runs (hR.hasValueFull hΓ hv)).bind_ok (.ite_true rfl hw'), hR'⟩

/-- `operator*` asserts that there is a value. -/
theorem _root_.Verif.Model.SimAt.engaged {m : M V G α} {sm : SM V G α} {w : World V G} {sw : SWorld V G} {v : V} (hΓ : EnvWF Γ)
    (hxB : x ∉ B) (hx : sw.vars x = some (some v)) (h : SimAt Γ B m sm w sw) :
    SimAt Γ B (assertHas Γ x true >>= fun _ => m) sm w sw := fun hR hB hu ht => by
  obtain ⟨w', hw', hR'⟩ := h hR hB hu ht
  exact ⟨w', ((local_assertHas Γ hxB true).runs (hR.assertHasFull hΓ hx)).bind_ok hw', hR'⟩

theorem assertEngaged (hΓ : EnvWF Γ) (hxB : x ∉ B) : Sim Γ B (assertHas Γ x true) (Spec.Re.requireEngaged x) := by
  refine ⟨mono_requireEngaged x, fun w sw h hB hu ht => ?_⟩
  simp only [Spec.Re.requireEngaged, sm_bind, Spec.get] at hu ht ⊢
  rcases hx : sw.vars x with _ | (_ | v) <;> simp only [hx] at hu ht ⊢
  · exact absurd rfl hu
  · exact absurd rfl hu
  · exact ⟨w, (local_assertHas Γ hxB true).runs (h.assertHasFull hΓ hx), h⟩

theorem assertSame (hΓ : EnvWF Γ) (hxB : x ∉ B) (hyB : y ∉ B) : Sim Γ B (Model.assertSame Γ x y) (Spec.Re.requireSame x y) := by
  refine ⟨mono_requireSame x y, fun w sw h hB hu ht => ?_⟩
  simp only [Spec.Re.requireSame, sm_bind, Spec.get] at hu ht ⊢
  rcases hx : sw.vars x with _ | o <;> simp only [hx] at hu ht ⊢
  · exact absurd rfl hu
  · rcases hy : sw.vars y with _ | o' <;> simp only [hy] at hu ht ⊢
    · exact absurd rfl hu
    · unfold Spec.Re.require at hu ht ⊢
      split at hu
      · rename_i hc
        rw [if_pos hc]
        exact ⟨w, (local_assertSame Γ hxB hyB).runs (assertSame_run hΓ h hx hy (by simpa using hc)), h⟩
      · exact absurd rfl hu

/-- User code that is run while `x` is busy. -/
theorem hole {m : M V G α} {sm : SM V G α} (hm : Sim Γ (x :: B) m sm) (hx : x ∉ B) {P : Storage V → Prop} {w : World V G} {vars g}
    (h : R Γ (some (x, P)) w vars g) (hB : ∀ z ∈ B, vars z = none) {sw : SWorld V G} (hsw : sw.vars = upd vars x none)
    (hg : sw.user = g) (hu : (sm sw).1 ≠ .undef) (ht : TraceOK Γ (sm sw).2.trace) :
    ∃ w', Runs B m w (lift (sm sw).1) w' ∧ R Γ (some (x, P)) w' (upd (sm sw).2.vars x (some none)) (sm sw).2.user ∧
      w'.mem x = w.mem x ∧ (sm sw).2.vars x = none ∧ ∀ z ∈ B, (sm sw).2.vars z = none := by
  have hmask : RW Γ none { w with mem := upd w.mem x none } sw := by
    refine ⟨fun z => ?_, h.user.trans hg.symm, h.noLeak⟩
    rw [hsw]
    by_cases hz : z = x
    · subst hz; simp [upd, VarRelH, VarRel]
    · rw [upd_other _ _ hz]
      show VarRelH Γ none z (upd w.mem x none z) _
      rw [upd_other _ _ hz]
      exact varRelH_ofHole z hz _ _ (h.rel z)
  have hB' : ∀ z ∈ x :: B, sw.vars z = none := by
    intro z hz
    rw [hsw]
    by_cases hzx : z = x
    · subst hzx; exact upd_same _ _ _
    · rw [upd_other _ _ hzx]
      exact hB z ((List.mem_cons.mp hz).resolve_left hzx)
  obtain ⟨w', hw', hR⟩ := hm.sim _ sw hmask hB' hu ht
  have habs := hw'.absent hmask hB' hR
  refine ⟨{ w' with mem := upd w'.mem x (w.mem x) }, ⟨fun junk => ?_, fun z hz => ?_⟩, ⟨fun z => ?_, hR.user, hR.noLeak⟩,
    upd_same _ _ _, habs x (List.mem_cons_self ..), fun z hz => habs z (List.mem_cons_of_mem _ hz)⟩
  · have hr := hw'.run (upd junk x (w.mem x))
    have e1 : mask (x :: B) (upd junk x (w.mem x)) { w with mem := upd w.mem x none } = mask B junk w := by
      unfold mask
      congr 1
      funext z
      by_cases hz : z = x
      · subst hz; simp [hx, upd]
      · simp [hz, upd]
    have e2 : mask (x :: B) (upd junk x (w.mem x)) w' = mask B junk { w' with mem := upd w'.mem x (w.mem x) } := by
      unfold mask
      congr 1
      funext z
      by_cases hz : z = x
      · subst hz; simp [hx, upd]
      · simp [hz, upd]
    rw [e1, e2] at hr
    exact hr
  · have hzx : z ≠ x := fun h => hx (h ▸ hz)
    show upd w'.mem x (w.mem x) z = _
    rw [upd_other _ _ hzx]
    refine (hw'.keep z (List.mem_cons_of_mem _ hz)).trans ?_
    exact upd_other _ _ hzx
  · by_cases hz : z = x
    · subst hz
      show VarRelH Γ _ z (upd w'.mem z (w.mem z) z) _
      rw [upd_same, upd_same]
      obtain ⟨_, s, hs, hP⟩ := h.hole
      simp only [VarRelH, if_true]
      exact ⟨trivial, s, hs, hP⟩
    · show VarRelH Γ _ z (upd w'.mem x (w.mem x) z) _
      rw [upd_other _ _ hz, upd_other _ _ hz]
      exact varRelH_toHole z hz _ _ (hR.rel z)

/-! ### Construction and destruction of a payload -/

end Sim

theorem reInit_run {smk : SM V G V} {nt : Bool} {sw : SWorld V G} (hx : sw.vars x = some none) :
    Spec.Re.init x nt smk sw = match smk { sw with vars := upd sw.vars x none } with
      | (.ok v, sw') => (.ok (), { sw' with vars := upd sw'.vars x (some (some v)), trace := sw'.trace ++ [(x, v)] })
      | (.throw e, sw') => if nt then (.undef, sw') else (.throw e, { sw' with vars := upd sw'.vars x (some none) })
      | (.undef, sw') => (.undef, sw') := by
  simp only [Spec.Re.init, Spec.Re.requireEmpty, sm_bind, Spec.get, hx, sm_pure, Spec.remove, Spec.onThrow, Spec.Re.never]
  have e : (fun z => if z = x then none else sw.vars z) = upd sw.vars x none := rfl
  rw [e]
  rcases smk { sw with vars := upd sw.vars x none } with ⟨v | e | _, sw'⟩
  · rfl
  · cases nt <;> rfl
  · rfl

theorem constructWith_runs_ok (hΓ : EnvWF Γ) (hxB : x ∉ B) {nt : Bool} {mk : M V G V} {v : V} {w : World V G}
    {vars vars' : Nat → Option (Option V)} {g g' : G} (h : R Γ none w vars g) (hx : vars x = some none) (hst : (Γ x).cfg.Storable v)
    (hmk : ∀ w₁, R Γ (some (x, Raw (Γ x).cfg)) w₁ vars g →
      ∃ w₂, Runs B mk w₁ (.ok v) w₂ ∧ R Γ (some (x, Raw (Γ x).cfg)) w₂ vars' g') :
    ∃ w', Runs B (constructWith Γ x nt mk) w (.ok ()) w' ∧ R Γ none w' (upd vars' x (some (some v))) g' := by
  obtain ⟨w₁, h1, hR1⟩ := h.invalidate hΓ hx
  obtain ⟨w₂, h2, hR2⟩ := hmk w₁ hR1
  obtain ⟨w₃, h3, hR3⟩ := hR2.newPayload hst
  have hA := (local_assertHas Γ hxB true).runs (hR3.assertHasFull hΓ (x := x) (upd_same _ _ _))
  have hN := (local_newPayload hxB (Γ x).cfg v).runs h3
  refine ⟨w₃, ?_, hR3⟩
  unfold constructWith
  refine .noexceptIf_ok (((local_assertHas Γ hxB false).runs (h.assertHasEmp hΓ hx)).bind_ok
    (((local_invalidate hxB _ _).runs h1).bind_ok ?_))
  cases nt
  · exact .ite_false rfl ((h2.bind_ok hN).onThrow_ok.bind_ok hA)
  · exact .ite_true rfl (h2.bind_ok (hN.bind_ok hA))

theorem constructWith_runs_throw (hΓ : EnvWF Γ) (hxB : x ∉ B) {mk : M V G V} {e : Exn} {w : World V G}
    {vars vars' : Nat → Option (Option V)} {g g' : G} (h : R Γ none w vars g) (hx : vars x = some none)
    (hmk : ∀ w₁, R Γ (some (x, Raw (Γ x).cfg)) w₁ vars g →
      ∃ w₂, Runs B mk w₁ (.throw e) w₂ ∧ R Γ (some (x, Raw (Γ x).cfg)) w₂ vars' g') :
    ∃ w', Runs B (constructWith Γ x false mk) w (.throw e) w' ∧ R Γ none w' vars' g' := by
  obtain ⟨w₁, h1, hR1⟩ := h.invalidate hΓ hx
  obtain ⟨w₂, h2, hR2⟩ := hmk w₁ hR1
  obtain ⟨w₃, h3, hR3⟩ := hR2.initEmptyFlag hΓ (fun s hs => hs.1)
  have hI := (local_initEmptyFlag hxB (Γ x).cfg).runs h3
  refine ⟨w₃, ?_, hR3⟩
  unfold constructWith
  exact .noexceptIf_throw (((local_assertHas Γ hxB false).runs (h.assertHasEmp hΓ hx)).bind_ok
    (((local_invalidate hxB _ _).runs h1).bind_ok (.ite_false rfl (Runs.onThrow_throw h2.bind_throw hI).bind_throw)))

theorem traceOK_left {l l' : List (Nat × V)} (h : TraceOK Γ (l ++ l')) : TraceOK Γ l := fun p hp => h p (List.mem_append_left _ hp)

theorem Sim.init (hΓ : EnvWF Γ) (hxB : x ∉ B) {mk : M V G V} {smk : SM V G V} (hm : Sim Γ (x :: B) mk smk) (nt : Bool) :
    Sim Γ B (constructWith Γ x nt mk) (Spec.Re.init x nt smk) := by
  refine ⟨mono_reInit hm.mono x nt, fun w sw h hB hu ht => ?_⟩
  rcases hx : sw.vars x with _ | (_ | v)
  · simp [Spec.Re.init, Spec.Re.requireEmpty, sm_bind, Spec.get, hx] at hu
  · rw [reInit_run hx] at hu ht ⊢
    have hh := fun w₁ (hw₁ : R Γ (some (x, Raw (Γ x).cfg)) w₁ sw.vars sw.user) =>
      hm.hole hxB hw₁ hB (sw := { sw with vars := upd sw.vars x none }) rfl rfl
    rcases hr : smk { sw with vars := upd sw.vars x none } with ⟨v | e | _, sw'⟩ <;> simp only [hr] at hu ht hh ⊢
    · obtain ⟨w', hw', hR⟩ := constructWith_runs_ok (nt := nt) hΓ hxB h hx (ht (x, v) (by simp)) fun w₁ hw₁ => by
        obtain ⟨w₂, h2, hR2, _⟩ := hh w₁ hw₁ (by simp) (traceOK_left ht)
        exact ⟨w₂, h2, hR2⟩
      exact ⟨w', hw', hR.congr fun z => by simp only [upd]; split <;> rfl⟩
    · cases nt
      · obtain ⟨w', hw', hR⟩ := constructWith_runs_throw hΓ hxB h hx fun w₁ hw₁ => by
          obtain ⟨w₂, h2, hR2, _⟩ := hh w₁ hw₁ (by simp) ht
          exact ⟨w₂, h2, hR2⟩
        exact ⟨w', hw', hR⟩
      · exact absurd rfl hu
    · exact absurd rfl hu
  · simp [Spec.Re.init, Spec.Re.requireEmpty, sm_bind, Spec.get, hx, Spec.undef] at hu

theorem reDestroyVal_run {d : V → SM V G Unit} {sw : SWorld V G} {v : V} (hx : sw.vars x = some (some v)) :
    Spec.Re.destroyVal x d sw = match d v { sw with vars := upd sw.vars x none } with
      | (.ok _, sw') => (.ok (), { sw' with vars := upd sw'.vars x (some none) })
      | (_, sw') => (.undef, sw') := by
  simp only [Spec.Re.destroyVal, sm_bind, Spec.getVal, hx, Spec.remove, Spec.Re.never]
  have e : (fun z => if z = x then none else sw.vars z) = upd sw.vars x none := rfl
  rw [e]
  rcases d v { sw with vars := upd sw.vars x none } with ⟨a | e | _, sw'⟩ <;> rfl

/-- `DestroyPayload()`. -/
theorem destroyPayload_runs (hxB : x ∉ B) {d : V → M V G Unit} {sd : V → SM V G Unit} (hd : ∀ v, Sim Γ (x :: B) (d v) (sd v))
    {w : World V G} {sw : SWorld V G} {v : V} (h : RW Γ none w sw) (hB : ∀ z ∈ B, sw.vars z = none) (hx : sw.vars x = some (some v))
    (hu : (Spec.Re.destroyVal x sd sw).1 ≠ .undef) (ht : TraceOK Γ (Spec.Re.destroyVal x sd sw).2.trace) :
    ∃ w', Runs B (Re.destroyPayload Γ x d) w (.ok ()) w' ∧ (Spec.Re.destroyVal x sd sw).1 = .ok () ∧
      R Γ (some (x, Raw (Γ x).cfg)) w' (Spec.Re.destroyVal x sd sw).2.vars (Spec.Re.destroyVal x sd sw).2.user ∧
      (Spec.Re.destroyVal x sd sw).2.vars x = some none := by
  rw [reDestroyVal_run hx] at hu ht ⊢
  have hG := (local_getPayload hxB).runs (h.getPayload hx)
  have hhole : R Γ (some (x, fun s => Full (Γ x).cfg s v)) w (upd sw.vars x (some none)) sw.user := by
    refine ⟨fun z => ?_, h.user, h.noLeak⟩
    by_cases hz : z = x
    · subst hz
      rw [upd_same]
      obtain ⟨s, hs, hf⟩ := h.full hx
      simp only [VarRelH, if_true]
      exact ⟨trivial, s, hs, hf⟩
    · rw [upd_other _ _ hz]
      exact varRelH_toHole z hz _ _ (h.rel z)
  have hB' : ∀ z ∈ B, upd sw.vars x (some none) z = none := fun z hz => by
    have hzx : z ≠ x := fun h => hxB (h ▸ hz)
    rw [upd_other _ _ hzx]; exact hB z hz
  have hh := (hd v).hole hxB hhole hB' (sw := { sw with vars := upd sw.vars x none })
    (by funext z; simp only [upd]; split <;> rfl) rfl
  rcases hr : sd v { sw with vars := upd sw.vars x none } with ⟨a | e | _, sw'⟩ <;> simp only [hr] at hu ht hh ⊢
  · obtain ⟨w₁, h1, hR1, hmem, _⟩ := hh (by simp) ht
    obtain ⟨_, s, hs, ⟨id, hp⟩, hf, hb, hsep, _⟩ := hR1.hole
    have hrd := (local_readStorage hxB).runs (readStorage_ok hs)
    refine ⟨{ w₁ with mem := upd w₁.mem x (some { s with payload := none, bytes := fill s.bytes 0 (Γ x).cfg.size fun _ => none }),
                       log := w₁.log ++ [.payloadDtor id] }, ?_, trivial, ?_, upd_same _ _ _⟩
    · simp only [Re.destroyPayload, Re.endPayload_eq]
      refine .noexceptIf_ok (hG.bind_ok (h1.bind_ok (hrd.bind_ok ?_)))
      rw [hp]
      exact ((local_writeStorage hxB _).runs rfl).bind_ok ((local_emit _).runs rfl)
    · refine hR1.write rfl (fun _ _ => rfl) ?_ varRelH_holeHole hR1.user (by simpa using hR1.noLeak)
      simp only [VarRelH, if_true]
      refine ⟨upd_same _ _ _, _, rfl, ⟨rfl, hf⟩, fun hm => ?_⟩
      dsimp only
      rw [fill_out (Or.inr (by omega))]
      exact hsep hm
  · exact absurd rfl hu
  · exact absurd rfl hu

theorem Sim.reset (hΓ : EnvWF Γ) (hxB : x ∉ B) {d : V → M V G Unit} {sd : V → SM V G Unit} (hd : ∀ v, Sim Γ (x :: B) (d v) (sd v)) :
    Sim Γ B (Re.reset Γ x d) (Spec.Re.reset x sd) := by
  refine ⟨(mono_get x).bind fun o => ?_, fun w sw h hB hu ht => ?_⟩
  · cases o
    · exact mono_pure _
    · exact mono_reDestroyVal (fun v => (hd v).mono) x
  · simp only [Spec.Re.reset, sm_bind, Spec.get] at hu ht ⊢
    rcases hx : sw.vars x with _ | (_ | v) <;> simp only [hx] at hu ht ⊢
    · exact absurd rfl hu
    · exact ⟨w, .noexceptIf_ok (((local_hasValue Γ hxB).runs (h.hasValueEmp hΓ hx)).bind_ok (.ite_false rfl (.pure _ _))), h⟩
    · obtain ⟨w₁, h1, hok, hR1, hx1⟩ := destroyPayload_runs hxB hd h hB hx hu ht
      obtain ⟨w₂, h2, hR2⟩ := hR1.initEmptyFlag hΓ (fun s hs => hs.1)
      refine ⟨w₂, ?_, hR2⟩
      rw [hok]
      exact .noexceptIf_ok (((local_hasValue Γ hxB).runs (h.hasValueFull hΓ hx)).bind_ok (.ite_true rfl (h1.bind_ok
        (((local_initEmptyFlag hxB _).runs h2).bind_ok ((local_assertHas Γ hxB false).runs (hR2.assertHasEmp hΓ hx1))))))

theorem Sim.dtor (hΓ : EnvWF Γ) (hxB : x ∉ B) {d : V → M V G Unit} {sd : V → SM V G Unit} (hd : ∀ v, Sim Γ (x :: B) (d v) (sd v)) :
    Sim Γ B (Re.storageDtor Γ x d) (Spec.Re.destroy x sd) := by
  refine ⟨(mono_get x).bind fun o => ?_, fun w sw h hB hu ht => ?_⟩
  · cases o
    · exact mono_remove x
    · exact (mono_reDestroyVal (fun v => (hd v).mono) x).bind fun _ => mono_remove x
  · simp only [Spec.Re.destroy, sm_bind, Spec.get] at hu ht ⊢
    rcases hx : sw.vars x with _ | (_ | v) <;> simp only [hx] at hu ht ⊢
    · exact absurd rfl hu
    · obtain ⟨s, hs, he⟩ := h.emp hx
      obtain ⟨w₂, h2, hR2⟩ := h.release (x := x) (Or.inl rfl) hs he.1
      exact ⟨w₂, .noexceptIf_ok (((local_hasValue Γ hxB).runs (h.hasValueEmp hΓ hx)).bind_ok
        (.ite_false rfl ((local_release hxB).runs h2))), hR2⟩
    · have hdr := destroyPayload_runs hxB hd h hB hx
      rw [sm_bind] at hu ht ⊢
      rcases hr : Spec.Re.destroyVal x sd sw with ⟨a | e | _, sw'⟩ <;> simp only [hr] at hu ht hdr ⊢
      · obtain ⟨w₁, h1, _, hR1, hx1⟩ := hdr (by simp) ht
        obtain ⟨_, s, hs, hraw⟩ := hR1.hole
        obtain ⟨w₂, h2, hR2⟩ := hR1.release (x := x) (Or.inr ⟨_, rfl⟩) hs hraw.1.1
        exact ⟨w₂, .noexceptIf_ok (((local_hasValue Γ hxB).runs (h.hasValueFull hΓ hx)).bind_ok
          (.ite_true rfl (h1.bind_ok ((local_release hxB).runs h2)))), hR2⟩
      · obtain ⟨_, _, hc, _⟩ := hdr (by simp) ht
        simp at hc
      · exact absurd rfl hu

theorem Sim.ctor (hΓ : EnvWF Γ) (hxB : x ∉ B) {mk : M V G V} {smk : SM V G V} (hm : Sim Γ (x :: B) mk smk) (nt : Bool) :
    Sim Γ B (Re.storageCtor Γ x nt mk) (Spec.Re.construct x nt smk) := by
  refine ⟨(mono_fresh x).bind fun _ => (mono_never hm.mono nt).bind fun v => mono_put x v, fun w sw h hB hu ht => ?_⟩
  simp only [Spec.Re.construct, sm_bind, Spec.fresh] at hu ht ⊢
  rcases hx : sw.vars x with _ | o <;> simp only [hx] at hu ht ⊢
  · obtain ⟨w₁, h1, hR1⟩ := h.allocate hx
    obtain ⟨w₂, h2, hR2⟩ := hR1.initEmptyFlag hΓ (fun s hs => hs)
    have hx2 : upd sw.vars x (some none) x = some none := upd_same _ _ _
    have hB2 : ∀ z ∈ B, upd sw.vars x (some none) z = none := fun z hz => by
      have hzx : z ≠ x := fun h => hxB (h ▸ hz)
      rw [upd_other _ _ hzx]; exact hB z hz
    have hA := (local_allocate hxB).runs h1
    have hI := (local_initEmptyFlag hxB _).runs h2
    have hh := fun w₃ (hw₃ : R Γ (some (x, Raw (Γ x).cfg)) w₃ (upd sw.vars x (some none)) sw.user) =>
      hm.hole hxB hw₃ hB2 (sw := sw) (by funext z; by_cases hz : z = x <;> simp [upd, hz, hx]) rfl
    unfold Spec.Re.never at hu ht ⊢
    rcases hr : smk sw with ⟨v | e | _, sw'⟩ <;> simp only [hr] at hu ht hh ⊢
    · obtain ⟨w', hw', hR⟩ := constructWith_runs_ok (nt := nt) hΓ hxB hR2 hx2 (ht (x, v) (by simp [Spec.put])) fun w₁ hw₁ => by
        obtain ⟨w₂, h2, hR2, _⟩ := hh w₁ hw₁ (by simp) (traceOK_left ht)
        exact ⟨w₂, h2, hR2⟩
      exact ⟨w', hA.bind_ok (hI.bind_ok hw').onThrow_ok, hR.congr fun z => by simp only [Spec.put, upd]; split <;> rfl⟩
    · cases nt
      · simp only [Bool.false_eq_true, if_false] at hu ht ⊢
        obtain ⟨w₃, h3, hR3⟩ := constructWith_runs_throw hΓ hxB hR2 hx2 fun w₁ hw₁ => by
          obtain ⟨w₂, h2, hR2, _⟩ := hh w₁ hw₁ (by simp) ht
          exact ⟨w₂, h2, hR2⟩
        obtain ⟨s, hs3, he⟩ := hR3.emp (y := x) (upd_same _ _ _)
        obtain ⟨w₄, h4, hR4⟩ := hR3.release (x := x) (Or.inl rfl) hs3 he.1
        obtain ⟨w₅, _, hR5⟩ := hR2.invalidate hΓ hx2
        obtain ⟨_, _, _, _, hn, _⟩ := hh w₅ hR5 (by simp) ht
        refine ⟨w₄, hA.bind_ok (Runs.onThrow_throw (hI.bind_ok h3) ((local_release hxB).runs h4)), hR4.congr fun z => ?_⟩
        by_cases hz : z = x
        · subst hz; rw [upd_same]; exact hn
        · rw [upd_other _ _ hz, upd_other _ _ hz]
      · exact absurd rfl hu
    · exact absurd rfl hu
  · exact absurd rfl hu

/-! ### Functions that never throw -/

/-- `sm` never throws. -/
def Nothrow (sm : SM V G α) : Prop := ∀ sw e, (sm sw).1 ≠ .throw e

namespace Nothrow
theorem bind {m : SM V G α} {f : α → SM V G β} (hm : Nothrow m) (hf : ∀ a, Nothrow (f a)) : Nothrow (m >>= f) := fun sw e => by
  rw [sm_bind]
  have h := hm sw
  rcases hr : m sw with ⟨a | e' | _, sw'⟩ <;> simp only [hr] at h ⊢
  · exact hf a sw' e
  · exact absurd rfl (h e')
  · simp
theorem pure (a : α) : Nothrow (SM.pure a : SM V G α) := fun _ _ => by simp [sm_pure]
theorem undef : Nothrow (Spec.undef : SM V G α) := fun _ _ => by simp [Spec.undef]
theorem get (x : Nat) : Nothrow (Spec.get x : SM V G _) := fun sw e => by unfold Spec.get; split <;> simp
theorem getVal (x : Nat) : Nothrow (Spec.getVal x : SM V G _) := fun sw e => by unfold Spec.getVal; split <;> simp
theorem fresh (x : Nat) : Nothrow (Spec.fresh x : SM V G _) := fun sw e => by unfold Spec.fresh; split <;> simp
theorem setEmpty (x : Nat) : Nothrow (Spec.setEmpty x : SM V G _) := fun sw e => by simp [Spec.setEmpty]
theorem remove (x : Nat) : Nothrow (Spec.remove x : SM V G _) := fun sw e => by simp [Spec.remove]
theorem put (x : Nat) (v : V) : Nothrow (Spec.put x v : SM V G _) := fun sw e => by simp [Spec.put]
theorem require (b : Bool) : Nothrow (Spec.Re.require b : SM V G _) := by
  unfold Spec.Re.require; split
  · exact pure _
  · exact undef
theorem requireEmpty (x : Nat) : Nothrow (Spec.Re.requireEmpty x : SM V G _) :=
  (get x).bind fun o => by
    cases o
    · exact pure _
    · exact undef
theorem requireEngaged (x : Nat) : Nothrow (Spec.Re.requireEngaged x : SM V G _) :=
  (get x).bind fun o => by
    cases o
    · exact undef
    · exact pure _
theorem requireSame (x y : Nat) : Nothrow (Spec.Re.requireSame x y : SM V G _) :=
  (get x).bind fun _ => (get y).bind fun _ => require _
theorem ite {m m' : SM V G α} {b : Bool} (h : Nothrow m) (h' : Nothrow m') : Nothrow (if b = true then m else m') := by
  split
  · exact h
  · exact h'
theorem never (m : SM V G α) : Nothrow (Spec.Re.never true m) := fun sw e => by
  unfold Spec.Re.never
  rcases m sw with ⟨a | e' | _, sw'⟩ <;> simp
theorem onThrow {m : SM V G α} (hm : Nothrow m) (h : SM V G Unit) : Nothrow (Spec.onThrow m h) := fun sw e => by
  unfold Spec.onThrow
  have := hm sw
  rcases hr : m sw with ⟨a | e' | _, sw'⟩ <;> simp only [hr] at this ⊢
  · simp
  · exact absurd rfl (this e')
  · simp
theorem init (x : Nat) (m : SM V G V) : Nothrow (Spec.Re.init x true m) :=
  (requireEmpty x).bind fun _ => (remove x).bind fun _ => ((never m).onThrow _).bind fun v => put x v
theorem destroyVal (x : Nat) (d : V → SM V G Unit) : Nothrow (Spec.Re.destroyVal x d) :=
  (getVal x).bind fun v => (remove x).bind fun _ => (never (d v)).bind fun _ => setEmpty x
theorem reset (x : Nat) (d : V → SM V G Unit) : Nothrow (Spec.Re.reset x d) := (get x).bind fun o => by
  cases o
  · exact pure _
  · exact destroyVal x d
theorem assign (lim : Spec.Re.Limits) (x : Nat) {a : SM V G Unit} (ha : Nothrow a) (c : SM V G V) :
    Nothrow (Spec.Re.assign lim x true a c) := (get x).bind fun o => by
  cases o
  · exact init x c
  · exact ha.bind fun _ => ite (requireEngaged x) (pure _)
theorem assignFrom (lim : Spec.Re.Limits) (x y : Nat) (a : SM V G Unit) (c : SM V G V) (d : V → SM V G Unit) :
    Nothrow (Spec.Re.assignFrom lim x y true true a c d) := (get y).bind fun o => by
  cases o
  · exact (reset x d).bind fun _ => ite (requireSame x y) (pure _)
  · exact (assign lim x (never a) c).bind fun _ => ite (requireSame x y) (pure _)
theorem swap (x y : Nat) (s : SM V G Unit) (c : Nat → Nat → SM V G V) (d : Nat → V → SM V G Unit) :
    Nothrow (Spec.Re.swap x y true true s c d) := (get x).bind fun o => (get y).bind fun o' => by
  cases o <;> cases o'
  · exact pure _
  · exact (init x _).bind fun _ => destroyVal y _
  · exact (init y _).bind fun _ => destroyVal x _
  · exact never s
end Nothrow

/-! ### The other functions -/

variable {lim : Spec.Re.Limits}

theorem sm_bind_unit (m : SM V G Unit) : (m >>= fun _ => SM.pure ()) = m := by
  funext sw
  rw [sm_bind]
  rcases m sw with ⟨a | e | _, sw'⟩ <;> rfl

theorem Sim.of_eq {m : M V G α} {sm sm' : SM V G α} (h : Sim Γ B m sm) (he : sm = sm') : Sim Γ B m sm' := he ▸ h

theorem reInit_engaged {smk : SM V G V} {nt : Bool} {sw sw' : SWorld V G} {a : Unit} (h : Spec.Re.init x nt smk sw = (.ok a, sw')) :
    ∃ v, sw'.vars x = some (some v) := by
  rcases hx : sw.vars x with _ | (_ | v)
  · simp [Spec.Re.init, Spec.Re.requireEmpty, sm_bind, Spec.get, hx] at h
  · rw [reInit_run hx] at h
    rcases hr : smk { sw with vars := upd sw.vars x none } with ⟨v | e | _, sw''⟩ <;> simp only [hr] at h
    · simp only [Prod.mk.injEq] at h
      rw [← h.2]
      exact ⟨v, upd_same _ _ _⟩
    · cases nt <;> simp at h
    · simp at h
  · simp [Spec.Re.init, Spec.Re.requireEmpty, sm_bind, Spec.get, hx, Spec.undef] at h

theorem Sim.initAssert (hΓ : EnvWF Γ) (hxB : x ∉ B) {mk : M V G V} {smk : SM V G V} (hm : Sim Γ (x :: B) mk smk) (nt : Bool) :
    Sim Γ B (constructWith Γ x nt mk >>= fun _ => assertHas Γ x true) (Spec.Re.init x nt smk) :=
  (Sim.post (b := fun _ => ()) (Q := fun _ sw => ∃ v, sw.vars x = some (some v)) (Sim.init hΓ hxB hm nt)
    (fun _ _ _ h => reInit_engaged h) (fun _ => local_assertHas Γ hxB true)
    (fun _ _ _ h ⟨_, hv⟩ => h.assertHasFull hΓ hv)).of_eq (sm_bind_unit _)

theorem Sim.checkEngaged (hΓ : EnvWF Γ) (hxB : x ∉ B) (hl : lim.engagement x = !(Γ x).cfg.ndebug) :
    Sim Γ B (assertHas Γ x true) (if lim.engagement x = true then Spec.Re.requireEngaged x else SM.pure ()) := by
  rw [hl]
  cases hn : (Γ x).cfg.ndebug
  · exact Sim.assertEngaged hΓ hxB
  · have : assertHas Γ x true = Pure.pure () := by simp only [assertHas, assertM, hn, if_true]; rfl
    rw [this]
    exact Sim.pure ()

theorem Sim.checkSame (hΓ : EnvWF Γ) (hxB : x ∉ B) (hyB : y ∉ B) (hl : lim.engagement x = !(Γ x).cfg.ndebug) :
    Sim Γ B (Model.assertSame Γ x y) (if lim.engagement x = true then Spec.Re.requireSame x y else SM.pure ()) := by
  rw [hl]
  cases hn : (Γ x).cfg.ndebug
  · exact Sim.assertSame hΓ hxB hyB
  · have : Model.assertSame Γ x y = Pure.pure () := by simp only [Model.assertSame, assertM, hn, if_true]; rfl
    rw [this]
    exact Sim.pure ()

theorem Sim.assign (hΓ : EnvWF Γ) (hxB : x ∉ B) {asg : M V G Unit} {sasg : SM V G Unit} (ha : Sim Γ B asg sasg) {mk : M V G V}
    {smk : SM V G V} (hm : Sim Γ (x :: B) mk smk) (nt : Bool) (hl : lim.engagement x = !(Γ x).cfg.ndebug) :
    Sim Γ B (Re.assignValue Γ x nt asg mk) (Spec.Re.assign lim x nt sasg smk) := by
  have h1 : Sim Γ B (asg >>= fun _ => assertHas Γ x true)
      (sasg >>= fun _ => if lim.engagement x = true then Spec.Re.requireEngaged x else SM.pure ()) :=
    ha.bind fun _ => Sim.checkEngaged hΓ hxB hl
  refine Sim.cases hΓ hxB (fun o => ?_) (fun v w sw _ => h1.sim w sw) (fun w sw _ => (Sim.initAssert hΓ hxB hm nt).sim w sw)
  cases o
  · exact mono_reInit hm.mono x nt
  · exact h1.mono

theorem Sim.assignFrom (hΓ : EnvWF Γ) (hxB : x ∉ B) (hyB : y ∉ B) {asg : M V G Unit} {sasg : SM V G Unit} (ha : Sim Γ B asg sasg)
    {mk : M V G V} {smk : SM V G V} (hm : Sim Γ (x :: B) mk smk) {d : V → M V G Unit} {sd : V → SM V G Unit}
    (hd : ∀ v, Sim Γ (x :: B) (d v) (sd v)) (rv : Bool) (hl : lim.engagement x = !(Γ x).cfg.ndebug) :
    Sim Γ B (Re.assignFrom Γ rv x y asg mk d) (Spec.Re.assignFrom lim x y (rv && (Γ x).ops.nothrowMoveAssign)
      (if rv then (Γ x).ops.nothrowMoveCtor else (Γ x).ops.nothrowCopyCtor) sasg smk sd) := by
  have key : ∀ nt ntA ntC, (nt = true → ntA = true ∧ ntC = true) →
      Sim Γ B (Re.copyOrMoveAssign Γ nt ntC asg mk d x y) (Spec.Re.assignFrom lim x y ntA ntC sasg smk sd) := by
    intro nt ntA ntC hnt
    have hS := Sim.checkSame hΓ hxB hyB hl
    have h1 := (Sim.assign hΓ hxB (ha.never ntA) hm ntC hl).bind fun _ => hS
    have h2 := (Sim.reset hΓ hxB hd).bind fun _ => hS
    refine Sim.noexceptIf (Sim.cases hΓ hyB (fun o => ?_) (fun v w sw _ => h1.sim w sw) (fun w sw _ => h2.sim w sw)) ?_
    · cases o
      · exact h2.mono
      · exact h1.mono
    · intro hn
      obtain ⟨rfl, rfl⟩ := hnt hn
      exact Nothrow.assignFrom lim x y sasg smk sd
  cases rv
  · exact key false false _ (by simp)
  · refine key _ _ _ ?_
    simp

theorem Sim.getVal (hΓ : EnvWF Γ) (hxB : x ∉ B) : Sim Γ B (assertHas Γ x true >>= fun _ => getPayload x) (Spec.getVal x) := by
  refine ⟨mono_getVal x, fun w sw h hB hu ht => ?_⟩
  simp only [Spec.getVal] at hu ht ⊢
  rcases hx : sw.vars x with _ | (_ | v) <;> simp only [hx] at hu ht ⊢
  · exact absurd rfl hu
  · exact absurd rfl hu
  · exact ⟨w, ((local_assertHas Γ hxB true).runs (h.assertHasFull hΓ hx)).bind_ok ((local_getPayload hxB).runs (h.getPayload hx)), h⟩

theorem Sim.emplace (hΓ : EnvWF Γ) (hxB : x ∉ B) {mk : M V G V} {smk : SM V G V} (hm : Sim Γ (x :: B) mk smk) (nt : Bool)
    {d : V → M V G Unit} {sd : V → SM V G Unit} (hd : ∀ v, Sim Γ (x :: B) (d v) (sd v)) :
    Sim Γ B (Re.emplace Γ x nt d mk) (Spec.Re.emplace x nt sd smk) :=
  (Sim.reset hΓ hxB hd).bind fun _ => (Sim.init hΓ hxB hm nt).bind fun _ => Sim.getVal hΓ hxB

theorem Sim.destroyVal (hΓ : EnvWF Γ) (hxB : x ∉ B) {d : V → M V G Unit} {sd : V → SM V G Unit} (hd : ∀ v, Sim Γ (x :: B) (d v) (sd v)) :
    Sim Γ B (Re.reset Γ x d) (Spec.Re.destroyVal x sd) := by
  refine ⟨mono_reDestroyVal (fun v => (hd v).mono) x, fun w sw h hB hu ht => ?_⟩
  rcases hx : sw.vars x with _ | (_ | v)
  · simp [Spec.Re.destroyVal, sm_bind, Spec.getVal, hx] at hu
  · simp [Spec.Re.destroyVal, sm_bind, Spec.getVal, hx] at hu
  · have he : Spec.Re.reset x sd sw = Spec.Re.destroyVal x sd sw := by
      simp only [Spec.Re.reset, sm_bind, Spec.get, hx]
    have := (Sim.reset hΓ hxB hd).sim w sw h hB
    rw [he] at this
    exact this hu ht

theorem Sim.swap (hΓ : EnvWF Γ) (hxB : x ∉ B) (hyB : y ∉ B) (hxy : Γ x = Γ y) {swp : M V G Unit} {sswp : SM V G Unit}
    (hs : Sim Γ B swp sswp) {mk : Nat → M V G V} {smk : Nat → Nat → SM V G V} (hm : ∀ z y, Sim Γ (z :: B) (mk y) (smk z y))
    {d : V → M V G Unit} {sd : Nat → V → SM V G Unit} (hd : ∀ z v, Sim Γ (z :: B) (d v) (sd z v)) :
    Sim Γ B (Re.swap Γ x y swp mk d) (Spec.Re.swap x y (Γ x).ops.nothrowSwap (Γ x).ops.nothrowMoveCtor sswp smk sd) := by
  have h1 := (Sim.init hΓ hyB (hm y x) (Γ x).ops.nothrowMoveCtor).bind fun _ => Sim.destroyVal hΓ hxB (hd x)
  have h2 := (Sim.init hΓ hxB (hm x y) (Γ x).ops.nothrowMoveCtor).bind fun _ => Sim.destroyVal hΓ hyB (hd y)
  have h3 := hs.never (Γ x).ops.nothrowSwap
  have hops : (Γ y).ops.nothrowMoveCtor = (Γ x).ops.nothrowMoveCtor := by rw [hxy]
  have h1' : Sim Γ B (constructWith Γ y (Γ y).ops.nothrowMoveCtor (mk x) >>= fun _ => Re.reset Γ x d)
      (Spec.Re.init y (Γ x).ops.nothrowMoveCtor (smk y x) >>= fun _ => Spec.Re.destroyVal x (sd x)) := by rw [hops]; exact h1
  refine Sim.noexceptIf ⟨?_, fun w sw h hB hu ht => ?_⟩ ?_
  · refine (mono_get x).bind fun o => (mono_get y).bind fun o' => ?_
    cases o <;> cases o'
    · exact mono_pure _
    · exact h2.mono
    · exact h1.mono
    · exact h3.mono
  · simp only [Spec.Re.swap, sm_bind, Spec.get] at hu ht ⊢
    rcases hx : sw.vars x with _ | ox <;> simp only [hx] at hu ht ⊢
    · exact absurd rfl hu
    rcases hy : sw.vars y with _ | oy <;> simp only [hy] at hu ht ⊢
    · exact absurd rfl hu
    have hvx := (local_hasValue Γ hxB).runs (h.hasValue hΓ hx)
    have hvy := (local_hasValue Γ hyB).runs (h.hasValue hΓ hy)
    rcases ox with _ | vx <;> rcases oy with _ | vy <;> simp only at hu ht ⊢
    · exact ⟨w, hvx.bind_ok (hvy.bind_ok (.pure _ _)), h⟩
    · obtain ⟨w', hw', hR⟩ := h2.sim w sw h hB hu ht
      exact ⟨w', hvx.bind_ok (hvy.bind_ok hw'), hR⟩
    · obtain ⟨w', hw', hR⟩ := h1'.sim w sw h hB hu ht
      exact ⟨w', hvx.bind_ok (hvy.bind_ok hw'), hR⟩
    · obtain ⟨w', hw', hR⟩ := h3.sim w sw h hB hu ht
      exact ⟨w', hvx.bind_ok (hvy.bind_ok hw'), hR⟩
  · intro hn
    rw [Bool.and_eq_true] at hn
    rw [hn.1, hn.2]
    exact Nothrow.swap x y sswp smk sd

theorem Sim.valueOr (hΓ : EnvWF Γ) (hxB : x ∉ B) {m m' : M V G V} {sm sm' : SM V G V} (h : Sim Γ B m sm) (h' : Sim Γ B m' sm') :
    Sim Γ B (Re.valueOr Γ x m m') (Spec.Re.valueOr x sm sm') := by
  refine Sim.cases hΓ hxB (fun o => ?_) (fun v w sw _ => h.sim w sw) (fun w sw _ => h'.sim w sw)
  cases o
  · exact h'.mono
  · exact h.mono

theorem Sim.copyOrMoveCtor (hΓ : EnvWF Γ) (hxB : x ∉ B) (hyB : y ∉ B) {mk : M V G V} {smk : SM V G V} (hm : Sim Γ (x :: B) mk smk)
    {nt ntC : Bool} (hnt : nt = true → ntC = true) (hl : lim.engagement x = !(Γ x).cfg.ndebug) :
    Sim Γ B (Re.copyOrMoveCtor Γ nt ntC mk x y) (Spec.Re.transfer lim x y ntC smk) := by
  have hmono : Mono (Spec.Re.transfer lim x y ntC smk) := (mono_fresh x).bind fun _ => (mono_get y).bind fun o => by
    cases o
    · exact mono_setEmpty x
    · refine (mono_never hm.mono ntC).bind fun v => (mono_put x v).bind fun _ => ?_
      cases lim.engagement x
      · exact mono_pure _
      · exact mono_requireEngaged y
  refine ⟨hmono, fun w sw h hB hu ht => ?_⟩
  simp only [Spec.Re.transfer, sm_bind, Spec.fresh] at hu ht ⊢
  rcases hx : sw.vars x with _ | o <;> simp only [hx] at hu ht ⊢
  · unfold Spec.get at hu ht ⊢
    rcases hy : sw.vars y with _ | o <;> simp only [hy] at hu ht ⊢
    · exact absurd rfl hu
    have hyx : y ≠ x := by rintro rfl; rw [hx] at hy; simp at hy
    obtain ⟨w₁, h1, hR1⟩ := defaultCtor_run hΓ h hx
    have hC := (local_storageDefaultCtor Γ hxB).runs h1
    have hx1 : upd sw.vars x (some none) x = some none := upd_same _ _ _
    have hy1 : upd sw.vars x (some none) y = some o := (upd_other _ _ hyx).trans hy
    have hB1 : ∀ z ∈ B, upd sw.vars x (some none) z = none := fun z hz => by
      have hzx : z ≠ x := fun h => hxB (h ▸ hz)
      rw [upd_other _ _ hzx]; exact hB z hz
    have hV := (local_hasValue Γ hyB).runs (hR1.hasValue hΓ hy1)
    rcases o with _ | v0
    · have hA := (local_assertHas Γ hxB false).runs (hR1.assertHasEmp hΓ hx1)
      have hS := (local_assertSame Γ hxB hyB).runs (assertSame_run hΓ hR1 hx1 hy1 rfl)
      exact ⟨w₁, .noexceptIf_ok (hC.bind_ok (hV.bind_ok (.ite_false rfl (hA.bind_ok hS))).onThrow_ok), hR1⟩
    · have hh := fun w₃ (hw₃ : R Γ (some (x, Raw (Γ x).cfg)) w₃ (upd sw.vars x (some none)) sw.user) =>
        hm.hole hxB hw₃ hB1 (sw := sw) (by funext z; by_cases hz : z = x <;> simp [upd, hz, hx]) rfl
      simp only [sm_bind, Spec.Re.never] at hu ht ⊢
      rcases hr : smk sw with ⟨v | e | _, sw'⟩ <;> simp only [hr] at hu ht hh ⊢
      · cases hn : (Γ x).cfg.ndebug
        · rw [hn] at hl
          simp only [Spec.put, Spec.Re.requireEngaged, sm_bind, Spec.get, if_neg hyx, hl, Bool.not_false, if_true] at hu ht ⊢
          rcases hy' : sw'.vars y with _ | (_ | vy) <;> simp only [hy'] at hu ht ⊢
          · exact absurd rfl hu
          · exact absurd rfl hu
          · obtain ⟨w₂, h2, hR2⟩ := constructWith_runs_ok (nt := ntC) hΓ hxB hR1 hx1 (ht (x, v) (by simp [sm_pure])) fun w₁ hw₁ => by
              obtain ⟨w₂, h2, hR2, _⟩ := hh w₁ hw₁ (by simp) (traceOK_left ht)
              exact ⟨w₂, h2, hR2⟩
            have hS := (local_assertSame Γ hxB hyB).runs (assertSame_run (x := x) (y := y) hΓ hR2 (upd_same _ _ _)
              ((upd_other _ _ hyx).trans ((upd_other _ _ hyx).trans hy')) rfl)
            exact ⟨w₂, .noexceptIf_ok (hC.bind_ok (hV.bind_ok (.ite_true rfl (h2.bind_ok hS))).onThrow_ok),
              hR2.congr fun z => by simp only [sm_pure, upd]; split <;> rfl⟩
        · rw [hn] at hl
          simp only [Spec.put, hl, Bool.not_true, Bool.false_eq_true, if_false] at hu ht ⊢
          obtain ⟨w₂, h2, hR2⟩ := constructWith_runs_ok (nt := ntC) hΓ hxB hR1 hx1 (ht (x, v) (by simp [sm_pure])) fun w₁ hw₁ => by
            obtain ⟨w₂, h2, hR2, _⟩ := hh w₁ hw₁ (by simp) (traceOK_left ht)
            exact ⟨w₂, h2, hR2⟩
          have hS : Runs B (Model.assertSame Γ x y) w₂ (.ok ()) w₂ := by
            have : Model.assertSame Γ x y = Pure.pure () := by simp only [Model.assertSame, assertM, hn, if_true]; rfl
            rw [this]; exact .pure _ _
          exact ⟨w₂, .noexceptIf_ok (hC.bind_ok (hV.bind_ok (.ite_true rfl (h2.bind_ok hS))).onThrow_ok),
            hR2.congr fun z => by simp only [sm_pure, upd]; split <;> rfl⟩
      · cases ntC
        · have hn : nt = false := by
            cases nt
            · rfl
            · simp at hnt
          subst hn
          simp only [Bool.false_eq_true, if_false] at hu ht ⊢
          obtain ⟨w₂, h2, hR2⟩ := constructWith_runs_throw hΓ hxB hR1 hx1 fun w₁ hw₁ => by
            obtain ⟨w₂, h2, hR2, _⟩ := hh w₁ hw₁ (by simp) ht
            exact ⟨w₂, h2, hR2⟩
          obtain ⟨w₃, h3, hR3⟩ := storageDtor_emp hΓ hR2 (x := x) (upd_same _ _ _)
          have hD := (local_storageDtor Γ hxB).runs h3
          obtain ⟨w₅, _, hR5⟩ := hR1.invalidate hΓ hx1
          obtain ⟨_, _, _, _, hn, _⟩ := hh w₅ hR5 (by simp) ht
          refine ⟨w₃, .noexceptIf_throw (hC.bind_ok (Runs.onThrow_throw (hV.bind_ok (.ite_true rfl h2.bind_throw)) hD)),
            hR3.congr fun z => ?_⟩
          by_cases hz : z = x
          · subst hz; rw [upd_same]; exact hn
          · rw [upd_other _ _ hz, upd_other _ _ hz]
        · exact absurd rfl hu
      · exact absurd rfl hu
  · exact absurd rfl hu

theorem Sim.transfer (hΓ : EnvWF Γ) (hxB : x ∉ B) (hyB : y ∉ B) {mk : M V G V} {smk : SM V G V} (hm : Sim Γ (x :: B) mk smk)
    (rv : Bool) (hl : lim.engagement x = !(Γ x).cfg.ndebug) :
    Sim Γ B (Re.transfer Γ rv x y mk)
      (Spec.Re.transfer lim x y (if rv then (Γ x).ops.nothrowMoveCtor else (Γ x).ops.nothrowCopyCtor) smk) := by
  cases rv
  · exact Sim.copyOrMoveCtor hΓ hxB hyB hm (by simp) hl
  · exact Sim.copyOrMoveCtor hΓ hxB hyB hm id hl

theorem Sim.result (hΓ : EnvWF Γ) {dst : Nat} (hd : dst ∉ B) {mk : Nat → M V G V} {smk : Nat → SM V G V}
    (hm : ∀ y, Sim Γ (dst :: B) (mk y) (smk y)) (r : Returned) (hl : lim.engagement dst = !(Γ dst).cfg.ndebug) :
    Sim Γ B (Re.result Γ dst mk r) (Spec.Re.result lim B dst (Γ dst).ops smk r) := by
  cases r with
  | object =>
    refine ⟨(mono_get dst).bind fun _ => mono_pure _, fun w sw h hB hu ht => ?_⟩
    simp only [Spec.Re.result, sm_bind, Spec.get] at hu ht ⊢
    rcases hv : sw.vars dst with _ | o <;> simp only [hv] at hu ht ⊢
    · exact absurd rfl hu
    · exact ⟨w, .pure _ _, h⟩
  | lref y => exact Sim.require fun hy => Sim.transfer hΓ hd (of_decide_eq_true hy) (hm y) false hl
  | rref y => exact Sim.require fun hy => Sim.transfer hΓ hd (of_decide_eq_true hy) (hm y) true hl

/-- The specification names its precondition on the result first. -/
theorem fresh_get (dst : Nat) (f : Option V → SM V G α) :
    (Spec.fresh dst >>= fun _ => Spec.get x >>= f) = (Spec.get x >>= fun o => Spec.fresh dst >>= fun _ => f o) := by
  funext sw
  simp only [sm_bind, Spec.fresh, Spec.get]
  rcases hd : sw.vars dst with _ | o <;> rcases hx : sw.vars x with _ | o' <;> simp only [hd, hx]

theorem Sim.fresh {m : M V G α} {sm : SM V G α} (h : Sim Γ B m sm) (dst : Nat) : Sim Γ B m (Spec.fresh dst >>= fun _ => sm) := by
  refine ⟨(mono_fresh dst).bind fun _ => h.mono, fun w sw hR hB hu ht => ?_⟩
  simp only [sm_bind, Spec.fresh] at hu ht ⊢
  rcases hd : sw.vars dst with _ | o <;> simp only [hd] at hu ht ⊢
  · exact h.sim w sw hR hB hu ht
  · exact absurd rfl hu

theorem Sim.defaultCtor (hΓ : EnvWF Γ) (hxB : x ∉ B) : Sim Γ B (defaultCtor Γ x) (Spec.fresh x >>= fun _ => Spec.setEmpty x) :=
  Sim.of_sims (defaultCtor_sims hΓ) ((mono_fresh x).bind fun _ => mono_setEmpty x) (local_storageDefaultCtor Γ hxB)

theorem Sim.andThen (hΓ : EnvWF Γ) {dst : Nat} (hxB : x ∉ B) (hd : dst ∉ B) {f : M V G Returned} {sf : SM V G Returned} (hf : Sim Γ B f sf)
    {mk : Nat → M V G V} {smk : Nat → SM V G V} (hm : ∀ y, Sim Γ (dst :: B) (mk y) (smk y)) (hl : lim.engagement dst = !(Γ dst).cfg.ndebug) :
    Sim Γ B (Re.andThen Γ x dst f mk) (Spec.Re.andThen lim B x dst (Γ dst).ops sf smk) := by
  have h1 := (hf.bind fun r => Sim.result hΓ hd hm r hl).fresh dst
  have h2 : Sim Γ B (Model.defaultCtor Γ dst) _ := Sim.defaultCtor hΓ hd
  unfold Spec.Re.andThen
  rw [fresh_get]
  refine Sim.cases hΓ hxB (fun o => ?_) (fun v w sw hv => (h1.sim w sw).engaged hΓ hxB hv) (fun w sw _ => h2.sim w sw)
  cases o
  · exact h2.mono
  · exact h1.mono

theorem Sim.transform (hΓ : EnvWF Γ) {nt : Bool} {dst : Nat} (hxB : x ∉ B) (hd : dst ∉ B) {f : M V G V} {sf : SM V G V} (hf : Sim Γ (dst :: B) f sf)
    (hl : lim.transformThrows = true) :
    Sim Γ B (Re.transform Γ nt x dst f) (Spec.Re.transform lim nt x dst sf) := by
  have h1 : Sim Γ B (Re.storageCtor Γ dst nt f) _ := Sim.ctor hΓ hd hf _
  have h2 : Sim Γ B (Model.defaultCtor Γ dst) _ := Sim.defaultCtor hΓ hd
  unfold Spec.Re.transform
  rw [fresh_get, hl]
  refine Sim.cases hΓ hxB (fun o => ?_) (fun v w sw hv => (h1.sim w sw).engaged hΓ hxB hv) (fun w sw _ => h2.sim w sw)
  cases o
  · exact h2.mono
  · exact h1.mono

theorem Sim.orElse (hΓ : EnvWF Γ) {dst : Nat} (hxB : x ∉ B) (hd : dst ∉ B) (rv : Bool) {f : M V G Returned} {sf : SM V G Returned}
    (hf : Sim Γ B f sf) {mk : Nat → M V G V} {smk : Nat → SM V G V} (hm : ∀ y, Sim Γ (dst :: B) (mk y) (smk y))
    (hl : lim.engagement dst = !(Γ dst).cfg.ndebug) :
    Sim Γ B (Re.orElse Γ rv x dst f mk) (Spec.Re.orElse lim B rv x dst (Γ dst).ops sf smk) := by
  have h1 := (Sim.result hΓ hd hm (if rv then .rref x else .lref x) hl).fresh dst
  have h2 : Sim Γ B (do let r ← f; Re.result Γ dst mk (if rv then r else r.asLvalue)) _ :=
    (hf.bind fun r => Sim.require (b := rv || r.asLvalue == r) (sf := fun _ => Spec.Re.result lim B dst (Γ dst).ops smk r) fun hr => by
      have : (if rv then r else r.asLvalue) = r := by
        cases rv
        · simpa using hr
        · rfl
      rw [this]
      exact Sim.result hΓ hd hm r hl).fresh dst
  have he : Re.transfer Γ rv dst x (mk x) = Re.result Γ dst mk (if rv then .rref x else .lref x) := by cases rv <;> rfl
  unfold Spec.Re.orElse
  rw [fresh_get]
  unfold Re.orElse
  rw [he]
  refine Sim.cases hΓ hxB (fun o => ?_) (fun v w sw hv => h1.sim w sw) (fun w sw _ => h2.sim w sw)
  cases o
  · exact h2.mono
  · exact h1.mono

/-! ### Comparisons -/

theorem Runs.andM_true {a b : M V G Bool} {w w' : World V G} {r : Res Bool} (ha : Runs B a w (.ok true) w) (hb : Runs B b w r w') :
    Runs B (andM a b) w r w' := ha.bind_ok (.ite_true rfl hb)
theorem Runs.andM_false {a b : M V G Bool} {w : World V G} (ha : Runs B a w (.ok false) w) : Runs B (andM a b) w (.ok false) w :=
  ha.bind_ok (.ite_false rfl (.pure _ _))
theorem Runs.orM_true {a b : M V G Bool} {w : World V G} (ha : Runs B a w (.ok true) w) : Runs B (orM a b) w (.ok true) w :=
  ha.bind_ok (.ite_true rfl (.pure _ _))
theorem Runs.orM_false {a b : M V G Bool} {w w' : World V G} {r : Res Bool} (ha : Runs B a w (.ok false) w) (hb : Runs B b w r w') :
    Runs B (orM a b) w r w' := ha.bind_ok (.ite_false rfl hb)
theorem Runs.notM {a : M V G Bool} {w : World V G} {b : Bool} (ha : Runs B a w (.ok b) w) : Runs B (notM a) w (.ok (!b)) w :=
  ha.bind_ok (.pure _ _)

/-- The operand answers `has_value()` and `*` as an optional with content `o`, whatever is in the memory of the optionals in `B`. -/
def RunsAs (B : List Nat) {A : Type} (l : OptLike V G A) (o : Option A) (w : World V G) : Prop :=
  Runs B l.hasValue w (.ok o.isSome) w ∧ ∀ a, o = some a → Runs B l.deref w (.ok a) w

theorem runsAs_std {A : Type} (o : Option A) (w : World V G) : RunsAs B (stdOpt o) o w :=
  ⟨.pure _ _, fun a h => by subst h; exact .pure _ _⟩

theorem local_deref (Γ : Env V G) (hx : x ∉ B) : Local B (deref Γ x) := (Fits.deref Γ (.inr hx)).isLocal (toM_deref Γ x)

theorem runsAs_tiny (hΓ : EnvWF Γ) (hx : x ∉ B) {w : World V G} {sw : SWorld V G} (h : RW Γ none w sw) {o : Option V}
    (ho : sw.vars x = some o) : RunsAs B (tinyOpt Γ x) o w :=
  ⟨(local_hasValue Γ hx).runs (h.hasValue hΓ ho), fun v hv => by
    subst hv
    exact (local_deref Γ hx).runs (deref_run hΓ h ho)⟩

/-- A comparison does what the standard says. -/
def Follows (B : List Nat) {A C R : Type} (m : M V G R) (ans : Spec.Answer R A C) (cmp : A → C → M V G R) (w : World V G) : Prop :=
  match ans with
  | .const r => Runs B m w (.ok r) w
  | .ask a b => ∀ r w', Runs B (cmp a b) w r w' → Runs B m w r w'

section
variable {A C R : Type} {l : OptLike V G A} {r : OptLike V G C} {o : Option A} {p : Option C} {w : World V G}

theorem payloadCmp_runs {cmp : A → C → M V G R} {a : A} {b : C} (hl : RunsAs B l (some a) w) (hr : RunsAs B r (some b) w) {res : Res R}
    {w' : World V G} (h : Runs B (cmp a b) w res w') : Runs B (Re.payloadCmp l r cmp) w res w' :=
  (hl.2 a rfl).bind_ok ((hr.2 b rfl).bind_ok h)

theorem optRel_follows (hl : RunsAs B l o w) (hr : RunsAs B r p w) (op : Spec.RelOp) (cmp : A → C → M V G Bool) :
    Follows B (Re.optRel l r op cmp) (Spec.stdRel op o p) cmp w := by
  have hnl := Runs.notM hl.1
  have hnr := Runs.notM hr.1
  have he : ∀ b : Bool, Runs B (do let rhsHasValue ← r.hasValue; Pure.pure (b == rhsHasValue) : M V G Bool) w (.ok (b == p.isSome)) w :=
    fun b => hr.1.bind_ok (.pure _ _)
  have hn : ∀ b : Bool, Runs B (do let rhsHasValue ← r.hasValue; Pure.pure (b != rhsHasValue) : M V G Bool) w (.ok (b != p.isSome)) w :=
    fun b => hr.1.bind_ok (.pure _ _)
  have hp : ∀ b : Bool, Runs B (Pure.pure b : M V G Bool) w (.ok b) w := fun b => .pure _ _
  cases op
  · cases o <;> cases p
    · exact hl.1.bind_ok (.andM_true (he _) (.orM_true (hp _)))
    · exact hl.1.bind_ok (.andM_false (he _))
    · exact hl.1.bind_ok (.andM_false (he _))
    · exact fun _ _ h => hl.1.bind_ok (.andM_true (he _) (.orM_false (hp _) (payloadCmp_runs hl hr h)))
  · cases o <;> cases p
    · exact hl.1.bind_ok (.orM_false (hn _) (.andM_false (hp _)))
    · exact hl.1.bind_ok (.orM_true (hn _))
    · exact hl.1.bind_ok (.orM_true (hn _))
    · exact fun _ _ h => hl.1.bind_ok (.orM_false (hn _) (.andM_true (hp _) (payloadCmp_runs hl hr h)))
  · cases o <;> cases p
    · exact Runs.andM_false hr.1
    · exact Runs.andM_true hr.1 (.orM_true hnl)
    · exact Runs.andM_false hr.1
    · exact fun _ _ h => Runs.andM_true hr.1 (.orM_false hnl (payloadCmp_runs hl hr h))
  · cases o <;> cases p
    · exact Runs.orM_true hnl
    · exact Runs.orM_true hnl
    · exact Runs.orM_false hnl (.andM_false hr.1)
    · exact fun _ _ h => Runs.orM_false hnl (.andM_true hr.1 (payloadCmp_runs hl hr h))
  · cases o <;> cases p
    · exact Runs.andM_false hl.1
    · exact Runs.andM_false hl.1
    · exact Runs.andM_true hl.1 (.orM_true hnr)
    · exact fun _ _ h => Runs.andM_true hl.1 (.orM_false hnr (payloadCmp_runs hl hr h))
  · cases o <;> cases p
    · exact Runs.orM_true hnr
    · exact Runs.orM_false hnr (.andM_false hl.1)
    · exact Runs.orM_true hnr
    · exact fun _ _ h => Runs.orM_false hnr (.andM_true hl.1 (payloadCmp_runs hl hr h))

theorem optSpaceship_follows (hl : RunsAs B l o w) (hr : RunsAs B r p w) (cmp : A → C → M V G Spec.Cmp) :
    Follows B (Re.optSpaceship l r cmp) (Spec.stdCmp o p) cmp w := by
  have hc : ∀ {c : Spec.Cmp}, boolCmp o.isSome p.isSome = c →
      Runs B (l.hasValue >>= fun a => r.hasValue >>= fun b => Pure.pure (boolCmp a b) : M V G Spec.Cmp) w (.ok c) w :=
    fun h => h ▸ hl.1.bind_ok (hr.1.bind_ok (.pure _ _))
  cases o <;> cases p
  · exact (Runs.andM_false hl.1).bind_ok (.ite_false rfl (hc rfl))
  · exact (Runs.andM_false hl.1).bind_ok (.ite_false rfl (hc rfl))
  · exact (Runs.andM_true hl.1 hr.1).bind_ok (.ite_false rfl (hc rfl))
  · exact fun _ _ h => (Runs.andM_true hl.1 hr.1).bind_ok (.ite_true rfl (payloadCmp_runs hl hr h))

theorem compare_follows (hl : RunsAs B l o w) (hr : RunsAs B r p w) (q : Comparison R) (cmp : A → C → M V G R) :
    Follows B (Re.compare l r q cmp) (q.answer o p) cmp w := by
  cases q with
  | rel op => exact optRel_follows hl hr op cmp
  | spaceship => exact optSpaceship_follows hl hr cmp

end

theorem Sim.compare {R : Type} (hΓ : EnvWF Γ) (hxB : x ∉ B) (hyB : y ∉ B) (q : Comparison R) {cmp : V → V → M V G R}
    {scmp : V → V → SM V G R} (hc : ∀ a b, Sim Γ B (cmp a b) (scmp a b)) :
    Sim Γ B (Re.compare (tinyOpt Γ x) (tinyOpt Γ y) q cmp) (Spec.Re.compare q x y scmp) := by
  refine ⟨(mono_get x).bind fun a => (mono_get y).bind fun b => ?_, fun w sw h hB hu ht => ?_⟩
  · cases q.answer a b
    · exact mono_pure _
    · exact (hc _ _).mono
  · simp only [Spec.Re.compare, sm_bind, Spec.get] at hu ht ⊢
    rcases hx : sw.vars x with _ | ox <;> simp only [hx] at hu ht ⊢
    · exact absurd rfl hu
    rcases hy : sw.vars y with _ | oy <;> simp only [hy] at hu ht ⊢
    · exact absurd rfl hu
    have hf := compare_follows (runsAs_tiny hΓ hxB h hx) (runsAs_tiny hΓ hyB h hy) q cmp
    rcases ha : q.answer ox oy with r | ⟨a, b⟩ <;> rw [ha] at hf <;> simp only [ha] at hu ht ⊢
    · exact ⟨w, hf, h⟩
    · obtain ⟨w', hw', hR⟩ := (hc a b).sim w sw h hB hu ht
      exact ⟨w', hf _ _ hw', hR⟩

/-- A function of one optional does what the standard says. -/
def Follows' (B : List Nat) {A R : Type} (m : M V G R) (ans : R ⊕ A) (f : A → M V G R) (w : World V G) : Prop :=
  match ans with
  | .inl r => Runs B m w (.ok r) w
  | .inr a => ∀ r w', Runs B (f a) w r w' → Runs B m w r w'

theorem follows_right {A R : Type} {m : M V G R} {f : A → M V G R} {w : World V G} {o : Option A} {z : Option Unit}
    {ans : {C D : Type} → Option C → Option D → Spec.Answer R C D} (h : Follows B m (ans o z) (fun a _ => f a) w) :
    Follows' B m (Spec.Re.sided false ans o z) f w := by
  unfold Spec.Re.sided
  rw [if_neg Bool.false_ne_true]
  show Follows' B m (match ans o z with | .const r => .inl r | .ask a _ => .inr a) f w
  revert h
  cases ans o z <;> exact id

theorem follows_left {A R : Type} {m : M V G R} {f : A → M V G R} {w : World V G} {o : Option A} {z : Option Unit}
    {ans : {C D : Type} → Option C → Option D → Spec.Answer R C D} (h : Follows B m (ans z o) (fun _ a => f a) w) :
    Follows' B m (Spec.Re.sided true ans o z) f w := by
  unfold Spec.Re.sided
  rw [if_pos rfl]
  show Follows' B m (match ans z o with | .const r => .inl r | .ask _ a => .inr a) f w
  revert h
  cases ans z o <;> exact id

theorem condRel_follows {R : Type} {w : World V G} {o : Option V} (h : RunsAs B (tinyOpt Γ x) o w) (d : R) (f : V → M V G R) :
    Follows' B (Re.condRel Γ x d f) (match o with | none => .inl d | some v => .inr v) f w := by
  cases o with
  | none => exact h.1.bind_ok (.ite_false rfl (.pure _ _))
  | some v => exact fun _ _ hf => h.1.bind_ok (.ite_true rfl ((h.2 v rfl).bind_ok hf))

theorem inspect_follows {R : Type} {w : World V G} {o : Option V} (h : RunsAs B (tinyOpt Γ x) o w) (q : Inspection R) (f : V → M V G R) :
    Follows' B (Re.inspect Γ x q f) (q.answer o) f w := by
  cases q with
  | withStd flipped op has =>
    cases flipped
    · exact follows_right (ans := Spec.stdRel op) (optRel_follows h (runsAs_std _ w) op fun v _ => f v)
    · exact follows_left (ans := Spec.stdRel op) (optRel_follows (runsAs_std _ w) h op fun _ v => f v)
  | spaceshipStd flipped has =>
    cases flipped
    · exact follows_right (ans := Spec.stdCmp) (optSpaceship_follows h (runsAs_std _ w) fun v _ => f v)
    · exact follows_left (ans := Spec.stdCmp) (optSpaceship_follows (runsAs_std _ w) h fun _ v => f v)
  | withValue flipped op =>
    have hc := fun d => condRel_follows (Γ := Γ) h d f
    cases flipped <;> cases op <;> cases o <;> exact hc _
  | spaceshipValue =>
    have hc := condRel_follows (Γ := Γ) h Spec.Cmp.less f
    cases o <;> exact hc
  | hash =>
    have hc := condRel_follows (Γ := Γ) h 0 f
    cases o <;> exact hc

theorem Sim.inspect {R : Type} (hΓ : EnvWF Γ) (hxB : x ∉ B) (q : Inspection R) {f : V → M V G R} {sf : V → SM V G R}
    (hf : ∀ v, Sim Γ B (f v) (sf v)) : Sim Γ B (Re.inspect Γ x q f) (Spec.Re.inspect q x sf) := by
  refine ⟨(mono_get x).bind fun a => ?_, fun w sw h hB hu ht => ?_⟩
  · cases q.answer a
    · exact mono_pure _
    · exact (hf _).mono
  · simp only [Spec.Re.inspect, sm_bind, Spec.get] at hu ht ⊢
    rcases hx : sw.vars x with _ | ox <;> simp only [hx] at hu ht ⊢
    · exact absurd rfl hu
    have hi := inspect_follows (runsAs_tiny hΓ hxB h hx) q f
    rcases ha : q.answer ox with r | a <;> rw [ha] at hi <;> simp only [ha] at hu ht ⊢
    · exact ⟨w, hi, h⟩
    · obtain ⟨w', hw', hR⟩ := (hf a).sim w sw h hB hu ht
      exact ⟨w', hi _ _ hw', hR⟩

theorem Sim.call (hΓ : EnvWF Γ) (op : Op V G) (hop : OpOK Γ op) (h : ∀ z ∈ op.reads ++ op.writes, z ∉ B)
    (hl : lim.transformThrows = true) :
    Sim Γ B (execOp Γ op) (Spec.Re.never (Spec.Re.callThrows lim op) (Spec.specOp (fun x => (Γ x).ops) op)) := by
  refine ⟨mono_never (mono_specOp _ op) _, fun w sw hR hB hu ht => ?_⟩
  have hs := execOp_sims hΓ op hop w sw hR
  unfold Spec.Re.never at hu ht ⊢
  rcases hr : Spec.specOp (fun x => (Γ x).ops) op sw with ⟨a | e | _, sw'⟩ <;> simp only [hr] at hs hu ht ⊢
  · obtain ⟨w', hw', hR'⟩ := hs (by simp) ht (by unfold StepOK; split <;> simp)
    exact ⟨w', (local_execOp Γ op h).runs hw', hR'⟩
  · rcases hc : Spec.Re.callThrows lim op with _ | _ <;> simp only [hc, Bool.false_eq_true, if_false, if_true] at hu ht ⊢
    · obtain ⟨w', hw', hR'⟩ := hs (by simp) ht (by
        unfold StepOK
        split
        · simp only [Spec.Re.callThrows, hl] at hc
          intro hh; rw [hh] at hc; simp at hc
        · trivial)
      exact ⟨w', (local_execOp Γ op h).runs hw', hR'⟩
    · exact absurd rfl hu
  · exact absurd rfl hu

theorem Sim.user {f : G → G} {k : G → M V G α} {sk : G → SM V G α} (hk : ∀ g, Sim Γ B (k g) (sk g)) :
    Sim Γ B (userPure (fun g => (g, f g)) >>= k) (fun sw => sk sw.user { sw with user := f sw.user }) := by
  refine ⟨fun vars g => (hk g).mono vars (f g), fun w sw h hB hu ht => ?_⟩
  obtain ⟨w', hw', hR'⟩ := (hk sw.user).sim { w with user := f w.user } { sw with user := f sw.user }
    ⟨h.rel, congrArg f h.user, h.noLeak⟩ hB hu ht
  refine ⟨w', ⟨fun junk => ?_, hw'.keep⟩, hR'⟩
  have := hw'.run junk
  have hu' : w.user = sw.user := h.user
  show k w.user (mask B junk { w with user := f w.user }) = _
  rw [hu']
  rw [hu'] at this
  exact this

theorem sim_prog (hΓ : EnvWF Γ) (hl : lim = ⟨true, fun x => !(Γ x).cfg.ndebug⟩) (p : Prog V G α)
    (hp : ProgOK Γ p) (B : List Nat) : Sim Γ B (runProg Γ p) (Spec.specProg (fun x => (Γ x).ops) lim B p) := by
  have hle : ∀ x, lim.engagement x = !(Γ x).cfg.ndebug := fun x => by rw [hl]
  have hlt : lim.transformThrows = true := by rw [hl]
  induction p generalizing B with
  | ret r =>
    cases r with
    | ok a => exact Sim.pure a
    | error e => exact Sim.throwE e
  | user f k ih => exact Sim.user fun g => ih g (hp g) B
  | call op k ih =>
    exact Sim.require fun h => (Sim.attempt (Sim.call hΓ op hp.1 (fun z hz => of_decide_eq_true (List.all_eq_true.1 h z hz)) hlt)).bind
      fun r => ih r (hp.2 r) B
  | construct x nt ctor k ihc ih =>
    exact Sim.require fun h => (Sim.attempt (Sim.ctor hΓ (of_decide_eq_true h) (ihc hp.1 _) nt)).bind fun r => ih r (hp.2 r) B
  | transfer rv x y ctor k ihc ih =>
    exact Sim.require fun h => (Sim.attempt (Sim.transfer hΓ (of_decide_eq_true h).1 (of_decide_eq_true h).2 (ihc hp.1 _) rv (hle x))).bind
      fun r => ih r (hp.2 r) B
  | destroy x dtor k ihd ih =>
    exact Sim.require fun h => (Sim.attempt (Sim.dtor hΓ (of_decide_eq_true h) fun v => ihd v (hp.1 v) _)).bind
      fun r => ih r (hp.2 r) B
  | reset x dtor k ihd ih =>
    exact Sim.require fun h => (Sim.attempt (Sim.reset hΓ (of_decide_eq_true h) fun v => ihd v (hp.1 v) _)).bind
      fun r => ih r (hp.2 r) B
  | assign x nt asg ctor k iha ihc ih =>
    exact Sim.require fun h => (Sim.attempt (Sim.assign hΓ (of_decide_eq_true h) (iha hp.1 _) (ihc hp.2.1 _) nt (hle x))).bind
      fun r => ih r (hp.2.2 r) B
  | assignFrom rv x y asg ctor dtor k iha ihc ihd ih =>
    exact Sim.require fun h => (Sim.attempt (Sim.assignFrom hΓ (of_decide_eq_true h).1 (of_decide_eq_true h).2 (iha hp.1 _) (ihc hp.2.1 _)
      (fun v => ihd v (hp.2.2.1 v) _) rv (hle x))).bind fun r => ih r (hp.2.2.2 r) B
  | emplace x nt dtor ctor k ihd ihc ih =>
    exact Sim.require fun h => (Sim.attempt (Sim.emplace hΓ (of_decide_eq_true h) (ihc hp.2.1 _) nt fun v => ihd v (hp.1 v) _)).bind
      fun r => ih r (hp.2.2 r) B
  | swap x y swp ctor dtor k ihs ihc ihd ih =>
    exact Sim.require fun h => (Sim.attempt (Sim.swap hΓ (of_decide_eq_true h).1 (of_decide_eq_true h).2 hp.1 (ihs hp.2.1 _)
      (fun z y => ihc y (hp.2.2.1 y) _) fun z v => ihd v (hp.2.2.2.1 v) _)).bind fun r => ih r (hp.2.2.2.2 r) B
  | valueOr x ctor conv k ihc ihv ih =>
    exact Sim.require fun h => (Sim.attempt (Sim.valueOr hΓ (of_decide_eq_true h) (ihc hp.1 _) (ihv hp.2.1 _))).bind
      fun r => ih r (hp.2.2 r) B
  | andThen x dst f ctor k ihf ihc ih =>
    exact Sim.require fun h => (Sim.attempt (Sim.andThen hΓ (of_decide_eq_true h).1 (of_decide_eq_true h).2 (ihf hp.1 _)
      (fun y => ihc y (hp.2.1 y) _) (hle dst))).bind fun r => ih r (hp.2.2 r) B
  | transform nt x dst f k ihf ih =>
    exact Sim.require fun h => (Sim.attempt (Sim.transform hΓ (of_decide_eq_true h).1 (of_decide_eq_true h).2 (ihf hp.1 _)
      hlt)).bind fun r => ih r (hp.2 r) B
  | orElse rv x dst f ctor k ihf ihc ih =>
    exact Sim.require fun h => (Sim.attempt (Sim.orElse hΓ (of_decide_eq_true h).1 (of_decide_eq_true h).2 rv (ihf hp.1 _)
      (fun y => ihc y (hp.2.1 y) _) (hle dst))).bind fun r => ih r (hp.2.2 r) B
  | compare q x y cmp k ihc ih =>
    exact Sim.require fun h => (Sim.attempt (Sim.compare hΓ (of_decide_eq_true h).1 (of_decide_eq_true h).2 q
      fun a b => ihc a b (hp.1 a b) B)).bind fun r => ih r (hp.2 r) B
  | inspect q x f k ihf ih =>
    exact Sim.require fun h => (Sim.attempt (Sim.inspect hΓ (of_decide_eq_true h) q fun v => ihf v (hp.1 v) B)).bind
      fun r => ih r (hp.2 r) B

end

/-! ### Transition properties -/

section
variable {V G α : Type} {Γ : Env V G} {B S T : Nat → Prop} {P : World V G → World V G → Prop} {x y : Nat}

namespace Closed
variable (C : Closed Γ S T P B) (hD : ∀ x, S x → Steps P (Model.destroyPayload (Γ x).cfg (fun _ g => g) x : M V G Unit))
include C

set_option linter.unusedSectionVars false in
theorem reAttempt {m : M V G α} (hm : Steps P m) : Steps P (Model.attempt m) := by
  intro w
  have h := hm w
  unfold Model.attempt
  rcases hw : m w with ⟨a | e | k, w'⟩ <;> rw [hw] at h <;> exact h

include hD

theorem reDestroyPayload (hx : S x) {d : V → M V G Unit} (hd : ∀ v, Steps P (d v)) : Steps P (Re.destroyPayload Γ x d) :=
  C.noexceptIf (C.bind (C.getPayload x) fun v => C.bind (hd v) fun _ => hD x hx)

theorem reReset (hx : S x) {d : V → M V G Unit} (hd : ∀ v, Steps P (d v)) : Steps P (Re.reset Γ x d) := by
  refine C.noexceptIf (C.bind (C.hasValue x) fun b => ?_)
  cases b
  · exact C.pure ()
  · exact C.bind (C.reDestroyPayload hD hx hd) fun _ => C.bind (C.initEmptyFlag x hx) fun _ => C.assertHas x false

theorem reDtor (hx : S x) (tx : T x) {d : V → M V G Unit} (hd : ∀ v, Steps P (d v)) : Steps P (Re.storageDtor Γ x d) := by
  refine C.noexceptIf (C.bind (C.hasValue x) fun b => ?_)
  cases b
  · exact C.bind (C.pure ()) fun _ => C.release x tx
  · exact C.bind (C.reDestroyPayload hD hx hd) fun _ => C.release x tx

omit hD in
theorem reCtor (hx : S x) (tx : T x) {nt : Bool} {mk : M V G V} (hm : Steps P mk) : Steps P (Re.storageCtor Γ x nt mk) :=
  C.bind (C.allocate x tx) fun _ =>
    C.onThrow (C.bind (C.initEmptyFlag x hx) fun _ => C.constructWith hx hm) (C.release x tx)

omit hD in
theorem reAssign (hx : S x) {nt : Bool} {asg : M V G Unit} {mk : M V G V} (ha : Steps P asg) (hm : Steps P mk) :
    Steps P (Re.assignValue Γ x nt asg mk) := by
  refine C.bind (C.hasValue x) fun b => ?_
  cases b
  · exact C.bind (C.constructWith hx hm) fun _ => C.assertHas x true
  · exact C.bind ha fun _ => C.assertHas x true

omit hD in
theorem reTransfer (hx : S x) (tx : T x) {rv : Bool} {mk : M V G V} (hm : Steps P mk) : Steps P (Re.transfer Γ rv x y mk) := by
  have key : ∀ nt ntC, Steps P (Re.copyOrMoveCtor Γ nt ntC mk x y) := by
    intro nt ntC
    refine C.noexceptIf (C.bind (C.storageDefaultCtor hx tx) fun _ =>
      C.onThrow (C.bind (C.hasValue y) fun b => ?_) (C.storageDtor hx tx))
    cases b
    · exact C.bind (C.assertHas x false) fun _ => C.assertSame x y
    · exact C.bind (C.constructWith hx hm) fun _ => C.assertSame x y
  cases rv
  · exact key _ _
  · exact key _ _

theorem reAssignFrom (hx : S x) {rv : Bool} {asg : M V G Unit} {mk : M V G V} {d : V → M V G Unit} (ha : Steps P asg) (hm : Steps P mk)
    (hd : ∀ v, Steps P (d v)) : Steps P (Re.assignFrom Γ rv x y asg mk d) := by
  have key : ∀ nt ntC, Steps P (Re.copyOrMoveAssign Γ nt ntC asg mk d x y) := by
    intro nt ntC
    refine C.noexceptIf (C.bind (C.hasValue y) fun b => ?_)
    cases b
    · exact C.bind (C.reReset hD hx hd) fun _ => C.assertSame x y
    · exact C.bind (C.reAssign hx ha hm) fun _ => C.assertSame x y
  cases rv
  · exact key _ _
  · exact key _ _

theorem reSwap (hx : S x) (hy : S y) {swp : M V G Unit} {mk : Nat → M V G V} {d : V → M V G Unit} (hs : Steps P swp) (hm : ∀ z, Steps P (mk z))
    (hd : ∀ v, Steps P (d v)) : Steps P (Re.swap Γ x y swp mk d) := by
  refine C.noexceptIf (C.bind (C.hasValue x) fun b => C.bind (C.hasValue y) fun b' => ?_)
  cases b <;> cases b'
  · exact C.pure ()
  · exact C.bind (C.constructWith hx (hm y)) fun _ => C.reReset hD hy hd
  · exact C.bind (C.constructWith hy (hm x)) fun _ => C.reReset hD hx hd
  · exact hs

omit hD in
theorem reResult {dst : Nat} (hx : S dst) (tx : T dst) {mk : Nat → M V G V} (hm : ∀ z, Steps P (mk z)) (r : Returned) : Steps P (Re.result Γ dst mk r) := by
  cases r
  · exact C.pure ()
  · exact C.reTransfer hx tx (hm _)
  · exact C.reTransfer hx tx (hm _)

section
variable {A D R : Type} {l : OptLike V G A} {r : OptLike V G D}

omit hD in
theorem rePayloadCmp (hl : Steps P l.deref) (hr : Steps P r.deref) {cmp : A → D → M V G R} (hc : ∀ a b, Steps P (cmp a b)) :
    Steps P (Re.payloadCmp l r cmp) := C.bind hl fun a => C.bind hr fun b => hc a b

omit hD in
theorem reAnd {a b : M V G Bool} (ha : Steps P a) (hb : Steps P b) : Steps P (andM a b) :=
  C.bind ha fun c => by cases c; exact C.pure _; exact hb

omit hD in
theorem reOr {a b : M V G Bool} (ha : Steps P a) (hb : Steps P b) : Steps P (orM a b) :=
  C.bind ha fun c => by cases c; exact hb; exact C.pure _

omit hD in
theorem reNot {a : M V G Bool} (ha : Steps P a) : Steps P (notM a) := C.bind ha fun _ => C.pure _

omit hD in
theorem reOptRel (hl : Steps P l.hasValue) (hl' : Steps P l.deref) (hr : Steps P r.hasValue) (hr' : Steps P r.deref) (op : Spec.RelOp)
    {cmp : A → D → M V G Bool} (hc : ∀ a b, Steps P (cmp a b)) : Steps P (Re.optRel l r op cmp) := by
  have hp := C.rePayloadCmp hl' hr' hc
  cases op
  · exact C.bind hl fun _ => C.reAnd (C.bind hr fun _ => C.pure _) (C.reOr (C.pure _) hp)
  · exact C.bind hl fun _ => C.reOr (C.bind hr fun _ => C.pure _) (C.reAnd (C.pure _) hp)
  · exact C.reAnd hr (C.reOr (C.reNot hl) hp)
  · exact C.reOr (C.reNot hl) (C.reAnd hr hp)
  · exact C.reAnd hl (C.reOr (C.reNot hr) hp)
  · exact C.reOr (C.reNot hr) (C.reAnd hl hp)

omit hD in
theorem reSpaceship (hl : Steps P l.hasValue) (hl' : Steps P l.deref) (hr : Steps P r.hasValue) (hr' : Steps P r.deref)
    {cmp : A → D → M V G Spec.Cmp} (hc : ∀ a b, Steps P (cmp a b)) : Steps P (Re.optSpaceship l r cmp) :=
  C.bind (C.reAnd hl hr) fun b => by
    cases b
    · exact C.bind hl fun _ => C.bind hr fun _ => C.pure _
    · exact C.rePayloadCmp hl' hr' hc

omit hD in
theorem reCondRel (d : R) {f : V → M V G R} (hf : ∀ v, Steps P (f v)) : Steps P (Re.condRel Γ x d f) :=
  C.bind (C.hasValue x) fun b => by
    cases b
    · exact C.pure d
    · exact C.bind (C.deref x) hf

omit hD in
theorem stdDeref (o : Option A) : Steps P (stdOpt o : OptLike V G A).deref := by
  cases o
  · exact C.ubM _
  · exact C.pure _

omit hD in
theorem reInspect (q : Inspection R) {f : V → M V G R} (hf : ∀ v, Steps P (f v)) : Steps P (Re.inspect Γ x q f) := by
  cases q with
  | withStd flipped op has =>
    cases flipped
    · exact C.reOptRel (l := tinyOpt Γ x) (C.hasValue x) (C.deref x) (C.pure _) (C.stdDeref _) op fun v _ => hf v
    · exact C.reOptRel (r := tinyOpt Γ x) (C.pure _) (C.stdDeref _) (C.hasValue x) (C.deref x) op fun _ v => hf v
  | spaceshipStd flipped has =>
    cases flipped
    · exact C.reSpaceship (l := tinyOpt Γ x) (C.hasValue x) (C.deref x) (C.pure _) (C.stdDeref _) fun v _ => hf v
    · exact C.reSpaceship (r := tinyOpt Γ x) (C.pure _) (C.stdDeref _) (C.hasValue x) (C.deref x) fun _ v => hf v
  | withValue flipped op => cases flipped <;> cases op <;> exact C.reCondRel _ hf
  | spaceshipValue => exact C.reCondRel _ hf
  | hash => exact C.reCondRel 0 hf

end

/-- Every program, legal or not. -/
theorem runProg (p : Prog V G α) (hp : p.Changes B S T) : Steps P (Model.runProg Γ p) := by
  induction p with
  | ret r =>
    cases r with
    | ok a => exact C.pure a
    | error e => exact C.throwE e
  | user f k ih => exact C.bind (C.userPure _) fun g => ih g (hp g)
  | call op k ih => exact C.bind (C.reAttempt (C.execOp' op hp.1 hp.2.1 hp.2.2.1)) fun r => ih r (hp.2.2.2 r)
  | construct x nt ctor k ihc ih => exact C.bind (C.reAttempt (C.reCtor hp.1 hp.2.1 (ihc hp.2.2.1))) fun r => ih r (hp.2.2.2 r)
  | transfer rv x y ctor k ihc ih => exact C.bind (C.reAttempt (C.reTransfer hp.1 hp.2.1 (ihc hp.2.2.1))) fun r => ih r (hp.2.2.2 r)
  | destroy x dtor k ihd ih =>
    exact C.bind (C.reAttempt (C.reDtor hD hp.1 hp.2.1 fun v => ihd v (hp.2.2.1 v))) fun r => ih r (hp.2.2.2 r)
  | reset x dtor k ihd ih => exact C.bind (C.reAttempt (C.reReset hD hp.1 fun v => ihd v (hp.2.1 v))) fun r => ih r (hp.2.2 r)
  | assign x nt asg ctor k iha ihc ih =>
    exact C.bind (C.reAttempt (C.reAssign hp.1 (iha hp.2.1) (ihc hp.2.2.1))) fun r => ih r (hp.2.2.2 r)
  | assignFrom rv x y asg ctor dtor k iha ihc ihd ih =>
    exact C.bind (C.reAttempt (C.reAssignFrom hD hp.1 (iha hp.2.1) (ihc hp.2.2.1) fun v => ihd v (hp.2.2.2.1 v)))
      fun r => ih r (hp.2.2.2.2 r)
  | emplace x nt dtor ctor k ihd ihc ih =>
    exact C.bind (C.reAttempt (C.bind (C.reReset hD hp.1 fun v => ihd v (hp.2.1 v)) fun _ =>
      C.bind (C.constructWith hp.1 (ihc hp.2.2.1)) fun _ => C.bind (C.assertHas x true) fun _ => C.getPayload x)) fun r => ih r (hp.2.2.2 r)
  | swap x y swp ctor dtor k ihs ihc ihd ih =>
    exact C.bind (C.reAttempt (C.reSwap hD hp.1 hp.2.1 (ihs hp.2.2.1) (fun z => ihc z (hp.2.2.2.1 z)) fun v => ihd v (hp.2.2.2.2.1 v)))
      fun r => ih r (hp.2.2.2.2.2 r)
  | valueOr x ctor conv k ihc ihv ih =>
    exact C.bind (C.reAttempt (C.bind (C.hasValue x) fun b => by cases b; exact ihv hp.2.1; exact ihc hp.1)) fun r => ih r (hp.2.2 r)
  | andThen x dst f ctor k ihf ihc ih =>
    refine C.bind (C.reAttempt (C.bind (C.hasValue x) fun b => ?_)) fun r => ih r (hp.2.2.2.2 r)
    cases b
    · exact C.storageDefaultCtor hp.1 hp.2.1
    · exact C.bind (C.assertHas x true) fun _ => C.bind (ihf hp.2.2.1) fun r => C.reResult hp.1 hp.2.1 (fun z => ihc z (hp.2.2.2.1 z)) r
  | transform nt x dst f k ihf ih =>
    refine C.bind (C.reAttempt (C.bind (C.hasValue x) fun b => ?_)) fun r => ih r (hp.2.2.2 r)
    cases b
    · exact C.storageDefaultCtor hp.1 hp.2.1
    · exact C.bind (C.assertHas x true) fun _ => C.reCtor hp.1 hp.2.1 (ihf hp.2.2.1)
  | orElse rv x dst f ctor k ihf ihc ih =>
    refine C.bind (C.reAttempt (C.bind (C.hasValue x) fun b => ?_)) fun r => ih r (hp.2.2.2.2 r)
    cases b
    · exact C.bind (ihf hp.2.2.1) fun r => C.reResult hp.1 hp.2.1 (fun z => ihc z (hp.2.2.2.1 z)) _
    · exact C.reTransfer hp.1 hp.2.1 (ihc x (hp.2.2.2.1 x))
  | compare q x y cmp k ihc ih =>
    refine C.bind (C.reAttempt ?_) fun r => ih r (hp.2 r)
    have hc := fun a b => ihc a b (hp.1 a b)
    cases q with
    | rel op => exact C.reOptRel (l := tinyOpt Γ x) (r := tinyOpt Γ y) (C.hasValue x) (C.deref x) (C.hasValue y) (C.deref y) op hc
    | spaceship => exact C.reSpaceship (l := tinyOpt Γ x) (r := tinyOpt Γ y) (C.hasValue x) (C.deref x) (C.hasValue y) (C.deref y) hc
  | inspect q x f k ihf ih => exact C.bind (C.reAttempt (C.reInspect q fun v => ihf v (hp.1 v))) fun r => ih r (hp.2 r)

end Closed

theorem _root_.Verif.Prog.changes_all (p : Prog V G α) : p.Changes (fun _ => True) (fun _ => True) (fun _ => True) := by
  induction p <;> simp_all [Prog.Changes]

theorem life_runProg (Γ : Env V G) (p : Prog V G α) (g : G) : Life (Model.runProg Γ p (.init g)).2 :=
  (life_closed Γ).runProg (fun x _ => life_destroyPayload _ _ x) p p.changes_all _ (life_init g)

end

end Verif.Model
