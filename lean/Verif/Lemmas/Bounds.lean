import Verif.Lemmas.Basic
import Verif.Spec.Reserved

/-! Helper lemmas: with a well formed configuration no operation attempts an access outside of the optional. -/

namespace Verif.Model

section
variable {V G α β : Type}

/-- No run of `m` attempts an access outside of the storage of an optional. -/
def InB (m : M V G α) : Prop := ∀ w, (m w).1 ≠ .abort (.ub .outOfBounds)

namespace InB

theorem pure (a : α) : InB (Pure.pure a : M V G α) := fun _ h => by cases h
theorem mpure (a : α) : InB (M.pure a : M V G α) := fun _ h => by cases h
theorem throwE (e : Exn) : InB (Model.throwE e : M V G α) := fun _ h => by cases h
theorem ubM {k : UB} (hk : k ≠ .outOfBounds) : InB (Model.ubM k : M V G α) := fun _ h => by cases h; exact hk rfl
theorem assertFail : InB (abortM .assertFail : M V G α) := fun _ h => by cases h

theorem bind {m : M V G α} {f : α → M V G β} (hm : InB m) (hf : ∀ a, InB (f a)) : InB (m >>= f) := by
  intro w
  have h1 := hm w
  rcases hw : m w with ⟨a | e | k, w'⟩ <;> rw [hw] at h1
  · rw [bind_ok hw]; exact hf a w'
  · rw [bind_throw hw]; nofun
  · rw [bind_abort hw]; intro h; cases h; exact h1 rfl

theorem mbind {m : M V G α} {f : α → M V G β} (hm : InB m) (hf : ∀ a, InB (f a)) : InB (M.bind m f) := bind hm hf

theorem noexceptIf {b : Bool} {m : M V G α} (hm : InB m) : InB (Model.noexceptIf b m) := by
  intro w
  have h1 := hm w
  unfold Model.noexceptIf
  rcases hw : m w with ⟨a | e | k, w'⟩ <;> rw [hw] at h1
  · exact h1
  · cases b <;> nofun
  · exact h1

theorem onThrow {m : M V G α} {h : M V G Unit} (hm : InB m) (hh : InB h) : InB (Model.onThrow m h) := by
  intro w
  have h1 := hm w
  unfold Model.onThrow
  rcases hw : m w with ⟨a | e | k, w'⟩ <;> rw [hw] at h1
  · exact h1
  · have h2 := hh w'
    simp only []
    rcases hw' : h w' with ⟨a | e | k, w''⟩ <;> rw [hw'] at h2
    · nofun
    · nofun
    · intro h; cases h; exact h2 rfl
  · exact h1

theorem assertM {nd : Bool} {c : M V G Bool} (hc : InB c) : InB (Model.assertM nd c) := by
  unfold Model.assertM
  split
  · exact mpure ()
  · exact mbind hc fun b => by cases b <;> first | exact assertFail | exact mpure ()

theorem liftE {r : Except UB α} (hr : r ≠ .error .outOfBounds) : InB (Model.liftE r : M V G α) := by
  cases r with
  | ok a => exact mpure a
  | error k => exact ubM fun h => hr (by rw [h])

theorem userCall (f : G → Except Exn α × G) : InB (Model.userCall f : M V G α) := by
  intro w
  unfold Model.userCall
  rcases f w.user with ⟨r | r, g⟩ <;> nofun
theorem userPure (f : G → α × G) : InB (Model.userPure f : M V G α) := fun _ => nofun
theorem emit (e : Event) : InB (Model.emit e : M V G Unit) := fun _ => nofun
theorem readStorage (x : Nat) : InB (Model.readStorage x : M V G _) := by
  intro w; unfold Model.readStorage; cases w.mem x <;> nofun
theorem writeStorage (x : Nat) (s : Storage V) : InB (Model.writeStorage x s : M V G _) := fun _ => nofun
theorem freshId : InB (Model.freshId : M V G Nat) := fun _ => nofun
theorem allocate (x : Nat) : InB (Model.allocate x : M V G _) := by
  intro w; unfold Model.allocate; cases w.mem x <;> nofun
theorem release (x : Nat) : InB (Model.release x : M V G _) := by
  intro w; unfold Model.release; cases w.mem x <;> nofun

end InB

theorem memcmpEq_inBounds (b : Nat → Option Byte) (off : Nat) (l : List Byte) : memcmpEq b off l ≠ .error .outOfBounds := by
  induction l generalizing off with
  | nil => nofun
  | cons c cs ih =>
    unfold memcmpEq
    split
    · nofun
    · have := ih (off + 1)
      split
      · rename_i h; rw [h] at this; intro hk; cases hk; exact this rfl
      · nofun

theorem isEmpty_inBounds {c : Config V} (hc : c.WF) (s : Storage V) : c.isEmpty s ≠ .error .outOfBounds := by
  have hr : c.readFlag s ≠ .error .outOfBounds := by
    unfold Config.readFlag
    split
    · split <;> nofun
    · split <;> nofun
  unfold Config.isEmpty
  split
  · unfold readBool; split
    · nofun
    · split
      · nofun
      · split <;> nofun
  · rename_i sent hm
    rw [if_pos (by have := hc.inside; have := hc.sentinelFits sent hm; omega)]
    exact memcmpEq_inBounds _ _ _
  · split
    · nofun
    · rename_i h; rw [h] at hr; intro hk; cases hk; exact hr rfl
  · split
    · nofun
    · rename_i h; rw [h] at hr; intro hk; cases hk; exact hr rfl

theorem initFlag_inBounds {c : Config V} (hc : c.WF) (id : Nat) (s : Storage V) : c.initFlag id s ≠ .error .outOfBounds := by
  have key : ∀ (fo : FObj V) (n : Nat) (f : Nat → Option Byte), n ≤ c.loc.size →
      (if s.payload.isSome ∨ s.flag.isSome then (.error .overLive : Except UB (Storage V × Bool))
      else if c.size < c.loc.off + n then .error .outOfBounds
      else .ok ({ s with bytes := fill s.bytes c.loc.off n f, flag := some fo }, true)) ≠ .error .outOfBounds := by
    intro fo n f hn
    split
    · nofun
    · rw [if_neg (by have := hc.inside; omega)]; nofun
  unfold Config.initFlag
  cases hm : c.manip with
  | separate => nofun
  | memcpy sent => exact key _ _ _ (hc.sentinelFits sent hm)
  | assign sv eq => exact key _ _ _ (Nat.le_refl _)
  | custom p ev => exact key _ _ _ (Nat.le_refl _)

variable {Γ : Env V G} (hΓ : ∀ x, (Γ x).cfg.WF)

/-- Splits a program into its primitives. -/
macro "inb" : tactic => `(tactic| repeat' first
  | assumption
  | (refine InB.bind ?_ fun _ => ?_) | (refine InB.noexceptIf ?_) | (refine InB.onThrow ?_ ?_) | (refine InB.assertM ?_)
  | exact InB.pure _ | exact InB.throwE _ | exact InB.ubM (by decide) | exact InB.readStorage _ | exact InB.writeStorage _ _
  | exact InB.freshId | exact InB.allocate _ | exact InB.release _ | exact InB.userCall _ | exact InB.userPure _ | exact InB.emit _
  | split)

namespace InB

theorem getPayload (x : Nat) : InB (Model.getPayload x : M V G V) := by unfold Model.getPayload; inb
theorem setPayload (c : Config V) (x : Nat) (v : V) : InB (Model.setPayload c x v : M V G Unit) := by unfold Model.setPayload; inb
theorem newPayload (c : Config V) (x : Nat) (v : V) : InB (Model.newPayload c x v : M V G Unit) := by unfold Model.newPayload; inb
theorem destroy (c : Config V) (d : V → G → G) (x : Nat) : InB (destroyPayload c d x : M V G Unit) := by unfold destroyPayload; inb
theorem invalidate (c : Config V) (d : V → G → G) (x : Nat) : InB (invalidateEmptyFlag c d x : M V G Unit) := by
  unfold invalidateEmptyFlag; inb
theorem checkE (e : Option Exn) : InB (Model.checkE e : M V G Unit) := by cases e <;> simp only [Model.checkE] <;> inb

macro "inb'" : tactic => `(tactic| (inb <;> repeat' first
  | exact InB.getPayload _ | exact InB.setPayload _ _ _ | exact InB.newPayload _ _ _ | exact InB.destroy _ _ _ | exact InB.invalidate _ _ _
  | exact InB.checkE _))

theorem evalArg (o : Ops V G) (a : Arg V G) : InB (Model.evalArg Γ o a) := by cases a <;> simp only [Model.evalArg] <;> inb'
theorem payloadAssign (x : Nat) (a : AArg V G) : InB (Model.payloadAssign Γ x a) := by
  cases a <;> simp only [Model.payloadAssign] <;> inb'

include hΓ

theorem hasValue (x : Nat) : InB (Model.hasValue Γ x) := by
  unfold Model.hasValue; inb; exact liftE (isEmpty_inBounds (hΓ x) _)
theorem initEmptyFlag (x : Nat) : InB (Model.initEmptyFlag (Γ x).cfg x : M V G Unit) := by
  unfold Model.initEmptyFlag; inb; exact liftE (initFlag_inBounds (hΓ x) _ _)
theorem assertHas (x : Nat) (b : Bool) : InB (Model.assertHas Γ x b) := by
  have h := hasValue hΓ x
  unfold Model.assertHas; inb
theorem assertSame (x y : Nat) : InB (Model.assertSame Γ x y) := by
  have h := hasValue hΓ x; have h' := hasValue hΓ y
  unfold Model.assertSame; inb
theorem constructWith (x : Nat) (nt : Bool) {mk : M V G V} (hmk : InB mk) : InB (Model.constructWith Γ x nt mk) := by
  have h := assertHas hΓ x false; have h' := assertHas hΓ x true; have h'' := initEmptyFlag hΓ x
  unfold Model.constructWith; inb'
theorem constructPayload (x : Nat) (a : Arg V G) : InB (Model.constructPayload Γ x a) :=
  constructWith hΓ x _ (evalArg _ a)
theorem reset (x : Nat) : InB (Model.reset Γ x) := by
  have h := assertHas hΓ x false; have h' := hasValue hΓ x; have h'' := initEmptyFlag hΓ x
  unfold Model.reset; inb'
theorem assignValue (x : Nat) (a : AArg V G) : InB (Model.assignValue Γ x a) := by
  have h := assertHas hΓ x true; have h' := hasValue hΓ x; have h'' := constructPayload hΓ x a.toArg
  have h3 := payloadAssign (Γ := Γ) x a
  unfold Model.assignValue; inb
theorem storageDefaultCtor (x : Nat) : InB (Model.storageDefaultCtor Γ x) := by
  have h := assertHas hΓ x false; have h'' := initEmptyFlag hΓ x
  unfold Model.storageDefaultCtor; inb
theorem storageInPlaceCtor (x : Nat) (a : Arg V G) : InB (Model.storageInPlaceCtor Γ x a) := by
  have h := constructPayload hΓ x a; have h'' := initEmptyFlag hΓ x
  unfold Model.storageInPlaceCtor; inb
theorem storageFunctionCtor (x : Nat) {nt : Bool} {call : M V G V} (hc : InB call) : InB (Model.storageFunctionCtor Γ x nt call) := by
  have h := constructWith hΓ x nt hc; have h'' := initEmptyFlag hΓ x
  unfold Model.storageFunctionCtor constructPayloadFromFunction; inb
theorem storageDtor (x : Nat) : InB (Model.storageDtor Γ x) := by
  have h := hasValue hΓ x
  unfold Model.storageDtor; inb'
theorem copyOrMoveCtor (nt : Bool) (a : Arg V G) (x y : Nat) : InB (Model.copyOrMoveCtor Γ nt a x y) := by
  have h := storageDefaultCtor hΓ x; have h1 := hasValue hΓ y; have h2 := constructPayload hΓ x a
  have h3 := assertHas hΓ x false; have h4 := assertSame hΓ x y; have h5 := storageDtor hΓ x
  unfold Model.copyOrMoveCtor; inb
theorem copyOrMoveAssign (nt : Bool) (a : AArg V G) (x y : Nat) : InB (Model.copyOrMoveAssign Γ nt a x y) := by
  have h1 := hasValue hΓ y; have h2 := assignValue hΓ x a
  have h3 := reset hΓ x; have h4 := assertSame hΓ x y
  unfold Model.copyOrMoveAssign; inb
theorem deref (x : Nat) : InB (Model.deref Γ x) := by
  have h := assertHas hΓ x true
  unfold Model.deref; inb'
theorem swap (x y : Nat) : InB (Model.swap Γ x y) := by
  have h1 := hasValue hΓ x; have h2 := hasValue hΓ y; have h3 := reset hΓ x; have h4 := reset hΓ y
  have h5 := constructPayload hΓ x (.moveOf y); have h6 := constructPayload hΓ y (.moveOf x)
  unfold Model.swap; inb'
theorem materialize (x : Nat) (r : Option V) : InB (Model.materialize Γ x r) := by
  cases r
  · exact storageDefaultCtor hΓ x
  · exact storageInPlaceCtor hΓ x _

/-- Every call of the public interface. -/
theorem execOp (op : Op V G) : InB (Model.execOp Γ op) := by
  cases op with
  | ctorDefault x => exact bind (storageDefaultCtor hΓ x) fun _ => pure _
  | ctorInPlace x a => exact bind (storageInPlaceCtor hΓ x a) fun _ => pure _
  | ctorCopy x y => exact bind (copyOrMoveCtor hΓ _ _ x y) fun _ => pure _
  | ctorMove x y => exact bind (copyOrMoveCtor hΓ _ _ x y) fun _ => pure _
  | dtor x => exact bind (storageDtor hΓ x) fun _ => pure _
  | reset x => exact bind (reset hΓ x) fun _ => pure _
  | assignNullopt x => exact bind (noexceptIf (reset hΓ x)) fun _ => pure _
  | assignVal x a => exact bind (assignValue hΓ x a) fun _ => pure _
  | assignScalar x tmp a =>
    exact bind (bind (storageInPlaceCtor hΓ tmp a) fun _ =>
      bind (onThrow (copyOrMoveAssign hΓ _ _ x tmp) (storageDtor hΓ tmp)) fun _ => storageDtor hΓ tmp) fun _ => pure _
  | assignCopy x y => exact bind (copyOrMoveAssign hΓ _ _ x y) fun _ => pure _
  | assignMove x y => exact bind (copyOrMoveAssign hΓ _ _ x y) fun _ => pure _
  | emplace x a =>
    exact bind (bind (reset hΓ x) fun _ => bind (constructPayload hΓ x a) fun _ => bind (assertHas hΓ x true) fun _ => getPayload x)
      fun _ => pure _
  | swap x y => exact bind (swap hΓ x y) fun _ => pure _
  | hasValue x => exact bind (hasValue hΓ x) fun _ => pure _
  | deref x => exact bind (deref hΓ x) fun _ => pure _
  | value x =>
    have h := hasValue hΓ x
    simp only [Model.execOp, value]; inb'
  | valueOr rv x d =>
    have h := hasValue hΓ x
    have h' := fun a => evalArg (Γ := Γ) (Γ x).ops a
    simp only [Model.execOp, valueOr]; inb
  | modify x f =>
    have h := deref hΓ x
    simp only [Model.execOp, modify]; inb'
  | andThen x dst f =>
    refine bind (bind (hasValue hΓ x) fun b => ?_) fun _ => pure _
    cases b
    · exact storageDefaultCtor hΓ dst
    · refine bind (bind (deref hΓ x) fun v => bind (userPure _) fun p => bind (setPayload _ x _) fun _ => ?_) fun r => materialize hΓ dst r
      rcases p with ⟨r | r, v'⟩
      · exact throwE _
      · exact pure _
  | transform nt x dst f =>
    refine bind (bind (hasValue hΓ x) fun b => ?_) fun _ => pure _
    cases b
    · exact storageDefaultCtor hΓ dst
    · refine bind (assertHas hΓ x true) fun _ => storageFunctionCtor hΓ dst (bind (getPayload x) fun v =>
        bind (userPure _) fun p => bind (setPayload _ x _) fun _ => ?_)
      rcases p with ⟨r | r, v'⟩
      · exact throwE _
      · exact pure _
  | orElse rv x dst f =>
    refine bind (bind (hasValue hΓ x) fun b => ?_) fun _ => pure _
    cases b
    · exact bind (userCall f) fun r => materialize hΓ dst r
    · cases rv <;> exact copyOrMoveCtor hΓ _ _ dst x

end InB
end
end Verif.Model
