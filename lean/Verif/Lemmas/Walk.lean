import Verif.Lemmas.Basic
import Verif.Spec.Writes

/-! Helper lemmas: a transition property of the primitives carries over to every operation, whatever its outcome. -/

namespace Verif.Model

section
variable {V G α β : Type}

theorem _root_.Verif.Op.remakes_writes (op : Op V G) : ∀ z ∈ op.remakes, z ∈ op.writes := by
  cases op
  case orElse rv x dst f => cases rv <;> simp [Op.remakes, Op.writes]
  all_goals simp_all [Op.remakes, Op.writes]

/-- Every run of `m`, with whatever outcome, relates the worlds before and after by `P`. -/
def Steps (P : World V G → World V G → Prop) (m : M V G α) : Prop := ∀ w, P w (m w).2

/-- `P` is a preorder that is respected by user code and by changing payload values of variables in `S`. -/
structure ClosedB (Γ : Env V G) (S : Nat → Prop) (P : World V G → World V G → Prop) : Prop where
  refl : ∀ w, P w w
  trans : ∀ a b c, P a b → P b c → P a c
  user : ∀ w g, P w { w with user := g }
  setPayload : ∀ x v, S x → Steps P (Model.setPayload (Γ x).cfg x v : M V G Unit)

/-- Additionally `P` is respected by all primitives on the variables in `S`, and by creating and releasing optionals
in `T`. Payload values may be changed in all of `B`. -/
structure Closed (Γ : Env V G) (S T : Nat → Prop) (P : World V G → World V G → Prop) (B : Nat → Prop := S) : Prop extends ClosedB Γ B P where
  sub : ∀ x, S x → B x := by exact fun _ h => h
  initEmptyFlag : ∀ x, S x → Steps P (Model.initEmptyFlag (Γ x).cfg x : M V G Unit)
  invalidate : ∀ x, S x → Steps P (invalidateEmptyFlag (Γ x).cfg (Γ x).ops.dtor x)
  destroy : ∀ x, S x → Steps P (destroyPayloadOf Γ x)
  newPayload : ∀ x v, S x → Steps P (Model.newPayload (Γ x).cfg x v : M V G Unit)
  allocate : ∀ x, T x → Steps P (Model.allocate x : M V G Unit)
  release : ∀ x, T x → Steps P (Model.release x : M V G Unit)

variable {Γ : Env V G} {S T B : Nat → Prop} {P : World V G → World V G → Prop} {x y : Nat}

section
variable (C : ClosedB Γ S P)

namespace ClosedB
include C

/-- Reading does not change the world. -/
theorem of_const {m : M V G α} (h : ∀ w, (m w).2 = w) : Steps P m := fun w => by rw [h w]; exact C.refl w

theorem pure (a : α) : Steps P (Pure.pure a : M V G α) := fun w => C.refl w
theorem throwE (e : Exn) : Steps P (Model.throwE e : M V G α) := fun w => C.refl w
theorem ubM (k : UB) : Steps P (Model.ubM k : M V G α) := fun w => C.refl w

theorem bind {m : M V G α} {f : α → M V G β} (hm : Steps P m) (hf : ∀ a, Steps P (f a)) : Steps P (m >>= f) := by
  intro w
  have h1 := hm w
  rcases hw : m w with ⟨a | e | k, w'⟩ <;> rw [hw] at h1
  · rw [bind_ok hw]; exact C.trans _ _ _ h1 (hf a w')
  · rw [bind_throw hw]; exact h1
  · rw [bind_abort hw]; exact h1

set_option linter.unusedSectionVars false in
theorem noexceptIf {b : Bool} {m : M V G α} (hm : Steps P m) : Steps P (Model.noexceptIf b m) := by
  intro w
  have h1 := hm w
  unfold Model.noexceptIf
  rcases hw : m w with ⟨a | e | k, w'⟩ <;> rw [hw] at h1
  · exact h1
  · cases b <;> exact h1
  · exact h1

theorem onThrow {m : M V G α} {h : M V G Unit} (hm : Steps P m) (hh : Steps P h) : Steps P (Model.onThrow m h) := by
  intro w
  have h1 := hm w
  unfold Model.onThrow
  rcases hw : m w with ⟨a | e | k, w'⟩ <;> rw [hw] at h1
  · exact h1
  · have h2 := hh w'
    simp only []
    rcases hw' : h w' with ⟨a | e | k, w''⟩ <;> rw [hw'] at h2 <;> exact C.trans _ _ _ h1 h2
  · exact h1

theorem assertM {nd : Bool} {c : M V G Bool} (hc : Steps P c) : Steps P (Model.assertM nd c) := by
  unfold Model.assertM
  split
  · exact C.pure ()
  · exact C.bind hc fun b => by
      cases b
      · exact fun w => C.refl w
      · exact C.pure ()

theorem liftE {r : Except UB α} : Steps P (Model.liftE r : M V G α) := by
  cases r <;> exact fun w => C.refl w

theorem readStorage (x : Nat) : Steps P (Model.readStorage x : M V G _) :=
  C.of_const fun w => by unfold Model.readStorage; cases w.mem x <;> rfl

theorem userCall (f : G → Except Exn α × G) : Steps P (Model.userCall f : M V G α) := by
  intro w
  unfold Model.userCall
  rcases f w.user with ⟨r | r, g⟩ <;> exact C.user w g

theorem userPure (f : G → α × G) : Steps P (Model.userPure f : M V G α) := fun w => C.user w _

theorem hasValue (x : Nat) : Steps P (Model.hasValue Γ x) :=
  C.bind (C.readStorage x) fun _ => C.bind C.liftE fun _ => C.pure _

theorem assertHas (x : Nat) (b : Bool) : Steps P (Model.assertHas Γ x b) :=
  C.assertM (C.bind (C.hasValue x) fun _ => C.pure _)

theorem assertSame (x y : Nat) : Steps P (Model.assertSame Γ x y) :=
  C.assertM (C.bind (C.hasValue x) fun _ => C.bind (C.hasValue y) fun _ => C.pure _)

theorem getPayload (x : Nat) : Steps P (Model.getPayload x : M V G V) :=
  C.bind (C.readStorage x) fun s => by
    cases s.payload
    · exact C.ubM _
    · exact C.pure _

theorem checkE (e : Option Exn) : Steps P (Model.checkE e : M V G Unit) := by
  cases e
  · exact C.pure ()
  · exact C.throwE _

theorem evalArg (o : Ops V G) (a : Arg V G) (ha : ∀ z ∈ a.writes, S z) : Steps P (Model.evalArg Γ o a) := by
  cases a with
  | ext nt c => exact C.userCall c
  | copyOf y => exact C.bind (C.getPayload y) fun v => C.userCall _
  | moveOf y =>
    refine C.bind (C.getPayload y) fun v => C.bind (C.userPure _) fun p => C.bind (C.setPayload y _ (ha y (by simp [Arg.writes]))) fun _ => ?_
    rcases p with ⟨r | r, v'⟩
    · exact C.throwE _
    · exact C.pure _

theorem payloadAssign (hx : S x) (a : AArg V G) (ha : ∀ z ∈ a.writes, S z) : Steps P (Model.payloadAssign Γ x a) := by
  cases a with
  | ext f nt c =>
    exact C.bind (C.getPayload x) fun v => C.bind (C.userPure _) fun p => C.bind (C.setPayload x _ hx) fun _ => C.checkE _
  | copyOf y =>
    exact C.bind (C.getPayload x) fun v => C.bind (C.getPayload y) fun s =>
      C.bind (C.userPure _) fun p => C.bind (C.setPayload x _ hx) fun _ => C.checkE _
  | moveOf y =>
    refine C.bind (C.getPayload x) fun v => C.bind (C.getPayload y) fun s => ?_
    split
    · exact C.bind (C.userPure _) fun p => C.bind (C.setPayload x _ hx) fun _ => C.checkE _
    · exact C.bind (C.userPure _) fun p => C.bind (C.setPayload x _ hx) fun _ =>
        C.bind (C.setPayload y _ (ha y (by simp [AArg.writes]))) fun _ => C.checkE _

theorem deref (x : Nat) : Steps P (Model.deref Γ x) :=
  C.noexceptIf (C.bind (C.assertHas x true) fun _ => C.getPayload x)

end ClosedB
end

section
variable (C : Closed Γ S T P B)

namespace Closed
include C

theorem constructWith (hx : S x) {nt : Bool} {mk : M V G V} (hmk : Steps P mk) :
    Steps P (Model.constructWith Γ x nt mk) := by
  refine C.noexceptIf (C.bind (C.assertHas x false) fun _ => C.bind (C.invalidate x hx) fun _ => ?_)
  cases nt
  · exact C.bind (C.onThrow (C.bind hmk fun v => C.newPayload x v hx) (C.initEmptyFlag x hx)) fun _ => C.assertHas x true
  · exact C.bind hmk fun v => C.bind (C.newPayload x v hx) fun _ => C.assertHas x true

theorem constructPayload (hx : S x) (a : Arg V G) (ha : ∀ z ∈ a.writes, B z) : Steps P (Model.constructPayload Γ x a) :=
  C.constructWith hx (C.evalArg _ a ha)

theorem reset (hx : S x) : Steps P (Model.reset Γ x) := by
  refine C.noexceptIf (C.bind (C.hasValue x) fun b => ?_)
  cases b
  · exact C.pure ()
  · exact C.bind (C.destroy x hx) fun _ => C.bind (C.initEmptyFlag x hx) fun _ => C.assertHas x false

theorem assignValue (hx : S x) (a : AArg V G) (ha : ∀ z ∈ a.writes, B z) : Steps P (Model.assignValue Γ x a) := by
  refine C.bind (C.hasValue x) fun b => ?_
  cases b
  · exact C.bind (C.constructPayload hx _ (by cases a <;> exact ha)) fun _ => C.assertHas x true
  · exact C.bind (C.payloadAssign (C.sub x hx) a ha) fun _ => C.assertHas x true

theorem storageDefaultCtor (hx : S x) (tx : T x) : Steps P (Model.storageDefaultCtor Γ x) :=
  C.noexceptIf (C.bind (C.allocate x tx) fun _ => C.bind (C.initEmptyFlag x hx) fun _ => C.assertHas x false)

theorem storageInPlaceCtor (hx : S x) (tx : T x) (a : Arg V G) (ha : ∀ z ∈ a.writes, B z) :
    Steps P (Model.storageInPlaceCtor Γ x a) :=
  C.bind (C.allocate x tx) fun _ =>
    C.onThrow (C.bind (C.initEmptyFlag x hx) fun _ => C.constructPayload hx a ha) (C.release x tx)

theorem storageFunctionCtor (hx : S x) (tx : T x) {nt : Bool} {call : M V G V} (hc : Steps P call) :
    Steps P (Model.storageFunctionCtor Γ x nt call) :=
  C.bind (C.allocate x tx) fun _ =>
    C.onThrow (C.bind (C.initEmptyFlag x hx) fun _ => C.constructWith hx hc) (C.release x tx)

theorem storageDtor (hx : S x) (tx : T x) : Steps P (Model.storageDtor Γ x) := by
  refine C.noexceptIf (C.bind (C.hasValue x) fun b => ?_)
  cases b
  · exact C.bind (C.pure ()) fun _ => C.release x tx
  · exact C.bind (C.destroy x hx) fun _ => C.release x tx

theorem copyOrMoveCtor (hx : S x) (tx : T x) {nt : Bool} (a : Arg V G) (ha : ∀ z ∈ a.writes, B z) :
    Steps P (Model.copyOrMoveCtor Γ nt a x y) := by
  refine C.noexceptIf (C.bind (C.storageDefaultCtor hx tx) fun _ => C.onThrow (C.bind (C.hasValue y) fun b => ?_) (C.storageDtor hx tx))
  cases b
  · exact C.bind (C.assertHas x false) fun _ => C.assertSame x y
  · exact C.bind (C.constructPayload hx a ha) fun _ => C.assertSame x y

theorem copyOrMoveAssign (hx : S x) {nt : Bool} (a : AArg V G) (ha : ∀ z ∈ a.writes, B z) :
    Steps P (Model.copyOrMoveAssign Γ nt a x y) := by
  refine C.noexceptIf (C.bind (C.hasValue y) fun b => ?_)
  cases b
  · exact C.bind (C.reset hx) fun _ => C.assertSame x y
  · exact C.bind (C.assignValue hx a ha) fun _ => C.assertSame x y

theorem swap (hx : S x) (hy : S y) : Steps P (Model.swap Γ x y) := by
  refine C.noexceptIf (C.bind (C.hasValue x) fun b => C.bind (C.hasValue y) fun b' => ?_)
  cases b <;> cases b'
  · exact C.pure ()
  · exact C.bind (C.constructPayload hx _ (by simpa [Arg.writes] using C.sub y hy)) fun _ => C.reset hy
  · exact C.bind (C.constructPayload hy _ (by simpa [Arg.writes] using C.sub x hx)) fun _ => C.reset hx
  · simp only [BEq.rfl, if_true]
    refine C.bind (C.getPayload x) fun a => C.bind (C.getPayload y) fun b => ?_
    split
    · exact C.bind (C.userPure _) fun p => C.bind (C.setPayload x _ (C.sub x hx)) fun _ => C.checkE _
    · exact C.bind (C.userPure _) fun p => C.bind (C.setPayload x _ (C.sub x hx)) fun _ =>
        C.bind (C.setPayload y _ (C.sub y hy)) fun _ => C.checkE _

theorem materialize (hx : S x) (tx : T x) (r : Option V) : Steps P (Model.materialize Γ x r) := by
  cases r
  · exact C.storageDefaultCtor hx tx
  · exact C.storageInPlaceCtor hx tx _ (by simp [Arg.writes])

/-- Every call of the public interface. -/
theorem execOp' (op : Op V G) (hB : ∀ z ∈ op.writes, B z) (hS : ∀ z ∈ op.remakes, S z) (hT : ∀ z ∈ op.lifetimes, T z) : Steps P (Model.execOp Γ op) := by
  cases op with
  | ctorDefault x => exact C.bind (C.storageDefaultCtor (hS x (by simp [Op.remakes])) (hT x (by simp [Op.lifetimes]))) fun _ => C.pure _
  | ctorInPlace x a =>
    exact C.bind (C.storageInPlaceCtor (hS x (by simp [Op.remakes])) (hT x (by simp [Op.lifetimes])) a fun z hz => hB z (by simp [Op.writes, hz])) fun _ => C.pure _
  | ctorCopy x y =>
    exact C.bind (C.copyOrMoveCtor (hS x (by simp [Op.remakes])) (hT x (by simp [Op.lifetimes])) _ fun z hz => by simp [Arg.writes] at hz) fun _ => C.pure _
  | ctorMove x y =>
    exact C.bind (C.copyOrMoveCtor (hS x (by simp [Op.remakes])) (hT x (by simp [Op.lifetimes])) _ fun z hz =>
      hB z (by simp [Arg.writes] at hz; simp [Op.writes, hz])) fun _ => C.pure _
  | dtor x => exact C.bind (C.storageDtor (hS x (by simp [Op.remakes])) (hT x (by simp [Op.lifetimes]))) fun _ => C.pure _
  | reset x => exact C.bind (C.reset (hS x (by simp [Op.remakes]))) fun _ => C.pure _
  | assignNullopt x => exact C.bind (C.noexceptIf (C.reset (hS x (by simp [Op.remakes])))) fun _ => C.pure _
  | assignVal x a =>
    exact C.bind (C.assignValue (hS x (by simp [Op.remakes])) a fun z hz => hB z (by simp [Op.writes, hz])) fun _ => C.pure _
  | assignScalar x tmp a =>
    have hx : S x := hS x (by simp [Op.remakes])
    have ht : S tmp := hS tmp (by simp [Op.remakes])
    have tt : T tmp := hT tmp (by simp [Op.lifetimes])
    exact C.bind (C.bind (C.storageInPlaceCtor ht tt a fun z hz => hB z (by simp [Op.writes, hz])) fun _ =>
      C.bind (C.onThrow (C.copyOrMoveAssign hx (.moveOf tmp) (by simpa [AArg.writes] using C.sub tmp ht)) (C.storageDtor ht tt)) fun _ => C.storageDtor ht tt)
      fun _ => C.pure _
  | assignCopy x y =>
    exact C.bind (C.copyOrMoveAssign (hS x (by simp [Op.remakes])) _ fun z hz => by simp [AArg.writes] at hz) fun _ => C.pure _
  | assignMove x y =>
    exact C.bind (C.copyOrMoveAssign (hS x (by simp [Op.remakes])) _ fun z hz =>
      hB z (by simp [AArg.writes] at hz; simp [Op.writes, hz])) fun _ => C.pure _
  | emplace x a =>
    have hx : S x := hS x (by simp [Op.remakes])
    exact C.bind (C.bind (C.reset hx) fun _ =>
      C.bind (C.constructPayload hx a fun z hz => hB z (by simp [Op.writes, hz])) fun _ =>
      C.bind (C.assertHas x true) fun _ => C.getPayload x) fun _ => C.pure _
  | swap x y => exact C.bind (C.swap (hS x (by simp [Op.remakes])) (hS y (by simp [Op.remakes]))) fun _ => C.pure _
  | hasValue x => exact C.bind (C.hasValue x) fun _ => C.pure _
  | deref x => exact C.bind (C.deref x) fun _ => C.pure _
  | value x =>
    refine C.bind (C.bind (C.hasValue x) fun b => ?_) fun _ => C.pure _
    cases b
    · exact C.throwE _
    · exact C.getPayload x
  | valueOr rv x d =>
    refine C.bind (C.bind (C.hasValue x) fun b => ?_) fun _ => C.pure _
    cases b
    · exact C.userCall d
    · exact C.evalArg _ _ fun z hz => hB z (by cases rv <;> simp_all [Op.writes, Arg.writes])
  | modify x f =>
    exact C.bind (C.bind (C.deref x) fun v => C.bind (C.userPure _) fun p =>
      C.bind (C.setPayload x _ (hB x (by simp [Op.writes]))) fun _ => C.checkE _) fun _ => C.pure _
  | andThen x dst f =>
    have hx : B x := hB x (by simp [Op.writes])
    have hd : S dst := hS dst (by simp [Op.remakes])
    have td : T dst := hT dst (by simp [Op.lifetimes])
    refine C.bind (C.bind (C.hasValue x) fun b => ?_) fun _ => C.pure _
    cases b
    · exact C.storageDefaultCtor hd td
    · refine C.bind (C.bind (C.deref x) fun v => C.bind (C.userPure _) fun p => C.bind (C.setPayload x _ hx) fun _ => ?_) fun r =>
        C.materialize hd td r
      rcases p with ⟨r | r, v'⟩
      · exact C.throwE _
      · exact C.pure _
  | transform nt x dst f =>
    have hx : B x := hB x (by simp [Op.writes])
    have hd : S dst := hS dst (by simp [Op.remakes])
    have td : T dst := hT dst (by simp [Op.lifetimes])
    refine C.bind (C.bind (C.hasValue x) fun b => ?_) fun _ => C.pure _
    cases b
    · exact C.storageDefaultCtor hd td
    · refine C.bind (C.assertHas x true) fun _ => C.storageFunctionCtor hd td (C.bind (C.getPayload x) fun v =>
        C.bind (C.userPure _) fun p => C.bind (C.setPayload x _ hx) fun _ => ?_)
      rcases p with ⟨r | r, v'⟩
      · exact C.throwE _
      · exact C.pure _
  | orElse rv x dst f =>
    have hd : S dst := hS dst (by simp [Op.remakes])
    have td : T dst := hT dst (by simp [Op.lifetimes])
    refine C.bind (C.bind (C.hasValue x) fun b => ?_) fun _ => C.pure _
    cases b
    · exact C.bind (C.userCall f) fun r => C.materialize hd td r
    · cases rv
      · exact C.copyOrMoveCtor hd td _ fun z hz => by simp [Arg.writes] at hz
      · exact C.copyOrMoveCtor hd td _ fun z hz => hB z (by simp [Arg.writes] at hz; simp [Op.writes, hz])

end Closed
end

section
variable (C : Closed Γ S T P)

namespace Closed
include C

/-- Every call of the public interface. -/
theorem execOp (op : Op V G) (hS : ∀ z ∈ op.writes, S z) (hT : ∀ z ∈ op.lifetimes, T z) : Steps P (Model.execOp Γ op) :=
  C.execOp' op hS (fun z hz => hS z (op.remakes_writes z hz)) hT

/-- Whole histories. -/
theorem run (h : List (Op V G)) (hS : ∀ op ∈ h, ∀ z ∈ op.writes, S z)
    (hT : ∀ op ∈ h, ∀ z ∈ op.lifetimes, T z) (w : World V G) : P w (Model.run Γ h w).2 := by
  induction h generalizing w with
  | nil => exact C.refl w
  | cons op rest ih =>
    have h1 := C.execOp op (hS op (by simp)) (hT op (by simp)) w
    have ih' := fun w => ih (fun o ho => hS o (by simp [ho])) (fun o ho => hT o (by simp [ho])) w
    simp only [Model.run]
    rcases hw : Model.execOp Γ op w with ⟨a | e | k, w'⟩ <;> rw [hw] at h1
    · exact C.trans _ _ _ h1 (ih' w')
    · exact C.trans _ _ _ h1 (ih' w')
    · exact h1

end Closed
end
end
end Verif.Model
