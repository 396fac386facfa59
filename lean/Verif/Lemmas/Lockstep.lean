import Verif.Model.History
import Verif.Model.Compare
import Verif.Lemmas.Reserved

/-! Helper lemmas: running the library code with two environments in lockstep. -/

namespace Verif.Model

section
variable {V G : Type} {Γ Γ' : Env V G}

/-- A relation `Q` between programs that respects control flow and relates the primitives of the two environments. -/
structure Lockstep (Q : ∀ {α : Type}, M V G α → M V G α → Prop) (Γ Γ' : Env V G) : Prop where
  refl : ∀ {α : Type} (m : M V G α), Q m m
  bind : ∀ {α β : Type} {m m' : M V G α} {f f' : α → M V G β}, Q m m' → (∀ a, Q (f a) (f' a)) → Q (m >>= f) (m' >>= f')
  onThrow : ∀ {α : Type} {m m' : M V G α} {h h' : M V G Unit}, Q m m' → Q h h' → Q (onThrow m h) (onThrow m' h')
  noexceptIf : ∀ {α : Type} {m m' : M V G α} (b : Bool), Q m m' → Q (noexceptIf b m) (noexceptIf b m')
  ops : ∀ x, (Γ' x).ops = (Γ x).ops
  hasValue : ∀ x, Q (hasValue Γ x) (hasValue Γ' x)
  assertHas : ∀ x b, Q (assertHas Γ x b) (assertHas Γ' x b)
  assertSame : ∀ x y, Q (assertSame Γ x y) (assertSame Γ' x y)
  init : ∀ x, Q (initEmptyFlag (Γ x).cfg x) (initEmptyFlag (Γ' x).cfg x)
  inval : ∀ x d, Q (invalidateEmptyFlag (Γ x).cfg d x) (invalidateEmptyFlag (Γ' x).cfg d x)
  destroy : ∀ x d, Q (destroyPayload (Γ x).cfg d x) (destroyPayload (Γ' x).cfg d x)
  newPayload : ∀ x v, Q (newPayload (Γ x).cfg x v) (newPayload (Γ' x).cfg x v)
  setPayload : ∀ x v, Q (setPayload (Γ x).cfg x v) (setPayload (Γ' x).cfg x v)

namespace Lockstep
variable {Q : ∀ {α : Type}, M V G α → M V G α → Prop} (L : Lockstep (V := V) (G := G) Q Γ Γ')
include L

omit L in
theorem ite {α : Type} {b : Bool} {m m' n n' : M V G α} (h1 : Q m m') (h2 : Q n n') :
    Q (if b then m else n) (if b then m' else n') := by
  cases b
  · exact h2
  · exact h1

theorem evalArg (o : Ops V G) (a : Arg V G) : Q (evalArg Γ o a) (evalArg Γ' o a) := by
  cases a with
  | ext nt c => exact L.refl _
  | copyOf y => exact L.refl _
  | moveOf y => exact L.bind (L.refl _) fun v => L.bind (L.refl _) fun p => L.bind (L.setPayload _ _) fun _ => L.refl _

theorem constructWith (x : Nat) (nt : Bool) {mk mk' : M V G V} (h : Q mk mk') :
    Q (constructWith Γ x nt mk) (constructWith Γ' x nt mk') := by
  unfold Model.constructWith
  rw [L.ops]
  refine L.noexceptIf _ (L.bind (L.assertHas _ _) fun _ => L.bind (L.inval _ _) fun _ => ?_)
  exact Lockstep.ite (L.bind h fun _ => L.bind (L.newPayload _ _) fun _ => L.assertHas _ _)
    (L.bind (L.onThrow (L.bind h fun _ => L.newPayload _ _) (L.init _)) fun _ => L.assertHas _ _)

theorem constructPayload (x : Nat) (a : Arg V G) : Q (constructPayload Γ x a) (constructPayload Γ' x a) := by
  unfold Model.constructPayload
  rw [L.ops]
  exact L.constructWith _ _ (L.evalArg _ _)

theorem reset (x : Nat) : Q (reset Γ x) (reset Γ' x) := by
  unfold Model.reset destroyPayloadOf
  rw [L.ops]
  refine L.noexceptIf _ (L.bind (L.hasValue _) fun b => Lockstep.ite ?_ (L.refl _))
  exact L.bind (L.destroy _ _) fun _ => L.bind (L.init _) fun _ => L.assertHas _ _

theorem payloadAssign (x : Nat) (a : AArg V G) : Q (payloadAssign Γ x a) (payloadAssign Γ' x a) := by
  cases a with
  | ext f nt c =>
    exact L.bind (L.refl _) fun _ => L.bind (L.refl _) fun p => L.bind (L.setPayload _ _) fun _ => L.refl _
  | copyOf y =>
    unfold Model.payloadAssign
    rw [L.ops]
    exact L.bind (L.refl _) fun _ => L.bind (L.refl _) fun _ => L.bind (L.refl _) fun p =>
      L.bind (L.setPayload _ _) fun _ => L.refl _
  | moveOf y =>
    unfold Model.payloadAssign
    rw [L.ops]
    refine L.bind (L.refl _) fun _ => L.bind (L.refl _) fun _ => ?_
    by_cases h : x = y
    · simp only [if_pos h]
      exact L.bind (L.refl _) fun p => L.bind (L.setPayload _ _) fun _ => L.refl _
    · simp only [if_neg h]
      exact L.bind (L.refl _) fun p => L.bind (L.setPayload _ _) fun _ => L.bind (L.setPayload _ _) fun _ => L.refl _

theorem assignValue (x : Nat) (a : AArg V G) : Q (assignValue Γ x a) (assignValue Γ' x a) := by
  unfold Model.assignValue
  refine L.bind (L.hasValue _) fun b => ?_
  exact Lockstep.ite (L.bind (L.payloadAssign _ _) fun _ => L.assertHas _ _)
    (L.bind (L.constructPayload _ _) fun _ => L.assertHas _ _)

theorem storageDefaultCtor (x : Nat) : Q (storageDefaultCtor Γ x) (storageDefaultCtor Γ' x) :=
  L.noexceptIf _ (L.bind (L.refl _) fun _ => L.bind (L.init _) fun _ => L.assertHas _ _)

theorem storageInPlaceCtor (x : Nat) (a : Arg V G) : Q (storageInPlaceCtor Γ x a) (storageInPlaceCtor Γ' x a) :=
  L.bind (L.refl _) fun _ => L.onThrow (L.bind (L.init _) fun _ => L.constructPayload _ _) (L.refl _)

theorem storageFunctionCtor (x : Nat) {nt : Bool} {c c' : M V G V} (h : Q c c') :
    Q (storageFunctionCtor Γ x nt c) (storageFunctionCtor Γ' x nt c') := by
  unfold Model.storageFunctionCtor constructPayloadFromFunction
  exact L.bind (L.refl _) fun _ => L.onThrow (L.bind (L.init _) fun _ => L.constructWith _ _ h) (L.refl _)

theorem storageDtor (x : Nat) : Q (storageDtor Γ x) (storageDtor Γ' x) := by
  unfold Model.storageDtor destroyPayloadOf
  rw [L.ops]
  exact L.noexceptIf _ (L.bind (L.hasValue _) fun b => Lockstep.ite (L.bind (L.destroy _ _) fun _ => L.refl _) (L.refl _))

theorem copyOrMoveCtor (nt : Bool) (a : Arg V G) (x y : Nat) : Q (copyOrMoveCtor Γ nt a x y) (copyOrMoveCtor Γ' nt a x y) :=
  L.noexceptIf _ (L.bind (L.storageDefaultCtor _) fun _ => L.onThrow (L.bind (L.hasValue _) fun _ =>
    Lockstep.ite (L.bind (L.constructPayload _ _) fun _ => L.assertSame _ _)
      (L.bind (L.assertHas _ _) fun _ => L.assertSame _ _)) (L.storageDtor _))

theorem copyOrMoveAssign (nt : Bool) (a : AArg V G) (x y : Nat) :
    Q (copyOrMoveAssign Γ nt a x y) (copyOrMoveAssign Γ' nt a x y) :=
  L.noexceptIf _ (L.bind (L.hasValue _) fun _ => Lockstep.ite (L.bind (L.assignValue _ _) fun _ => L.assertSame _ _)
    (L.bind (L.reset _) fun _ => L.assertSame _ _))

theorem moveCtor (x y : Nat) : Q (moveCtor Γ x y) (moveCtor Γ' x y) := by
  unfold Model.moveCtor
  rw [L.ops]
  exact L.copyOrMoveCtor _ _ _ _

theorem moveAssign (x y : Nat) : Q (moveAssign Γ x y) (moveAssign Γ' x y) := by
  unfold Model.moveAssign
  rw [L.ops]
  exact L.copyOrMoveAssign _ _ _ _

theorem emplace (x : Nat) (a : Arg V G) : Q (emplace Γ x a) (emplace Γ' x a) :=
  L.bind (L.reset _) fun _ => L.bind (L.constructPayload _ _) fun _ => L.bind (L.assertHas _ _) fun _ => L.refl _

theorem deref (x : Nat) : Q (deref Γ x) (deref Γ' x) := L.noexceptIf _ (L.bind (L.assertHas _ _) fun _ => L.refl _)

theorem value (x : Nat) : Q (value Γ x) (value Γ' x) := L.bind (L.hasValue _) fun _ => Lockstep.ite (L.refl _) (L.refl _)

theorem valueOr (rv : Bool) (x : Nat) (d : G → Except Exn V × G) : Q (valueOr Γ rv x d) (valueOr Γ' rv x d) := by
  unfold Model.valueOr
  rw [L.ops]
  exact L.bind (L.hasValue _) fun b => Lockstep.ite (L.evalArg _ _) (L.refl _)

theorem modify (x : Nat) (f : V → G → Option Exn × V × G) : Q (modify Γ x f) (modify Γ' x f) :=
  L.bind (L.deref _) fun _ => L.bind (L.refl _) fun _ => L.bind (L.setPayload _ _) fun _ => L.refl _

theorem swap (x y : Nat) : Q (swap Γ x y) (swap Γ' x y) := by
  unfold Model.swap
  rw [L.ops]
  refine L.noexceptIf _ (L.bind (L.hasValue _) fun a => L.bind (L.hasValue _) fun b => Lockstep.ite (Lockstep.ite ?_ (L.refl _)) (Lockstep.ite ?_ ?_))
  · refine L.bind (L.refl _) fun _ => L.bind (L.refl _) fun _ => ?_
    by_cases h : x = y
    · simp only [if_pos h]
      exact L.bind (L.refl _) fun p => L.bind (L.setPayload _ _) fun _ => L.refl _
    · simp only [if_neg h]
      exact L.bind (L.refl _) fun p => L.bind (L.setPayload _ _) fun _ => L.bind (L.setPayload _ _) fun _ => L.refl _
  · exact L.bind (L.constructPayload _ _) fun _ => L.reset _
  · exact L.bind (L.constructPayload _ _) fun _ => L.reset _

theorem materialize (dst : Nat) (o : Option V) : Q (materialize Γ dst o) (materialize Γ' dst o) := by
  cases o with
  | none => exact L.storageDefaultCtor _
  | some u => exact L.storageInPlaceCtor _ _

theorem invokeOn {α : Type} (x : Nat) (f : V → G → Except Exn α × V × G) : Q (invokeOn Γ x f) (invokeOn Γ' x f) :=
  L.bind (L.deref _) fun _ => L.bind (L.refl _) fun _ => L.bind (L.setPayload _ _) fun _ => L.refl _

theorem execOp (op : Op V G) : Q (execOp Γ op) (execOp Γ' op) := by
  cases op with
  | ctorDefault x => exact L.bind (L.storageDefaultCtor _) fun _ => L.refl _
  | ctorInPlace x a => exact L.bind (L.storageInPlaceCtor _ _) fun _ => L.refl _
  | ctorCopy x y => exact L.bind (L.copyOrMoveCtor _ _ _ _) fun _ => L.refl _
  | ctorMove x y => exact L.bind (L.moveCtor _ _) fun _ => L.refl _
  | dtor x => exact L.bind (L.storageDtor _) fun _ => L.refl _
  | reset x => exact L.bind (L.reset _) fun _ => L.refl _
  | assignNullopt x => exact L.bind (L.noexceptIf _ (L.reset _)) fun _ => L.refl _
  | assignVal x a => exact L.bind (L.assignValue _ _) fun _ => L.refl _
  | assignScalar x tmp a =>
    exact L.bind (L.bind (L.storageInPlaceCtor _ _) fun _ => L.bind (L.onThrow (L.moveAssign _ _) (L.storageDtor _)) fun _ =>
      L.storageDtor _) fun _ => L.refl _
  | assignCopy x y => exact L.bind (L.copyOrMoveAssign _ _ _ _) fun _ => L.refl _
  | assignMove x y => exact L.bind (L.moveAssign _ _) fun _ => L.refl _
  | emplace x a => exact L.bind (L.emplace _ _) fun _ => L.refl _
  | swap x y => exact L.bind (L.swap _ _) fun _ => L.refl _
  | hasValue x => exact L.bind (L.hasValue _) fun _ => L.refl _
  | deref x => exact L.bind (L.deref _) fun _ => L.refl _
  | value x => exact L.bind (L.value _) fun _ => L.refl _
  | valueOr rv x d => exact L.bind (L.valueOr _ _ _) fun _ => L.refl _
  | modify x f => exact L.bind (L.modify _ _) fun _ => L.refl _
  | andThen x dst f =>
    exact L.bind (L.bind (L.hasValue _) fun b => Lockstep.ite (L.bind (L.invokeOn _ _) fun r => L.materialize _ _)
      (L.storageDefaultCtor _)) fun _ => L.refl _
  | transform nt x dst f =>
    refine L.bind (L.bind (L.hasValue _) fun b => Lockstep.ite (L.bind (L.assertHas _ _) fun _ => L.storageFunctionCtor _ ?_)
      (L.storageDefaultCtor _)) fun _ => L.refl _
    exact L.bind (L.refl _) fun _ => L.bind (L.refl _) fun p => L.bind (L.setPayload _ _) fun _ => L.refl _
  | orElse rv x dst f =>
    exact L.bind (L.bind (L.hasValue _) fun b => Lockstep.ite (Lockstep.ite (L.moveCtor _ _) (L.copyOrMoveCtor _ _ _ _))
      (L.bind (L.refl _) fun r => L.materialize _ _)) fun _ => L.refl _

end Lockstep

end

end Verif.Model
