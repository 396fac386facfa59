import Verif.Lemmas.History
import Verif.Spec.Threads

/-! Helper lemmas: the two machines agree; which memory library code accesses; isolation of threads. -/

namespace Verif.Model
open Verif.Spec (RelOp Cmp)

/-! ## The two machines agree -/

section agree
variable {V G α β : Type}

/-- The meaning of a program in single steps on the other machine. -/
def toM (p : Steps.M V G α) : M V G α := fun w => p.exec w

theorem exec_andThen (p : Steps.M V G α) (f : Res α → Steps.M V G β) (w : World V G) :
    (p.andThen f).exec w = (f (p.exec w).1).exec (p.exec w).2 := by
  induction p generalizing w with
  | done r => rfl
  | read x k ih => exact ih _ _
  | write x c k ih => exact ih _
  | fresh k ih => exact ih _ _
  | event e k ih => exact ih _
  | user h k ih => exact ih _ _

@[simp] theorem toM_pure (a : α) : toM (Pure.pure a : Steps.M V G α) = Pure.pure a := rfl
@[simp] theorem toM_mpure (a : α) : toM (Steps.M.pure a : Steps.M V G α) = M.pure a := rfl
@[simp] theorem toM_throwE (e : Exn) : toM (Steps.throwE e : Steps.M V G α) = throwE e := rfl
@[simp] theorem toM_abortM (a : Abort) : toM (Steps.abortM a : Steps.M V G α) = abortM a := rfl
@[simp] theorem toM_ubM (k : UB) : toM (Steps.ubM k : Steps.M V G α) = ubM k := rfl

@[simp] theorem toM_bind (p : Steps.M V G α) (f : α → Steps.M V G β) : toM (p >>= f) = (toM p) >>= fun a => toM (f a) := by
  funext w
  show (p.andThen _).exec w = M.bind (toM p) _ w
  rw [exec_andThen]
  unfold M.bind toM
  rcases p.exec w with ⟨a | e | k, w'⟩ <;> rfl

@[simp] theorem toM_mbind (p : Steps.M V G α) (f : α → Steps.M V G β) : toM (p.bind f) = (toM p).bind fun a => toM (f a) :=
  toM_bind p f

@[simp] theorem toM_onThrow (p : Steps.M V G α) (h : Steps.M V G Unit) : toM (Steps.onThrow p h) = onThrow (toM p) (toM h) := by
  funext w
  show (Steps.onThrow p h).exec w = _
  rw [Steps.onThrow, exec_andThen, onThrow]
  unfold toM
  rcases p.exec w with ⟨a | e | k, w'⟩
  · rfl
  · show (h.andThen _).exec w' = _
    rw [exec_andThen]
    show _ = match h.exec w' with | (.ok _, w'') => _ | (.throw _, w'') => _ | (.abort a, w'') => _
    rcases h.exec w' with ⟨a | e | k, w''⟩ <;> rfl
  · rfl

@[simp] theorem toM_noexceptIf (b : Bool) (p : Steps.M V G α) : toM (Steps.noexceptIf b p) = noexceptIf b (toM p) := by
  funext w
  show (Steps.noexceptIf b p).exec w = _
  rw [Steps.noexceptIf, exec_andThen, noexceptIf]
  unfold toM
  rcases p.exec w with ⟨a | e | k, w'⟩
  · rfl
  · cases b <;> rfl
  · rfl

@[simp] theorem toM_attempt (p : Steps.M V G α) : toM (Steps.attempt p) = attempt (toM p) := by
  funext w
  show (Steps.attempt p).exec w = _
  rw [Steps.attempt, exec_andThen, attempt]
  unfold toM
  rcases p.exec w with ⟨a | e | k, w'⟩ <;> rfl

@[simp] theorem toM_ite (c : Prop) [Decidable c] (p q : Steps.M V G α) : toM (if c then p else q) = if c then (toM p) else toM q := by
  split <;> rfl

@[simp] theorem toM_assertM (nd : Bool) (p : Steps.M V G Bool) : toM (Steps.assertM nd p) = assertM nd (toM p) := by
  simp only [Steps.assertM, assertM, toM_ite, toM_mbind, toM_mpure, toM_abortM]

@[simp] theorem toM_liftE (r : Except UB α) : toM (Steps.liftE r : Steps.M V G α) = liftE r := by cases r <;> rfl

@[simp] theorem toM_userCall (f : G → Except Exn α × G) : toM (Steps.userCall f : Steps.M V G α) = userCall f := by
  funext w
  show (Steps.userCall f).exec w = _
  simp only [Steps.userCall, userCall, Steps.M.exec]
  rcases f w.user with ⟨a | a, g⟩ <;> rfl

@[simp] theorem toM_userPure (f : G → α × G) : toM (Steps.userPure f : Steps.M V G α) = userPure f := rfl
@[simp] theorem toM_emit (e : Event) : toM (Steps.emit e : Steps.M V G Unit) = emit e := rfl
@[simp] theorem toM_freshId : toM (Steps.freshId : Steps.M V G Nat) = freshId := rfl
@[simp] theorem toM_writeStorage (x : Nat) (s : Storage V) : toM (Steps.writeStorage x s : Steps.M V G Unit) = writeStorage x s := rfl

@[simp] theorem toM_readStorage (x : Nat) : toM (Steps.readStorage x : Steps.M V G _) = readStorage x := by
  funext w
  show (Steps.readStorage x).exec w = _
  simp only [Steps.readStorage, readStorage, Steps.M.exec]
  rcases w.mem x with _ | s <;> rfl

@[simp] theorem toM_allocate (x : Nat) : toM (Steps.allocate x : Steps.M V G _) = allocate x := by
  funext w
  show (Steps.allocate x).exec w = _
  simp only [Steps.allocate, allocate, Steps.M.exec]
  rcases w.mem x with _ | s <;> rfl

@[simp] theorem toM_release (x : Nat) : toM (Steps.release x : Steps.M V G _) = release x := by
  funext w
  show (Steps.release x).exec w = _
  simp only [Steps.release, release, Steps.M.exec]
  rcases w.mem x with _ | ⟨b, p, f⟩
  · rfl
  · rcases p with _ | p <;> rcases f with _ | f <;> simp [Steps.M.exec]

variable (Γ : Env V G) (x y : Nat)

@[simp] theorem toM_initEmptyFlag (c : Config V) : toM (Steps.initEmptyFlag c x : Steps.M V G _) = initEmptyFlag c x := by
  simp [Steps.initEmptyFlag, initEmptyFlag]

theorem agree_bind {p : Steps.M V G α} {m : M V G α} {f : α → Steps.M V G β} {g : α → M V G β} (h : toM p = m)
    (h' : ∀ a, toM (f a) = g a) : toM (p >>= f) = m >>= g := by
  rw [toM_bind, h]; exact congrArg _ (funext h')

@[simp] theorem toM_destroyPayload (c : Config V) (d : V → G → G) :
    toM (Steps.destroyPayload c d x : Steps.M V G _) = destroyPayload c d x := by
  unfold Steps.destroyPayload destroyPayload
  refine agree_bind (toM_readStorage x) fun s => ?_
  rcases s with ⟨b, p | p, f⟩ <;> simp

@[simp] theorem toM_invalidateEmptyFlag (c : Config V) (d : V → G → G) :
    toM (Steps.invalidateEmptyFlag c d x : Steps.M V G _) = invalidateEmptyFlag c d x := by
  unfold Steps.invalidateEmptyFlag invalidateEmptyFlag
  refine agree_bind (toM_readStorage x) fun s => ?_
  rcases s with ⟨b, p | p, f | f⟩ <;> cases c.manip <;> cases c.decomp <;> simp

@[simp] theorem toM_newPayload (c : Config V) (v : V) : toM (Steps.newPayload c x v : Steps.M V G _) = newPayload c x v := by
  simp [Steps.newPayload, newPayload]

@[simp] theorem toM_getPayload : toM (Steps.getPayload x : Steps.M V G V) = getPayload x := by
  unfold Steps.getPayload getPayload
  refine agree_bind (toM_readStorage x) fun s => ?_
  rcases s with ⟨b, p | p, f⟩ <;> simp

@[simp] theorem toM_setPayload (c : Config V) (v : V) : toM (Steps.setPayload c x v : Steps.M V G _) = setPayload c x v := by
  unfold Steps.setPayload setPayload
  refine agree_bind (toM_readStorage x) fun s => ?_
  rcases s with ⟨b, p | p, f⟩ <;> simp

@[simp] theorem toM_checkE (e : Option Exn) : toM (Steps.checkE e : Steps.M V G Unit) = checkE e := by cases e <;> rfl

@[simp] theorem toM_hasValue : toM (Steps.hasValue Γ x) = hasValue Γ x := by simp [Steps.hasValue, hasValue]

@[simp] theorem toM_assertHas (b : Bool) : toM (Steps.assertHas Γ x b) = assertHas Γ x b := by simp [Steps.assertHas, assertHas]

theorem agree_result (r : Except Exn α) :
    toM (match r with | .ok a => Pure.pure a | .error e => Steps.throwE e : Steps.M V G α) =
      match r with | .ok a => Pure.pure a | .error e => throwE e := by cases r <;> rfl

@[simp] theorem toM_evalArg (o : Ops V G) (a : Arg V G) : toM (Steps.evalArg Γ o a) = evalArg Γ o a := by
  cases a with
  | ext nt c => simp [Steps.evalArg, evalArg]
  | copyOf y => simp [Steps.evalArg, evalArg]
  | moveOf y =>
    exact agree_bind (toM_getPayload y) fun v => agree_bind (toM_userPure _) fun r => agree_bind (toM_setPayload _ _ _) fun _ =>
      agree_result r.1

@[simp] theorem toM_constructWith (nt : Bool) (mk : Steps.M V G V) :
    toM (Steps.constructWith Γ x nt mk) = constructWith Γ x nt (toM mk) := by
  simp [Steps.constructWith, constructWith]

@[simp] theorem toM_constructPayload (a : Arg V G) : toM (Steps.constructPayload Γ x a) = constructPayload Γ x a := by
  simp [Steps.constructPayload, constructPayload]

@[simp] theorem toM_constructPayloadFromFunction (nt : Bool) (mk : Steps.M V G V) :
    toM (Steps.constructPayloadFromFunction Γ x nt mk) = constructPayloadFromFunction Γ x nt (toM mk) := by
  simp [Steps.constructPayloadFromFunction, constructPayloadFromFunction]

@[simp] theorem toM_destroyPayloadOf : toM (Steps.destroyPayloadOf Γ x) = destroyPayloadOf Γ x := by
  simp [Steps.destroyPayloadOf, destroyPayloadOf]

@[simp] theorem toM_reset : toM (Steps.reset Γ x) = reset Γ x := by simp [Steps.reset, reset]

@[simp] theorem toM_payloadAssign (a : AArg V G) : toM (Steps.payloadAssign Γ x a) = payloadAssign Γ x a := by
  cases a <;> simp [Steps.payloadAssign, payloadAssign]

@[simp] theorem toM_assignValue (a : AArg V G) : toM (Steps.assignValue Γ x a) = assignValue Γ x a := by
  simp [Steps.assignValue, assignValue]

@[simp] theorem toM_storageDefaultCtor : toM (Steps.storageDefaultCtor Γ x) = storageDefaultCtor Γ x := by
  simp [Steps.storageDefaultCtor, storageDefaultCtor]

@[simp] theorem toM_storageInPlaceCtor (a : Arg V G) : toM (Steps.storageInPlaceCtor Γ x a) = storageInPlaceCtor Γ x a := by
  simp [Steps.storageInPlaceCtor, storageInPlaceCtor]

@[simp] theorem toM_storageFunctionCtor (nt : Bool) (mk : Steps.M V G V) :
    toM (Steps.storageFunctionCtor Γ x nt mk) = storageFunctionCtor Γ x nt (toM mk) := by
  simp [Steps.storageFunctionCtor, storageFunctionCtor]

@[simp] theorem toM_storageDtor : toM (Steps.storageDtor Γ x) = storageDtor Γ x := by simp [Steps.storageDtor, storageDtor]

@[simp] theorem toM_assertSame : toM (Steps.assertSame Γ x y) = assertSame Γ x y := by simp [Steps.assertSame, assertSame]

@[simp] theorem toM_copyOrMoveCtor (nt : Bool) (a : Arg V G) :
    toM (Steps.copyOrMoveCtor Γ nt a x y) = copyOrMoveCtor Γ nt a x y := by
  simp [Steps.copyOrMoveCtor, copyOrMoveCtor]

@[simp] theorem toM_copyOrMoveAssign (nt : Bool) (a : AArg V G) :
    toM (Steps.copyOrMoveAssign Γ nt a x y) = copyOrMoveAssign Γ nt a x y := by
  simp [Steps.copyOrMoveAssign, copyOrMoveAssign]

@[simp] theorem toM_moveCtor : toM (Steps.moveCtor Γ x y) = moveCtor Γ x y := by simp [Steps.moveCtor, moveCtor]
@[simp] theorem toM_copyCtor : toM (Steps.copyCtor Γ x y) = copyCtor Γ x y := by simp [Steps.copyCtor, copyCtor]
@[simp] theorem toM_moveAssign : toM (Steps.moveAssign Γ x y) = moveAssign Γ x y := by simp [Steps.moveAssign, moveAssign]
@[simp] theorem toM_copyAssign : toM (Steps.copyAssign Γ x y) = copyAssign Γ x y := by simp [Steps.copyAssign, copyAssign]
@[simp] theorem toM_defaultCtor : toM (Steps.defaultCtor Γ x) = defaultCtor Γ x := by simp [Steps.defaultCtor, defaultCtor]
@[simp] theorem toM_inPlaceCtor (a : Arg V G) : toM (Steps.inPlaceCtor Γ x a) = inPlaceCtor Γ x a := by
  simp [Steps.inPlaceCtor, inPlaceCtor]
@[simp] theorem toM_dtor : toM (Steps.dtor Γ x) = dtor Γ x := by simp [Steps.dtor, dtor]

@[simp] theorem toM_deref : toM (Steps.deref Γ x) = deref Γ x := by simp [Steps.deref, deref]

@[simp] theorem toM_swap : toM (Steps.swap Γ x y) = swap Γ x y := by
  unfold Steps.swap swap
  rw [toM_noexceptIf]
  refine congrArg _ (agree_bind (toM_hasValue Γ x) fun a => agree_bind (toM_hasValue Γ y) fun b => ?_)
  cases a <;> cases b <;> simp

@[simp] theorem toM_invokeOn (f : V → G → Except Exn α × V × G) : toM (Steps.invokeOn Γ x f) = invokeOn Γ x f :=
  agree_bind (toM_deref Γ x) fun _ => agree_bind (toM_userPure _) fun r => agree_bind (toM_setPayload _ _ _) fun _ => agree_result r.1

@[simp] theorem toM_materialize (r : Option V) : toM (Steps.materialize Γ x r) = materialize Γ x r := by
  cases r <;> simp [Steps.materialize, materialize]

@[simp] theorem toM_transform (nt : Bool) (f : V → G → Except Exn V × V × G) : toM (Steps.transform Γ nt x y f) = transform Γ nt x y f := by
  unfold Steps.transform transform
  refine agree_bind (toM_hasValue Γ x) fun b => ?_
  cases b
  · simp
  · refine agree_bind (toM_assertHas Γ x true) fun _ => ?_
    rw [toM_storageFunctionCtor]
    exact congrArg _ (agree_bind (toM_getPayload x) fun _ => agree_bind (toM_userPure _) fun r =>
      agree_bind (toM_setPayload _ _ _) fun _ => agree_result r.1)

theorem toM_execOp (op : Op V G) : toM (Steps.execOp Γ op) = execOp Γ op := by
  cases op <;> simp [Steps.execOp, execOp, Steps.assignNullopt, assignNullopt, Steps.assignVal, assignVal, Steps.assignScalar,
    assignScalar, Steps.emplace, emplace, Steps.value, value, Steps.valueOr, valueOr, Steps.modify, modify, Steps.andThen, andThen,
    Steps.orElse, orElse]

theorem toM_andM (a b : Steps.M V G Bool) : toM (Steps.andM a b) = andM (toM a) (toM b) := by simp [Steps.andM, andM]
theorem toM_orM (a b : Steps.M V G Bool) : toM (Steps.orM a b) = orM (toM a) (toM b) := by simp [Steps.orM, orM]
theorem toM_notM (a : Steps.M V G Bool) : toM (Steps.notM a) = notM (toM a) := by simp [Steps.notM, notM]

/-- Operands of comparisons that agree. -/
structure OptLike.Agrees {A : Type} (l : Steps.OptLike V G A) (l' : OptLike V G A) : Prop where
  has : toM l.hasValue = l'.hasValue
  deref : toM l.deref = l'.deref

theorem tinyOpt_agrees : OptLike.Agrees (Steps.tinyOpt Γ x) (tinyOpt Γ x) := ⟨toM_hasValue Γ x, toM_deref Γ x⟩
theorem stdOpt_agrees {U : Type} (o : Option U) : OptLike.Agrees (Steps.stdOpt (V := V) (G := G) o) (stdOpt o) := by
  constructor
  · rfl
  · cases o <;> rfl

section
variable {A B R : Type} {l : Steps.OptLike V G A} {l' : OptLike V G A} {r : Steps.OptLike V G B} {r' : OptLike V G B}

theorem toM_payloadCmp (hl : OptLike.Agrees l l') (hr : OptLike.Agrees r r') (cmp : UserCmp G A B R) :
    toM (Steps.payloadCmp l r cmp) = payloadCmp l' r' cmp := by
  simp [Steps.payloadCmp, payloadCmp, hl.deref, hr.deref]

theorem toM_optRel (hl : OptLike.Agrees l l') (hr : OptLike.Agrees r r') (op : RelOp) (cmp : RelOp → UserCmp G A B Bool) :
    toM (Steps.optRel l r op cmp) = optRel l' r' op cmp := by
  cases op <;> simp [Steps.optRel, optRel, Steps.optEq, optEq, Steps.optNe, optNe, Steps.optLt, optLt, Steps.optLe, optLe,
    Steps.optGt, optGt, Steps.optGe, optGe, toM_andM, toM_orM, toM_notM, toM_payloadCmp hl hr, hl.has, hr.has]

theorem toM_optSpaceship (hl : OptLike.Agrees l l') (hr : OptLike.Agrees r r') (cmp : UserCmp G A B Cmp) :
    toM (Steps.optSpaceship l r cmp) = optSpaceship l' r' cmp := by
  simp [Steps.optSpaceship, optSpaceship, toM_andM, toM_payloadCmp hl hr, hl.has, hr.has]
end

theorem toM_condRel {U R : Type} (u : U) (d : R) (cmp : UserCmp G V U R) : toM (Steps.condRel Γ x u d cmp) = condRel Γ x u d cmp := by
  simp [Steps.condRel, condRel]
theorem toM_condRel' {U R : Type} (u : U) (d : R) (cmp : UserCmp G U V R) : toM (Steps.condRel' Γ x u d cmp) = condRel' Γ x u d cmp := by
  simp [Steps.condRel', condRel']

theorem toM_execCall (c : LibCall V G α) : toM (Steps.execCall Γ c) = execCall Γ c := by
  cases c with
  | op o => exact toM_execOp Γ o
  | andThenConst x dst f => simp [Steps.execCall, execCall, Steps.andThenConst, andThenConst]
  | transformConst nt x dst f => simp [Steps.execCall, execCall, Steps.transformConst, transformConst]
  | freeSwap x y tmp f => cases f <;> simp [Steps.execCall, execCall, Steps.freeSwap, freeSwap, Steps.genericSwap, genericSwap]
  | rel x y op cmp => exact toM_optRel (tinyOpt_agrees Γ x) (tinyOpt_agrees Γ y) op cmp
  | spaceship x y cmp => exact toM_optSpaceship (tinyOpt_agrees Γ x) (tinyOpt_agrees Γ y) cmp
  | relStd x o op cmp => exact toM_optRel (tinyOpt_agrees Γ x) (stdOpt_agrees o) op cmp
  | stdRel x o op cmp => exact toM_optRel (stdOpt_agrees o) (tinyOpt_agrees Γ x) op cmp
  | spaceshipStd x o cmp => exact toM_optSpaceship (tinyOpt_agrees Γ x) (stdOpt_agrees o) cmp
  | relNullopt x op => cases op <;> simp [Steps.execCall, execCall, Steps.relNullopt, relNullopt, toM_notM]
  | nulloptRel x op => cases op <;> simp [Steps.execCall, execCall, Steps.nulloptRel, nulloptRel, toM_notM]
  | spaceshipNullopt x => simp [Steps.execCall, execCall, Steps.spaceshipNullopt, spaceshipNullopt]
  | relValue x u op cmp => cases op <;> exact toM_condRel Γ x u _ _
  | valueRel x u op cmp => cases op <;> exact toM_condRel' Γ x u _ _
  | spaceshipValue x u cmp => exact toM_condRel Γ x u _ _
  | hash x h => simp [Steps.execCall, execCall, Steps.hashOf, hashOf]

theorem toM_execProg (P : TProg V G α) : toM (Steps.execProg Γ P) = execProg Γ P := by
  induction P with
  | ret a => rfl
  | call c k ih => simp only [Steps.execProg, execProg, toM_bind, toM_attempt, toM_execCall, ih]
  | own f k ih => simp only [Steps.execProg, execProg, toM_bind, toM_userPure, ih]

end agree

/-! ## Which memory is accessed -/

section
variable {V G α β : Type}

/-- Every step uses optionals in `R` for reading only, optionals in `W` for anything, and no others. -/
def Fits (R W : Nat → Prop) : Steps.M V G α → Prop
  | .done _ => True
  | .read x k => (R x ∨ W x) ∧ ∀ c, Fits R W (k c)
  | .write x _ k => W x ∧ Fits R W k
  | .fresh k => ∀ n, Fits R W (k n)
  | .event _ k => Fits R W k
  | .user _ k => ∀ g, Fits R W (k g)

namespace Fits
variable {R W : Nat → Prop} {x y : Nat}

theorem andThen {p : Steps.M V G α} {f : Res α → Steps.M V G β} (hp : Fits R W p) (hf : ∀ r, Fits R W (f r)) :
    Fits R W (p.andThen f) := by
  induction p with
  | done r => exact hf r
  | read x k ih => exact ⟨hp.1, fun c => ih c (hp.2 c)⟩
  | write x c k ih => exact ⟨hp.1, ih hp.2⟩
  | fresh k ih => exact fun n => ih n (hp n)
  | event e k ih => exact ih hp
  | user h k ih => exact fun g => ih g (hp g)

theorem done (r : Res α) : Fits R W (.done r : Steps.M V G α) := trivial
theorem pure (a : α) : Fits R W (Pure.pure a : Steps.M V G α) := trivial
theorem mpure (a : α) : Fits R W (Steps.M.pure a : Steps.M V G α) := trivial
theorem throwE (e : Exn) : Fits R W (Steps.throwE e : Steps.M V G α) := trivial
theorem ubM (k : UB) : Fits R W (Steps.ubM k : Steps.M V G α) := trivial
theorem abortM (a : Abort) : Fits R W (Steps.abortM a : Steps.M V G α) := trivial

theorem bind {m : Steps.M V G α} {f : α → Steps.M V G β} (hm : Fits R W m) (hf : ∀ a, Fits R W (f a)) : Fits R W (m >>= f) :=
  andThen hm fun r => by
    cases r with
    | ok a => exact hf a
    | throw e => trivial
    | abort a => trivial

theorem onThrow {m : Steps.M V G α} {h : Steps.M V G Unit} (hm : Fits R W m) (hh : Fits R W h) : Fits R W (Steps.onThrow m h) :=
  andThen hm fun r => by
    cases r with
    | ok a => trivial
    | throw e => exact andThen hh fun r' => by cases r' <;> trivial
    | abort a => trivial

theorem noexceptIf {b : Bool} {m : Steps.M V G α} (hm : Fits R W m) : Fits R W (Steps.noexceptIf b m) :=
  andThen hm fun r => by
    cases r with
    | ok a => trivial
    | throw e => cases b <;> trivial
    | abort a => trivial

theorem attempt {m : Steps.M V G α} (hm : Fits R W m) : Fits R W (Steps.attempt m) :=
  andThen hm fun r => by cases r <;> trivial

theorem assertM {nd : Bool} {c : Steps.M V G Bool} (hc : Fits R W c) : Fits R W (Steps.assertM nd c) := by
  unfold Steps.assertM
  split
  · exact mpure ()
  · exact bind hc fun b => by cases b <;> trivial

theorem liftE (r : Except UB α) : Fits R W (Steps.liftE r : Steps.M V G α) := by cases r <;> trivial

theorem userCall (f : G → Except Exn α × G) : Fits R W (Steps.userCall f : Steps.M V G α) := fun g => by
  show Fits R W (match (f g).1 with | .ok a => _ | .error e => _)
  split <;> trivial
theorem userPure (f : G → α × G) : Fits R W (Steps.userPure f : Steps.M V G α) := fun _ => trivial
theorem emit (e : Event) : Fits R W (Steps.emit e : Steps.M V G Unit) := trivial
theorem freshId : Fits R W (Steps.freshId : Steps.M V G Nat) := fun _ => trivial
theorem readStorage (h : R x ∨ W x) : Fits R W (Steps.readStorage x : Steps.M V G _) := ⟨h, fun c => by cases c <;> trivial⟩
theorem writeStorage (h : W x) (s : Storage V) : Fits R W (Steps.writeStorage x s : Steps.M V G _) := ⟨h, trivial⟩
theorem allocate (h : W x) : Fits R W (Steps.allocate x : Steps.M V G _) :=
  ⟨.inr h, fun c => by cases c with
    | none => exact ⟨h, trivial⟩
    | some s => trivial⟩
theorem release (h : W x) : Fits R W (Steps.release x : Steps.M V G _) :=
  ⟨.inr h, fun c => by
    cases c with
    | none => trivial
    | some s => rcases s with ⟨b, p | p, f | f⟩ <;> exact ⟨h, trivial⟩⟩

/-- Splits a program into its primitives. -/
macro "fits" : tactic => `(tactic| repeat' first
  | assumption
  | (refine Fits.bind ?_ fun _ => ?_) | (refine Fits.noexceptIf ?_) | (refine Fits.onThrow ?_ ?_) | (refine Fits.assertM ?_)
  | exact Fits.pure _ | exact Fits.throwE _ | exact Fits.ubM _ | exact Fits.liftE _
  | exact Fits.readStorage (.inr ‹_›) | exact Fits.readStorage ‹_› | exact Fits.writeStorage ‹_› _
  | exact Fits.freshId | exact Fits.allocate ‹_› | exact Fits.release ‹_› | exact Fits.userCall _ | exact Fits.userPure _ | exact Fits.emit _
  | split)

theorem getPayload (hx : R x ∨ W x) : Fits R W (Steps.getPayload x : Steps.M V G V) := by unfold Steps.getPayload; fits
theorem setPayload (hx : W x) (c : Config V) (v : V) : Fits R W (Steps.setPayload c x v : Steps.M V G Unit) := by
  unfold Steps.setPayload; fits
theorem newPayload (hx : W x) (c : Config V) (v : V) : Fits R W (Steps.newPayload c x v : Steps.M V G Unit) := by
  unfold Steps.newPayload; fits
theorem destroy (hx : W x) (c : Config V) (d : V → G → G) : Fits R W (Steps.destroyPayload c d x : Steps.M V G Unit) := by
  unfold Steps.destroyPayload; fits
theorem invalidate (hx : W x) (c : Config V) (d : V → G → G) : Fits R W (Steps.invalidateEmptyFlag c d x : Steps.M V G Unit) := by
  have h := destroy (R := R) hx c d
  unfold Steps.invalidateEmptyFlag; fits
theorem initEmptyFlag (hx : W x) (c : Config V) : Fits R W (Steps.initEmptyFlag c x : Steps.M V G Unit) := by
  unfold Steps.initEmptyFlag; fits
theorem checkE (e : Option Exn) : Fits R W (Steps.checkE e : Steps.M V G Unit) := by cases e <;> simp only [Steps.checkE] <;> fits

variable (Γ : Env V G)

theorem hasValue (hx : R x ∨ W x) : Fits R W (Steps.hasValue Γ x) := by unfold Steps.hasValue; fits

macro "fits'" : tactic => `(tactic| (fits <;> repeat' first
  | exact Fits.getPayload (.inr ‹_›) | exact Fits.getPayload ‹_› | exact Fits.setPayload ‹_› _ _ | exact Fits.newPayload ‹_› _ _
  | exact Fits.destroy ‹_› _ _ | exact Fits.invalidate ‹_› _ _ | exact Fits.initEmptyFlag ‹_› _
  | exact Fits.checkE _ | exact Fits.hasValue _ (.inr ‹_›) | exact Fits.hasValue _ ‹_›))

theorem evalArg (o : Ops V G) (a : Arg V G) (hr : ∀ z ∈ a.reads, R z ∨ W z) (hw : ∀ z ∈ a.writes, W z) :
    Fits R W (Steps.evalArg Γ o a) := by
  cases a with
  | ext nt c => exact userCall c
  | copyOf y =>
    have hy : R y ∨ W y := hr y (by simp [Arg.reads])
    simp only [Steps.evalArg]; fits'
  | moveOf y =>
    have hy : W y := hw y (by simp [Arg.writes])
    simp only [Steps.evalArg]; fits'

theorem payloadAssign (hx : W x) (a : AArg V G) (hr : ∀ z ∈ a.reads, R z ∨ W z) (hw : ∀ z ∈ a.writes, W z) :
    Fits R W (Steps.payloadAssign Γ x a) := by
  cases a with
  | ext f nt c => simp only [Steps.payloadAssign]; fits'
  | copyOf y =>
    have hy : R y ∨ W y := hr y (by simp [AArg.reads])
    simp only [Steps.payloadAssign]
    exact bind (getPayload (.inr hx)) fun _ => bind (getPayload hy) fun _ => bind (userPure _) fun _ =>
      bind (setPayload hx _ _) fun _ => checkE _
  | moveOf y =>
    have hy : W y := hw y (by simp [AArg.writes])
    simp only [Steps.payloadAssign]
    refine bind (getPayload (.inr hx)) fun _ => bind (getPayload (.inr hy)) fun _ => ?_
    split
    · exact bind (userPure _) fun _ => bind (setPayload hx _ _) fun _ => checkE _
    · exact bind (userPure _) fun _ => bind (setPayload hx _ _) fun _ => bind (setPayload hy _ _) fun _ => checkE _

theorem assertHas (hx : R x ∨ W x) (b : Bool) : Fits R W (Steps.assertHas Γ x b) := by
  have h := hasValue Γ hx
  unfold Steps.assertHas; fits
theorem assertSame (hx : R x ∨ W x) (hy : R y ∨ W y) : Fits R W (Steps.assertSame Γ x y) :=
  assertM (bind (hasValue Γ hx) fun _ => bind (hasValue Γ hy) fun _ => pure _)
theorem constructWith (hx : W x) (nt : Bool) {mk : Steps.M V G V} (hmk : Fits R W mk) : Fits R W (Steps.constructWith Γ x nt mk) := by
  have h := assertHas Γ (R := R) (.inr hx) false; have h' := assertHas Γ (R := R) (.inr hx) true
  unfold Steps.constructWith; fits'
theorem constructPayload (hx : W x) (a : Arg V G) (hr : ∀ z ∈ a.reads, R z ∨ W z) (hw : ∀ z ∈ a.writes, W z) :
    Fits R W (Steps.constructPayload Γ x a) := constructWith Γ hx _ (evalArg Γ _ a hr hw)
theorem reset (hx : W x) : Fits R W (Steps.reset Γ x) := by
  have h := assertHas Γ (R := R) (.inr hx) false
  unfold Steps.reset Steps.destroyPayloadOf; fits'

theorem toArg_reads (a : AArg V G) : a.toArg.reads = a.reads := by cases a <;> rfl
theorem toArg_writes (a : AArg V G) : a.toArg.writes = a.writes := by cases a <;> rfl

theorem assignValue (hx : W x) (a : AArg V G) (hr : ∀ z ∈ a.reads, R z ∨ W z) (hw : ∀ z ∈ a.writes, W z) :
    Fits R W (Steps.assignValue Γ x a) := by
  have h := assertHas Γ (R := R) (.inr hx) true
  have h' := constructPayload Γ (R := R) hx a.toArg (by rw [toArg_reads]; exact hr) (by rw [toArg_writes]; exact hw)
  have h3 := payloadAssign Γ hx a hr hw
  unfold Steps.assignValue; fits'
theorem storageDefaultCtor (hx : W x) : Fits R W (Steps.storageDefaultCtor Γ x) := by
  have h := assertHas Γ (R := R) (.inr hx) false
  unfold Steps.storageDefaultCtor; fits'
theorem storageInPlaceCtor (hx : W x) (a : Arg V G) (hr : ∀ z ∈ a.reads, R z ∨ W z) (hw : ∀ z ∈ a.writes, W z) :
    Fits R W (Steps.storageInPlaceCtor Γ x a) := by
  have h := constructPayload Γ hx a hr hw
  unfold Steps.storageInPlaceCtor; fits'
theorem storageFunctionCtor (hx : W x) {nt : Bool} {call : Steps.M V G V} (hc : Fits R W call) : Fits R W (Steps.storageFunctionCtor Γ x nt call) := by
  have h := constructWith Γ hx nt hc
  unfold Steps.storageFunctionCtor Steps.constructPayloadFromFunction; fits'
theorem storageDtor (hx : W x) : Fits R W (Steps.storageDtor Γ x) := by
  unfold Steps.storageDtor Steps.destroyPayloadOf; fits'
theorem copyOrMoveCtor (hx : W x) (hy : R y ∨ W y) (nt : Bool) (a : Arg V G) (hr : ∀ z ∈ a.reads, R z ∨ W z)
    (hw : ∀ z ∈ a.writes, W z) : Fits R W (Steps.copyOrMoveCtor Γ nt a x y) := by
  have h := storageDefaultCtor Γ (R := R) hx; have h1 := hasValue Γ hy; have h2 := constructPayload Γ hx a hr hw
  have h3 := assertHas Γ (R := R) (.inr hx) false; have h4 := assertSame Γ (.inr hx) hy; have h5 := storageDtor Γ (R := R) hx
  unfold Steps.copyOrMoveCtor; fits
theorem copyOrMoveAssign (hx : W x) (hy : R y ∨ W y) (nt : Bool) (a : AArg V G) (hr : ∀ z ∈ a.reads, R z ∨ W z)
    (hw : ∀ z ∈ a.writes, W z) : Fits R W (Steps.copyOrMoveAssign Γ nt a x y) := by
  have h1 := hasValue Γ hy; have h2 := assignValue Γ hx a hr hw
  have h3 := reset Γ (R := R) hx; have h4 := assertSame Γ (.inr hx) hy
  unfold Steps.copyOrMoveAssign; fits
theorem deref (hx : R x ∨ W x) : Fits R W (Steps.deref Γ x) := by
  have h := assertHas Γ hx true
  unfold Steps.deref; fits'
theorem swap (hx : W x) (hy : W y) : Fits R W (Steps.swap Γ x y) := by
  have h3 := reset Γ (R := R) hx; have h4 := reset Γ (R := R) hy
  have h5 := constructPayload Γ (R := R) hx (.moveOf y) nofun (by intro z hz; simp only [Arg.writes, List.mem_singleton] at hz; rw [hz]; exact hy)
  have h6 := constructPayload Γ (R := R) hy (.moveOf x) nofun (by intro z hz; simp only [Arg.writes, List.mem_singleton] at hz; rw [hz]; exact hx)
  unfold Steps.swap
  refine noexceptIf (bind (hasValue Γ (.inr hx)) fun a => bind (hasValue Γ (.inr hy)) fun b => ?_)
  split
  · split
    · refine bind (getPayload (.inr hx)) fun _ => bind (getPayload (.inr hy)) fun _ => ?_
      split
      · exact bind (userPure _) fun _ => bind (setPayload hx _ _) fun _ => checkE _
      · exact bind (userPure _) fun _ => bind (setPayload hx _ _) fun _ => bind (setPayload hy _ _) fun _ => checkE _
    · exact pure _
  · split
    · exact bind h6 fun _ => h3
    · exact bind h5 fun _ => h4
theorem materialize (hx : W x) (r : Option V) : Fits R W (Steps.materialize Γ x r) := by
  cases r
  · exact storageDefaultCtor Γ hx
  · exact storageInPlaceCtor Γ hx _ nofun nofun

/-- Every call of `Op`. -/
theorem execOp (op : Op V G) (hr : ∀ z ∈ op.reads, R z ∨ W z) (hw : ∀ z ∈ op.writes, W z) : Fits R W (Steps.execOp Γ op) := by
  cases op with
  | ctorDefault x => exact bind (storageDefaultCtor Γ (hw x (by simp [Op.writes]))) fun _ => pure _
  | ctorInPlace x a =>
    exact bind (storageInPlaceCtor Γ (hw x (by simp [Op.writes])) a hr fun z hz => hw z (by simp [Op.writes, hz])) fun _ => pure _
  | ctorCopy x y =>
    exact bind (copyOrMoveCtor Γ (hw x (by simp [Op.writes])) (hr y (by simp [Op.reads])) _ _ hr nofun) fun _ => pure _
  | ctorMove x y =>
    exact bind (copyOrMoveCtor Γ (hw x (by simp [Op.writes])) (.inr (hw y (by simp [Op.writes]))) _ _ nofun
      fun z hz => hw z (by simp only [Arg.writes, List.mem_singleton] at hz; simp [Op.writes, hz])) fun _ => pure _
  | dtor x => exact bind (storageDtor Γ (hw x (by simp [Op.writes]))) fun _ => pure _
  | reset x => exact bind (reset Γ (hw x (by simp [Op.writes]))) fun _ => pure _
  | assignNullopt x => exact bind (noexceptIf (reset Γ (hw x (by simp [Op.writes])))) fun _ => pure _
  | assignVal x a =>
    exact bind (assignValue Γ (hw x (by simp [Op.writes])) a hr fun z hz => hw z (by simp [Op.writes, hz])) fun _ => pure _
  | assignScalar x tmp a =>
    have hx : W x := hw x (by simp [Op.writes])
    have ht : W tmp := hw tmp (by simp [Op.writes])
    exact bind (bind (storageInPlaceCtor Γ ht a hr fun z hz => hw z (by simp [Op.writes, hz])) fun _ =>
      bind (onThrow (copyOrMoveAssign Γ hx (.inr ht) _ _ nofun
        fun z hz => hw z (by simp only [AArg.writes, List.mem_singleton] at hz; simp [Op.writes, hz])) (storageDtor Γ ht))
        fun _ => storageDtor Γ ht) fun _ => pure _
  | assignCopy x y =>
    exact bind (copyOrMoveAssign Γ (hw x (by simp [Op.writes])) (hr y (by simp [Op.reads])) _ _ hr nofun) fun _ => pure _
  | assignMove x y =>
    exact bind (copyOrMoveAssign Γ (hw x (by simp [Op.writes])) (.inr (hw y (by simp [Op.writes]))) _ _ nofun
      fun z hz => hw z (by simp only [AArg.writes, List.mem_singleton] at hz; simp [Op.writes, hz])) fun _ => pure _
  | emplace x a =>
    have hx : W x := hw x (by simp [Op.writes])
    exact bind (bind (reset Γ hx) fun _ => bind (constructPayload Γ hx a hr fun z hz => hw z (by simp [Op.writes, hz])) fun _ =>
      bind (assertHas Γ (.inr hx) true) fun _ => getPayload (.inr hx)) fun _ => pure _
  | swap x y => exact bind (swap Γ (hw x (by simp [Op.writes])) (hw y (by simp [Op.writes]))) fun _ => pure _
  | hasValue x => exact bind (hasValue Γ (hr x (by simp [Op.reads]))) fun _ => pure _
  | deref x => exact bind (deref Γ (hr x (by simp [Op.reads]))) fun _ => pure _
  | value x =>
    have h := hasValue Γ (hr x (by simp [Op.reads]))
    have h' : R x ∨ W x := hr x (by simp [Op.reads])
    simp only [Steps.execOp, Steps.value]; fits'
  | valueOr rv x d =>
    cases rv with
    | false =>
      have hx : R x ∨ W x := hr x (by simp [Op.reads])
      refine bind (bind (hasValue Γ hx) fun b => ?_) fun _ => pure _
      cases b
      · exact userCall d
      · exact evalArg Γ _ (.copyOf x) (by simpa [Arg.reads] using hx) nofun
    | true =>
      have hx : W x := hw x (by simp [Op.writes])
      refine bind (bind (hasValue Γ (.inr hx)) fun b => ?_) fun _ => pure _
      cases b
      · exact userCall d
      · exact evalArg Γ _ (.moveOf x) nofun (by simpa [Arg.writes] using hx)
  | modify x f =>
    have hx : W x := hw x (by simp [Op.writes])
    exact bind (bind (deref Γ (.inr hx)) fun _ => bind (userPure _) fun _ => bind (setPayload hx _ _) fun _ => checkE _) fun _ => pure _
  | andThen x dst f =>
    have hx : W x := hw x (by simp [Op.writes])
    have hd : W dst := hw dst (by simp [Op.writes])
    refine bind (bind (hasValue Γ (.inr hx)) fun b => ?_) fun _ => pure _
    cases b
    · exact storageDefaultCtor Γ hd
    · refine bind (bind (deref Γ (.inr hx)) fun v => bind (userPure _) fun p => bind (setPayload hx _ _) fun _ => ?_)
        fun r => materialize Γ hd r
      rcases p with ⟨r | r, v'⟩
      · exact throwE _
      · exact pure _
  | transform nt x dst f =>
    have hx : W x := hw x (by simp [Op.writes])
    have hd : W dst := hw dst (by simp [Op.writes])
    refine bind (bind (hasValue Γ (.inr hx)) fun b => ?_) fun _ => pure _
    cases b
    · exact storageDefaultCtor Γ hd
    · refine bind (assertHas Γ (.inr hx) true) fun _ => storageFunctionCtor Γ hd (bind (getPayload (.inr hx)) fun v =>
        bind (userPure _) fun p => bind (setPayload hx _ _) fun _ => ?_)
      rcases p with ⟨r | r, v'⟩
      · exact throwE _
      · exact pure _
  | orElse rv x dst f =>
    cases rv with
    | false =>
      have hx : R x ∨ W x := hr x (by simp [Op.reads])
      have hd : W dst := hw dst (by simp [Op.writes])
      refine bind (bind (hasValue Γ hx) fun b => ?_) fun _ => pure _
      cases b
      · exact bind (userCall f) fun r => materialize Γ hd r
      · exact copyOrMoveCtor Γ hd hx _ (.copyOf x) (by simpa [Arg.reads] using hx) nofun
    | true =>
      have hx : W x := hw x (by simp [Op.writes])
      have hd : W dst := hw dst (by simp [Op.writes])
      refine bind (bind (hasValue Γ (.inr hx)) fun b => ?_) fun _ => pure _
      cases b
      · exact bind (userCall f) fun r => materialize Γ hd r
      · exact copyOrMoveCtor Γ hd (.inr hx) _ (.moveOf x) nofun (by simpa [Arg.writes] using hx)


theorem andM {a b : Steps.M V G Bool} (ha : Fits R W a) (hb : Fits R W b) : Fits R W (Steps.andM a b) := by
  unfold Steps.andM; fits
theorem orM {a b : Steps.M V G Bool} (ha : Fits R W a) (hb : Fits R W b) : Fits R W (Steps.orM a b) := by
  unfold Steps.orM; fits
theorem notM {a : Steps.M V G Bool} (ha : Fits R W a) : Fits R W (Steps.notM a) := by
  unfold Steps.notM; fits

section
variable {A B C : Type} {l : Steps.OptLike V G A} {r : Steps.OptLike V G B}

theorem payloadCmp (hl : Fits R W l.deref) (hr : Fits R W r.deref) (cmp : UserCmp G A B C) : Fits R W (Steps.payloadCmp l r cmp) := by
  unfold Steps.payloadCmp; fits

theorem optRel (hl : Fits R W l.deref) (hr : Fits R W r.deref) (hl' : Fits R W l.hasValue) (hr' : Fits R W r.hasValue) (op : RelOp)
    (cmp : RelOp → UserCmp G A B Bool) : Fits R W (Steps.optRel l r op cmp) := by
  have h := fun o => payloadCmp hl hr (cmp o)
  cases op
  · exact bind hl' fun _ => andM (bind hr' fun _ => pure _) (orM (pure _) (h _))
  · exact bind hl' fun _ => orM (bind hr' fun _ => pure _) (andM (pure _) (h _))
  · exact andM hr' (orM (notM hl') (h _))
  · exact orM (notM hl') (andM hr' (h _))
  · exact andM hl' (orM (notM hr') (h _))
  · exact orM (notM hr') (andM hl' (h _))

theorem optSpaceship (hl : Fits R W l.deref) (hr : Fits R W r.deref) (hl' : Fits R W l.hasValue) (hr' : Fits R W r.hasValue)
    (cmp : UserCmp G A B Cmp) : Fits R W (Steps.optSpaceship l r cmp) := by
  have h := payloadCmp hl hr cmp
  have h' := andM hl' hr'
  unfold Steps.optSpaceship; fits
end

theorem condRel {U C : Type} (hx : R x ∨ W x) (u : U) (d : C) (cmp : UserCmp G V U C) : Fits R W (Steps.condRel Γ x u d cmp) := by
  have h := deref Γ hx; have h' := hasValue Γ hx
  unfold Steps.condRel; fits
theorem condRel' {U C : Type} (hx : R x ∨ W x) (u : U) (d : C) (cmp : UserCmp G U V C) : Fits R W (Steps.condRel' Γ x u d cmp) := by
  have h := deref Γ hx; have h' := hasValue Γ hx
  unfold Steps.condRel'; fits

/-- Every call of the library. -/
theorem execCall (c : LibCall V G α) (hr : ∀ z ∈ c.reads, R z ∨ W z) (hw : ∀ z ∈ c.writes, W z) :
    Fits R W (Steps.execCall Γ c) := by
  cases c with
  | op o => exact execOp Γ o hr hw
  | andThenConst x dst f =>
    have hx : R x ∨ W x := hr x (by simp [LibCall.reads])
    have hd : W dst := hw dst (by simp [LibCall.writes])
    have h := hasValue Γ hx; have h1 := deref Γ hx; have h2 := fun r => materialize Γ (R := R) hd r
    have h3 := storageDefaultCtor Γ (R := R) hd
    refine bind h fun b => ?_
    cases b
    · exact h3
    · exact bind h1 fun _ => bind (userCall _) h2
  | transformConst nt x dst f =>
    have hx : R x ∨ W x := hr x (by simp [LibCall.reads])
    have hd : W dst := hw dst (by simp [LibCall.writes])
    refine bind (hasValue Γ hx) fun b => ?_
    cases b
    · exact storageDefaultCtor Γ hd
    · exact bind (assertHas Γ hx true) fun _ => storageFunctionCtor Γ hd (bind (getPayload hx) fun _ => userCall _)
  | freeSwap x y tmp f =>
    have hx : W x := hw x (by simp [LibCall.writes])
    have hy : W y := hw y (by simp [LibCall.writes])
    have ht : W tmp := hw tmp (by simp [LibCall.writes])
    cases f
    · exact swap Γ hx hy
    · exact bind (copyOrMoveCtor Γ ht (.inr hx) _ (.moveOf x) nofun (by simpa [Arg.writes] using hx)) fun _ =>
        bind (onThrow (bind (copyOrMoveAssign Γ hx (.inr hy) _ (.moveOf y) nofun (by simpa [AArg.writes] using hy)) fun _ =>
          copyOrMoveAssign Γ hy (.inr ht) _ (.moveOf tmp) nofun (by simpa [AArg.writes] using ht)) (storageDtor Γ ht))
          fun _ => storageDtor Γ ht
  | rel x y op cmp =>
    have hx : R x ∨ W x := hr x (by simp [LibCall.reads])
    have hy : R y ∨ W y := hr y (by simp [LibCall.reads])
    exact optRel (deref Γ hx) (deref Γ hy) (hasValue Γ hx) (hasValue Γ hy) op cmp
  | spaceship x y cmp =>
    have hx : R x ∨ W x := hr x (by simp [LibCall.reads])
    have hy : R y ∨ W y := hr y (by simp [LibCall.reads])
    exact optSpaceship (deref Γ hx) (deref Γ hy) (hasValue Γ hx) (hasValue Γ hy) cmp
  | relStd x o op cmp =>
    have hx : R x ∨ W x := hr x (by simp [LibCall.reads])
    exact optRel (l := Steps.tinyOpt Γ x) (r := Steps.stdOpt o) (deref Γ hx) (by cases o <;> trivial) (hasValue Γ hx) trivial op cmp
  | stdRel x o op cmp =>
    have hx : R x ∨ W x := hr x (by simp [LibCall.reads])
    exact optRel (l := Steps.stdOpt o) (r := Steps.tinyOpt Γ x) (by cases o <;> trivial) (deref Γ hx) trivial (hasValue Γ hx) op cmp
  | spaceshipStd x o cmp =>
    have hx : R x ∨ W x := hr x (by simp [LibCall.reads])
    exact optSpaceship (l := Steps.tinyOpt Γ x) (r := Steps.stdOpt o) (deref Γ hx) (by cases o <;> trivial) (hasValue Γ hx) trivial cmp
  | relNullopt x op =>
    have h := hasValue Γ (hr x (by simp [LibCall.reads]))
    cases op <;> exact noexceptIf (by first | exact h | exact notM h | exact pure _)
  | nulloptRel x op =>
    have h := hasValue Γ (hr x (by simp [LibCall.reads]))
    cases op <;> exact noexceptIf (by first | exact h | exact notM h | exact pure _)
  | spaceshipNullopt x => exact noexceptIf (bind (hasValue Γ (hr x (by simp [LibCall.reads]))) fun _ => pure _)
  | relValue x u op cmp => cases op <;> exact condRel Γ (hr x (by simp [LibCall.reads])) u _ _
  | valueRel x u op cmp => cases op <;> exact condRel' Γ (hr x (by simp [LibCall.reads])) u _ _
  | spaceshipValue x u cmp => exact condRel Γ (hr x (by simp [LibCall.reads])) u _ _
  | hash x f =>
    have h := hasValue Γ (hr x (by simp [LibCall.reads])); have h' := deref Γ (hr x (by simp [LibCall.reads]))
    show Fits R W (Steps.hashOf Γ x f)
    unfold Steps.hashOf; fits

theorem execProg (P : TProg V G α) (h : P.Within R W) : Fits R W (Steps.execProg Γ P) := by
  induction P with
  | ret a => trivial
  | call c k ih => exact bind (attempt (execCall Γ c h.1 h.2.1)) fun r => ih r (h.2.2 r)
  | own f k ih => exact bind (userPure f) fun r => ih r (h r)

end Fits
end

/-! ## Isolation -/

section
variable {V G α : Type} {R W : Nat → Prop}

/-- The number of steps of an uninterrupted run. -/
def stepsOf (p : Steps.M V G α) (w : World V G) : Nat :=
  match p with
  | .done _ => 0
  | .read x k => stepsOf (k (w.mem x)) w + 1
  | .write x c k => stepsOf k { w with mem := fun z => if z = x then c else w.mem z } + 1
  | .fresh k => stepsOf (k w.nextObj) { w with nextObj := w.nextObj + 1 } + 1
  | .event e k => stepsOf k { w with log := w.log ++ [e] } + 1
  | .user f k => stepsOf (k w.user) { w with user := f w.user } + 1

theorem exec_step (p : Steps.M V G α) (w : World V G) : (p.step w).1.exec (p.step w).2 = p.exec w := by cases p <;> rfl

theorem stepsOf_step (p : Steps.M V G α) (w : World V G) : stepsOf (p.step w).1 (p.step w).2 = stepsOf p w - 1 := by cases p <;> rfl

theorem done_of_stepsOf {p : Steps.M V G α} {w : World V G} (h : stepsOf p w = 0) : p = .done (p.exec w).1 := by
  cases p with
  | done r => rfl
  | read x k => cases h
  | write x c k => cases h
  | fresh k => cases h
  | event e k => cases h
  | user f k => cases h

/-- A step depends on its footprint only, and changes nothing else. -/
theorem step_local {p : Steps.M V G α} (hp : Fits R W p) {o : Own G} {m m' : Nat → Option (Storage V)}
    (h : ∀ x, R x ∨ W x → m x = m' x) :
    (p.step (o.view m)).1 = (p.step (o.view m')).1 ∧ (p.step (o.view m)).2.own = (p.step (o.view m')).2.own ∧
    (∀ x, R x ∨ W x → (p.step (o.view m)).2.mem x = (p.step (o.view m')).2.mem x) ∧
    (∀ x, ¬W x → (p.step (o.view m)).2.mem x = m x) ∧ Fits R W (p.step (o.view m)).1 := by
  cases p with
  | done r => exact ⟨rfl, rfl, h, fun _ _ => rfl, trivial⟩
  | read x k => exact ⟨congrArg k (h x hp.1), rfl, h, fun _ _ => rfl, hp.2 _⟩
  | write x c k =>
    refine ⟨rfl, rfl, fun z hz => ?_, fun z hz => ?_, hp.2⟩
    · show (if z = x then c else m z) = if z = x then c else m' z
      rw [h z hz]
    · show (if z = x then c else m z) = m z
      rw [if_neg]
      intro e
      exact hz (e ▸ hp.1)
  | fresh k => exact ⟨rfl, rfl, h, fun _ _ => rfl, hp _⟩
  | event e k => exact ⟨rfl, rfl, h, fun _ _ => rfl, hp⟩
  | user f k => exact ⟨rfl, rfl, h, fun _ _ => rfl, hp _⟩

theorem view_own (w : World V G) : w.own.view w.mem = w := rfl

end

section
variable {T V G α : Type} [DecidableEq T] {R W : T → Nat → Prop}

/-- After any schedule, thread `t` is where it would be if it had run alone for `n` steps less: `m` is the memory that it would
see then. -/
structure Alone (R W : T → Nat → Prop) (S₀ S : Threads T V G α) (t : T) (n : Nat) (m : Nat → Option (Storage V)) : Prop where
  sees : ∀ x, R t x ∨ W t x → S.mem x = m x
  keeps : ∀ x, ¬W t x → m x = S₀.mem x
  fits : Fits (R t) (W t) (S.prog t)
  exec : (S.prog t).exec ((S.own t).view m) = (S₀.prog t).exec ((S₀.own t).view S₀.mem)
  steps : stepsOf (S.prog t) ((S.own t).view m) = stepsOf (S₀.prog t) ((S₀.own t).view S₀.mem) - n

theorem Alone.step {S₀ S : Threads T V G α} {t u : T} {n : Nat} {m : Nat → Option (Storage V)} (hc : Compatible R W)
    (h : Alone R W S₀ S t n m) (hu : Fits (R u) (W u) (S.prog u)) :
    ∃ m', Alone R W S₀ (S.step u) t (n + if u = t then 1 else 0) m' := by
  by_cases e : u = t
  · subst e
    obtain ⟨h1, h2, h3, h4, h5⟩ := step_local (o := S.own u) h.fits h.sees
    have h4' := (step_local (o := S.own u) (m := m) (m' := m) h.fits fun _ _ => rfl).2.2.2.1
    refine ⟨((S.prog u).step ((S.own u).view m)).2.mem, ⟨h3, fun x hx => (h4' x hx).trans (h.keeps x hx), ?_, ?_, ?_⟩⟩
    · show Fits _ _ (if u = u then _ else _)
      rw [if_pos rfl]
      exact h5
    · show (if u = u then ((S.prog u).step ((S.own u).view S.mem)).1 else _).exec
        ((if u = u then ((S.prog u).step ((S.own u).view S.mem)).2.own else _).view _) = _
      rw [if_pos rfl, if_pos rfl, h1, h2, view_own, exec_step]
      exact h.exec
    · show stepsOf (if u = u then ((S.prog u).step ((S.own u).view S.mem)).1 else _)
        ((if u = u then ((S.prog u).step ((S.own u).view S.mem)).2.own else _).view _) = _
      rw [if_pos rfl, if_pos rfl, if_pos rfl, h1, h2, view_own, stepsOf_step, h.steps]
      omega
  · have e' : t ≠ u := fun e' => e e'.symm
    refine ⟨m, ⟨fun x hx => ?_, h.keeps, ?_, ?_, ?_⟩⟩
    · have h4 := (step_local (o := S.own u) (m := S.mem) (m' := S.mem) hu fun _ _ => rfl).2.2.2.1
      refine (h4 x fun hw => ?_).trans (h.sees x hx)
      rcases hx with hx | hx
      · exact (hc u t e x hw).1 hx
      · exact (hc u t e x hw).2 hx
    · show Fits _ _ (if t = u then _ else _)
      rw [if_neg e']
      exact h.fits
    · show (if t = u then _ else S.prog t).exec ((if t = u then _ else S.own t).view _) = _
      rw [if_neg e', if_neg e']
      exact h.exec
    · show stepsOf (if t = u then _ else S.prog t) ((if t = u then _ else S.own t).view _) = _
      rw [if_neg e', if_neg e', if_neg e]
      exact h.steps

omit [DecidableEq T] in
theorem Alone.start (S : Threads T V G α) {t : T} (h : Fits (R t) (W t) (S.prog t)) : Alone R W S S t 0 S.mem :=
  ⟨fun _ _ => rfl, fun _ _ => rfl, h, rfl, rfl⟩

theorem Alone.after {S₀ : Threads T V G α} (hc : Compatible R W) (σ : List T) :
    ∀ {S : Threads T V G α} {n : T → Nat}, (∀ t, ∃ m, Alone R W S₀ S t (n t) m) →
      ∀ t, ∃ m, Alone R W S₀ (S.after σ) t (n t + σ.count t) m := by
  induction σ with
  | nil => exact fun h t => h t
  | cons u rest ih =>
    intro S n h t
    obtain ⟨m, hm⟩ := ih (n := fun t => n t + if u = t then 1 else 0) (S := S.step u) (fun t => by
      obtain ⟨m, hm⟩ := h t
      obtain ⟨m', hm'⟩ := h u
      exact hm.step hc hm'.fits) t
    refine ⟨m, ?_⟩
    have e : n t + (u :: rest).count t = n t + (if u = t then 1 else 0) + rest.count t := by
      rw [List.count_cons]
      by_cases e : u = t
      · simp [e]; omega
      · simp [e]
    rw [e]
    exact hm

variable {S₀ : Threads T V G α}

theorem all_alone (hc : Compatible R W) (hf : ∀ t, Fits (R t) (W t) (S₀.prog t)) (σ : List T) (t : T) :
    ∃ m, Alone R W S₀ (S₀.after σ) t (0 + σ.count t) m :=
  Alone.after (n := fun _ => 0) hc σ (fun t => ⟨S₀.mem, Alone.start S₀ (hf t)⟩) t

/-- Threads that fit their footprints do not race. -/
theorem no_race (hc : Compatible R W) (hf : ∀ t, Fits (R t) (W t) (S₀.prog t)) (σ : List T) : ¬Race (S₀.after σ) := by
  rintro ⟨t, u, x, htu, hw, hu⟩
  obtain ⟨m, hm⟩ := all_alone hc hf σ t
  obtain ⟨m', hm'⟩ := all_alone hc hf σ u
  have h1 := hm.fits
  have h2 := hm'.fits
  have hW : W t x := by
    revert hw h1
    cases (S₀.after σ).prog t <;> intro hw h1 <;> first | cases hw | skip
    exact h1.1
  have hRW : R u x ∨ W u x := by
    revert hu h2
    cases (S₀.after σ).prog u <;> intro hu h2 <;> rcases hu with hu | hu <;> first | cases hu | skip
    · exact h2.1
    · exact .inr h2.1
  exact hRW.elim (hc t u htu x hW).1 (hc t u htu x hW).2

/-- A thread that is finished did what it does alone. -/
theorem isolated (hc : Compatible R W) (hf : ∀ t, Fits (R t) (W t) (S₀.prog t)) (σ : List T) {t : T} {r : Res α}
    (hr : (S₀.after σ).prog t = .done r) :
    ∃ w, toM (S₀.prog t) ((S₀.own t).view S₀.mem) = (r, w) ∧ w.own = (S₀.after σ).own t ∧
      ∀ x, R t x ∨ W t x → (S₀.after σ).mem x = w.mem x := by
  obtain ⟨m, hm⟩ := all_alone hc hf σ t
  have e := hm.exec
  rw [hr] at e
  exact ⟨((S₀.after σ).own t).view m, e.symm, rfl, hm.sees⟩

theorem finishes (hc : Compatible R W) (hf : ∀ t, Fits (R t) (W t) (S₀.prog t)) (t : T) :
    ∃ n, ∀ σ : List T, n ≤ σ.count t → ∃ r, (S₀.after σ).prog t = .done r := by
  refine ⟨stepsOf (S₀.prog t) ((S₀.own t).view S₀.mem), fun σ hσ => ?_⟩
  obtain ⟨m, hm⟩ := all_alone hc hf σ t
  have e := hm.steps
  rw [show stepsOf (S₀.prog t) ((S₀.own t).view S₀.mem) - (0 + σ.count t) = 0 by omega] at e
  exact ⟨_, done_of_stepsOf e⟩

/-- Memory that no thread may write. -/
theorem unwritten {mem : Nat → Option (Storage V)} {x : Nat} (hx : ∀ t, ¬W t x) (σ : List T) :
    ∀ S : Threads T V G α, (∀ t, Fits (R t) (W t) (S.prog t)) → S.mem x = mem x → (S.after σ).mem x = mem x := by
  induction σ with
  | nil => exact fun _ _ h => h
  | cons u rest ih =>
    intro S hS h
    have hl := step_local (o := S.own u) (m := S.mem) (m' := S.mem) (hS u) fun _ _ => rfl
    refine ih (S.step u) (fun t => ?_) ((hl.2.2.2.1 x (hx u)).trans h)
    show Fits _ _ (if t = u then _ else S.prog t)
    by_cases e : t = u
    · rw [if_pos e, e]
      exact hl.2.2.2.2
    · rw [if_neg e]
      exact hS t

theorem deterministic (hc : Compatible R W) (hf : ∀ t, Fits (R t) (W t) (S₀.prog t)) (σ τ : List T)
    (hσ : ∀ t, ∃ r, (S₀.after σ).prog t = .done r) (hτ : ∀ t, ∃ r, (S₀.after τ).prog t = .done r) : S₀.after σ = S₀.after τ := by
  have key : ∀ t, (S₀.after σ).prog t = (S₀.after τ).prog t ∧ (S₀.after σ).own t = (S₀.after τ).own t ∧
      ∀ x, R t x ∨ W t x → (S₀.after σ).mem x = (S₀.after τ).mem x := by
    intro t
    obtain ⟨r, hr⟩ := hσ t
    obtain ⟨r', hr'⟩ := hτ t
    obtain ⟨w, h1, h2, h3⟩ := isolated hc hf σ hr
    obtain ⟨w', h1', h2', h3'⟩ := isolated hc hf τ hr'
    rw [h1] at h1'
    obtain ⟨e1, e2⟩ := Prod.mk.inj h1'
    subst e1 e2
    exact ⟨hr.trans hr'.symm, h2.symm.trans h2', fun x hx => (h3 x hx).trans (h3' x hx).symm⟩
  have hmem : (S₀.after σ).mem = (S₀.after τ).mem := by
    funext x
    by_cases hx : ∃ t, W t x
    · obtain ⟨t, ht⟩ := hx
      exact (key t).2.2 x (.inr ht)
    · have hx' : ∀ t, ¬W t x := fun t ht => hx ⟨t, ht⟩
      rw [unwritten (R := R) (mem := S₀.mem) hx' σ _ hf rfl, unwritten (R := R) (mem := S₀.mem) hx' τ _ hf rfl]
  have hprog : (S₀.after σ).prog = (S₀.after τ).prog := funext fun t => (key t).1
  have hown : (S₀.after σ).own = (S₀.after τ).own := funext fun t => (key t).2.1
  revert hmem hprog hown
  generalize S₀.after σ = S
  generalize S₀.after τ = S'
  rcases S with ⟨a, b, c⟩
  rcases S' with ⟨a', b', c'⟩
  rintro rfl rfl rfl
  rfl

end

section
variable {V G α β : Type} {R W : Nat → Prop}

theorem Fits.later {p q : Steps.M V G α} (h : Later p q) (hp : Fits R W p) : Fits R W q := by
  induction h with
  | start => exact hp
  | step h w ih => exact (step_local (o := w.own) (m := w.mem) (m' := w.mem) ih fun _ _ => rfl).2.2.2.2

/-- Memory outside of the footprint is not changed. -/
theorem Fits.keeps {p : Steps.M V G α} (hp : Fits R W p) {x : Nat} (hx : ¬W x) (w : World V G) : (p.exec w).2.mem x = w.mem x := by
  induction p generalizing w with
  | done r => rfl
  | read y k ih => exact ih _ (hp.2 _) _
  | write y c k ih =>
    refine (ih hp.2 _).trans ?_
    show (if x = y then c else w.mem x) = w.mem x
    rw [if_neg]
    intro e
    exact hx (e ▸ hp.1)
  | fresh k ih => exact ih _ (hp _) _
  | event e k ih => exact ih hp _
  | user f k ih => exact ih _ (hp _) _

/-! ## Overloads for const optionals -/

/-- The programs agree, and keep the condition, in worlds that meet the condition. -/
def SameIf (P : World V G → Prop) (m n : M V G α) : Prop := ∀ w, P w → m w = n w ∧ P (m w).2

theorem SameIf.refl {P : World V G → Prop} {m : M V G α} (h : ∀ w, P w → P (m w).2) : SameIf P m m := fun w hw => ⟨rfl, h w hw⟩

theorem SameIf.bind {P : World V G → Prop} {m n : M V G α} {f g : α → M V G β} (h : SameIf P m n) (h' : ∀ a, SameIf P (f a) (g a)) :
    SameIf P (m >>= f) (n >>= g) := by
  intro w hw
  obtain ⟨e, hp⟩ := h w hw
  rcases hm : m w with ⟨a | e' | k, w'⟩
  · rw [hm] at hp
    rw [bind_ok hm, bind_ok (e ▸ hm)]
    exact h' a w' hp
  · rw [hm] at hp
    rw [bind_throw hm, bind_throw (e ▸ hm)]
    exact ⟨rfl, hp⟩
  · rw [hm] at hp
    rw [bind_abort hm, bind_abort (e ▸ hm)]
    exact ⟨rfl, hp⟩

theorem SameIf.noexceptIf {P : World V G → Prop} {b : Bool} {m n : M V G α} (h : SameIf P m n) :
    SameIf P (Model.noexceptIf b m) (Model.noexceptIf b n) := by
  intro w hw
  obtain ⟨e, hp⟩ := h w hw
  unfold Model.noexceptIf
  rw [← e]
  refine ⟨rfl, ?_⟩
  rcases hm : m w with ⟨a | e' | k, w'⟩ <;> rw [hm] at hp
  · exact hp
  · cases b <;> exact hp
  · exact hp

theorem SameIf.onThrow {P : World V G → Prop} {m n : M V G α} {h : M V G Unit} (hm : SameIf P m n) (hh : ∀ w, P w → P (h w).2) :
    SameIf P (Model.onThrow m h) (Model.onThrow n h) := by
  intro w hw
  obtain ⟨e, hp⟩ := hm w hw
  unfold Model.onThrow
  rw [← e]
  refine ⟨rfl, ?_⟩
  rcases hm : m w with ⟨a | e' | k, w'⟩ <;> rw [hm] at hp
  · exact hp
  · have h2 := hh w' hp
    show P (match h w' with
      | (.ok _, w'') => (Res.throw e', w'')
      | (.throw _, w'') => (.abort .terminate, w'')
      | (.abort a, w'') => (.abort a, w'') : Res α × World V G).2
    rcases hh' : h w' with ⟨a | e'' | k, w''⟩ <;> rw [hh'] at h2 <;> exact h2
  · exact hp

/-- Just `y`. -/
def Just (y : Nat) : Nat → Prop := fun z => z = y

/-- `x` exists and has this storage. -/
def Stored (x : Nat) (s : Storage V) (w : World V G) : Prop := w.mem x = some s

/-- What does not write `x` keeps it. -/
theorem stored_keeps {x : Nat} {s : Storage V} {p : Steps.M V G α} {m : M V G α} (e : toM p = m) {R W : Nat → Prop} (hp : Fits R W p)
    (hx : ¬W x) (w : World V G) (hw : Stored x s w) : Stored x s (m w).2 := by
  rw [← e]
  exact (hp.keeps hx w).trans hw

variable {Γ : Env V G} {x dst : Nat}

/-- Storing the value that is already there changes nothing. -/
theorem setPayload_same {c : Config V} {s : Storage V} {v : V} (hs : Full c s v) {w : World V G} (hw : w.mem x = some s) :
    setPayload c x v w = (.ok (), w) := by
  obtain ⟨⟨id, hp⟩, _, hb, _⟩ := hs
  have e1 : fill s.bytes 0 c.size (c.repr v) = s.bytes := by
    funext i
    unfold fill
    split
    · rename_i h
      rw [Nat.sub_zero]
      exact (hb i (by omega)).symm
    · rfl
  have e2 : (fun z => if z = x then some s else w.mem z) = w.mem := by
    funext z
    split
    · rename_i h
      rw [h, hw]
    · rfl
  have hr : readStorage x w = (.ok s, w) := by simp only [readStorage, hw]
  unfold setPayload
  rw [bind_ok hr, hp]
  show writeStorage x { s with payload := some ⟨id, v⟩, bytes := fill s.bytes 0 c.size (c.repr v) } w = _
  have e3 : ({ s with payload := some ⟨id, v⟩, bytes := fill s.bytes 0 c.size (c.repr v) } : Storage V) = s := by rw [e1, ← hp]
  rw [e3]
  unfold writeStorage
  rw [e2]

/-- A function of a const reference, called like a function of a non-const one. -/
def unchanged (f : V → G → Except Exn α × G) (v : V) (g : G) : Except Exn α × V × G := ((f v g).1, v, (f v g).2)

theorem same_call {s : Storage V} {v : V} (hs : Full (Γ x).cfg s v) (f : V → G → Except Exn α × G) :
    SameIf (Stored x s) (userCall (f v)) (do
      let (r, v') ← userPure (fun g => let (r, v', g') := unchanged f v g; ((r, v'), g'))
      setPayload (Γ x).cfg x v'
      match r with
      | .ok a => pure a
      | .error e => throwE e) := by
  intro w hw
  have h1 : userPure (fun g => let (r, v', g') := unchanged f v g; ((r, v'), g')) w =
      (.ok ((f v w.user).1, v), { w with user := (f v w.user).2 }) := rfl
  have hw' : Stored x s { w with user := (f v w.user).2 } := hw
  rw [bind_ok h1]
  dsimp only
  rw [bind_ok (setPayload_same hs hw')]
  unfold userCall
  rcases f v w.user with ⟨a | a, g⟩
  · exact ⟨rfl, hw⟩
  · exact ⟨rfl, hw⟩

theorem getPayload_stored {s : Storage V} {v : V} {c : Config V} (hs : Full c s v) {w : World V G} (hw : Stored x s w) :
    getPayload x w = (.ok v, w) := by
  obtain ⟨⟨id, hp⟩, _⟩ := hs
  have hr : readStorage x w = (.ok s, w) := by
    unfold readStorage
    rw [show w.mem x = some s from hw]
  unfold getPayload
  rw [bind_ok hr, hp]
  rfl

theorem same_getCall {s : Storage V} {v : V} (hs : Full (Γ x).cfg s v) (f : V → G → Except Exn α × G) :
    SameIf (Stored x s) (do let v ← getPayload x; userCall (f v)) (do
      let v ← getPayload x
      let (r, v') ← userPure (fun g => let (r, v', g') := unchanged f v g; ((r, v'), g'))
      setPayload (Γ x).cfg x v'
      match r with
      | .ok a => pure a
      | .error e => throwE e) := by
  intro w hw
  rw [bind_ok (getPayload_stored hs hw), bind_ok (getPayload_stored hs hw)]
  exact same_call hs f w hw

theorem same_constructWith {s : Storage V} (hx : x ≠ dst) (nt : Bool) {m n : M V G V} (h : SameIf (Stored x s) m n) :
    SameIf (Stored x s) (constructWith Γ dst nt m) (constructWith Γ dst nt n) := by
  have hd : (Just dst) dst := rfl
  have hW : ¬(Just dst) x := hx
  have k : ∀ {β : Type} {p : Steps.M V G β} {m : M V G β}, toM p = m → Fits (fun _ => False) (Just dst) p →
      SameIf (Stored x s) m m := fun e hp => .refl (stored_keeps e hp hW)
  have hm : SameIf (Stored x s) (do let v ← m; newPayload (Γ dst).cfg dst v) (do let v ← n; newPayload (Γ dst).cfg dst v) :=
    h.bind fun v => k (toM_newPayload _ _ _) (Fits.newPayload hd _ _)
  have ha : SameIf (Stored x s) (assertHas Γ dst true) (assertHas Γ dst true) :=
    k (toM_assertHas _ _ _) (Fits.assertHas Γ (.inr hd) _)
  unfold constructWith
  refine .noexceptIf (.bind (k (toM_assertHas _ _ _) (Fits.assertHas Γ (.inr hd) _)) fun _ =>
    .bind (k (toM_invalidateEmptyFlag _ _ _) (Fits.invalidate hd _ _)) fun _ => ?_)
  cases nt
  · exact .bind (.onThrow hm (stored_keeps (toM_initEmptyFlag _ _) (Fits.initEmptyFlag (R := fun _ => False) hd _) hW)) fun _ => ha
  · exact h.bind fun v => .bind (k (toM_newPayload _ _ _) (Fits.newPayload hd _ _)) fun _ => ha

theorem same_functionCtor {nt : Bool} {s : Storage V} {m n : M V G V} (h : SameIf (Stored x s) m n) {w : World V G} (hw : Stored x s w) :
    storageFunctionCtor Γ dst nt m w = storageFunctionCtor Γ dst nt n w := by
  unfold storageFunctionCtor constructPayloadFromFunction
  by_cases hx : x = dst
  · have ha : allocate dst w = (.abort (.ub .optionalExists), w) := by
      unfold allocate
      rw [← hx, show w.mem x = some s from hw]
    rw [bind_abort ha, bind_abort ha]
  · have hd : (Just dst) dst := rfl
    have hW : ¬(Just dst) x := hx
    have k : ∀ {β : Type} {p : Steps.M V G β} {m : M V G β}, toM p = m → Fits (fun _ => False) (Just dst) p →
        SameIf (Stored x s) m m := fun e hp => .refl (stored_keeps e hp hW)
    have h1 : SameIf (Stored x s) (do initEmptyFlag (Γ dst).cfg dst; constructWith Γ dst nt m)
        (do initEmptyFlag (Γ dst).cfg dst; constructWith Γ dst nt n) :=
      .bind (k (toM_initEmptyFlag _ _) (Fits.initEmptyFlag hd _)) fun _ => same_constructWith hx _ h
    have h2 := SameIf.bind (k (toM_allocate _) (Fits.allocate hd)) fun _ : Unit => SameIf.onThrow h1
      (stored_keeps (toM_release _) (Fits.release (R := fun _ => False) hd) hW)
    exact (h2 w hw).1

/-- `and_then` for const optionals is `and_then` with a function that leaves the payload alone. -/
theorem andThenConst_eq (hΓ : EnvWF Γ) {w : World V G} {sw : Spec.SWorld V G} (hR : RW Γ none w sw) (f : V → G → Except Exn (Option V) × G) :
    andThenConst Γ x dst f w = andThen Γ x dst (unchanged f) w := by
  unfold andThenConst andThen
  rcases hx : sw.vars x with _ | (_ | v)
  · rw [bind_abort (hasValue_absent (hR.absent hx)), bind_abort (hasValue_absent (hR.absent hx))]
  · rw [bind_ok (hR.hasValueEmp hΓ hx), bind_ok (hR.hasValueEmp hΓ hx), if_neg Bool.false_ne_true, if_neg Bool.false_ne_true]
  · rw [bind_ok (hR.hasValueFull hΓ hx), bind_ok (hR.hasValueFull hΓ hx)]
    obtain ⟨s, hm, hF⟩ := hR.full hx
    have e : (do let v ← deref Γ x; userCall (f v)) w = invokeOn Γ x (unchanged f) w := by
      unfold invokeOn
      rw [bind_ok (deref_run hΓ hR hx), bind_ok (deref_run hΓ hR hx)]
      exact (same_call hF f w hm).1
    rw [if_pos rfl, if_pos rfl, bind_ok (deref_run hΓ hR hx)]
    rw [bind_ok (deref_run hΓ hR hx)] at e
    rcases hr : userCall (f v) w with ⟨r | r | r, w'⟩ <;> rw [hr] at e
    · rw [bind_ok hr, bind_ok e.symm]
    · rw [bind_throw hr, bind_throw e.symm]
    · rw [bind_abort hr, bind_abort e.symm]

/-- `transform` for const optionals is `transform` with a function that leaves the payload alone. -/
theorem transformConst_eq (hΓ : EnvWF Γ) {w : World V G} {sw : Spec.SWorld V G} (hR : RW Γ none w sw) (nt : Bool) (f : V → G → Except Exn V × G) :
    transformConst Γ nt x dst f w = transform Γ nt x dst (unchanged f) w := by
  unfold transformConst transform
  rcases hx : sw.vars x with _ | (_ | v)
  · rw [bind_abort (hasValue_absent (hR.absent hx)), bind_abort (hasValue_absent (hR.absent hx))]
  · rw [bind_ok (hR.hasValueEmp hΓ hx), bind_ok (hR.hasValueEmp hΓ hx), if_neg Bool.false_ne_true, if_neg Bool.false_ne_true]
  · rw [bind_ok (hR.hasValueFull hΓ hx), bind_ok (hR.hasValueFull hΓ hx)]
    obtain ⟨s, hm, hF⟩ := hR.full hx
    rw [if_pos rfl, if_pos rfl, bind_ok (hR.assertHasFull hΓ hx), bind_ok (hR.assertHasFull hΓ hx)]
    refine same_functionCtor (s := s) ?_ hm
    exact same_getCall hF f

/-! ## Histories as threads -/

theorem attempt_run {m : M V G α} {w w' : World V G} {r : Except Exn α}
    (h : m w = (match r with | .ok a => .ok a | .error e => .throw e, w')) : attempt m w = (.ok r, w') := by
  unfold attempt
  rw [h]
  cases r <;> rfl

theorem ofHistory_run (h : List (Op V G)) : ∀ (pre : List (Res (Obs V))) (w : World V G), (∀ r ∈ (run Γ h w).1, ∀ a, r ≠ .abort a) →
    execProg Γ (ofHistory h pre) w = (.ok (pre ++ (run Γ h w).1), (run Γ h w).2) := by
  induction h with
  | nil =>
    intro pre w _
    show (Res.ok pre, w) = _
    simp [run]
  | cons op rest ih =>
    intro pre w hn
    simp only [ofHistory, execProg, execCall]
    rcases he : execOp Γ op w with ⟨a | e | k, w'⟩
    · rw [bind_ok (attempt_run (r := .ok a) he), ih]
      · simp [run, he]
      · intro r hr
        exact hn r (by simp [run, he, hr])
    · rw [bind_ok (attempt_run (r := .error e) he), ih]
      · simp [run, he]
      · intro r hr
        exact hn r (by simp [run, he, hr])
    · exact absurd rfl (hn (.abort k) (by simp [run, he]) k)

theorem ofHistory_within (h : List (Op V G)) : ∀ (pre : List (Res (Obs V))), (∀ x, HistoryUses h x → W x) → (ofHistory h pre).Within R W := by
  induction h with
  | nil => exact fun _ _ => trivial
  | cons op rest ih =>
    intro pre hu
    refine ⟨fun x hx => .inr (hu x ⟨op, List.mem_cons_self, .inl hx⟩), fun x hx => hu x ⟨op, List.mem_cons_self, .inr hx⟩, fun r => ih _ ?_⟩
    rintro x ⟨o, ho, hx⟩
    exact hu x ⟨o, List.mem_cons_of_mem _ ho, hx⟩

end
end Verif.Model
