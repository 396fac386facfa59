import Verif.Lemmas.Threads
import Verif.Spec.Cost

/-! # Lemmas: bounds on the number of steps of a call -/

namespace Verif
open Verif.Model
open Verif.Spec (RelOp Cmp)

section
variable {V G α β : Type}

/-- The program ends within `n` steps, `u` of which run user code, whatever it finds in memory. -/
def Within : Steps.M V G α → Nat → Nat → Prop
  | .done _, _, _ => True
  | .read _ k, n, u => 0 < n ∧ ∀ c, Within (k c) (n - 1) u
  | .write _ _ k, n, u => 0 < n ∧ Within k (n - 1) u
  | .fresh k, n, u => 0 < n ∧ ∀ i, Within (k i) (n - 1) u
  | .event _ k, n, u => 0 < n ∧ Within k (n - 1) u
  | .user _ k, n, u => 0 < n ∧ 0 < u ∧ ∀ g, Within (k g) (n - 1) (u - 1)

namespace Within

theorem mono {p : Steps.M V G α} {n u m v : Nat} (h : Within p n u) (hn : n ≤ m) (hu : u ≤ v) : Within p m v := by
  induction p generalizing n u m v with
  | done r => trivial
  | read x k ih => exact ⟨by have := h.1; omega, fun c => ih c (h.2 c) (by omega) hu⟩
  | write x c k ih => exact ⟨by have := h.1; omega, ih h.2 (by omega) hu⟩
  | fresh k ih => exact ⟨by have := h.1; omega, fun c => ih c (h.2 c) (by omega) hu⟩
  | event e k ih => exact ⟨by have := h.1; omega, ih h.2 (by omega) hu⟩
  | user f k ih => exact ⟨by have := h.1; omega, by have := h.2.1; omega, fun c => ih c (h.2.2 c) (by omega) (by omega)⟩

theorem andThen {p : Steps.M V G α} {f : Res α → Steps.M V G β} {a b n u : Nat} (hp : Within p a b) (ha : a ≤ n) (hb : b ≤ u)
    (hf : ∀ r, Within (f r) (n - a) (u - b)) : Within (p.andThen f) n u := by
  induction p generalizing a b n u with
  | done r => exact (hf r).mono (by omega) (by omega)
  | read x k ih =>
    exact ⟨by have := hp.1; omega, fun c => ih c (hp.2 c) (by omega) hb fun r => (hf r).mono (by have := hp.1; omega) (by omega)⟩
  | write x c k ih =>
    exact ⟨by have := hp.1; omega, ih hp.2 (by omega) hb fun r => (hf r).mono (by have := hp.1; omega) (by omega)⟩
  | fresh k ih =>
    exact ⟨by have := hp.1; omega, fun c => ih c (hp.2 c) (by omega) hb fun r => (hf r).mono (by have := hp.1; omega) (by omega)⟩
  | event e k ih =>
    exact ⟨by have := hp.1; omega, ih hp.2 (by omega) hb fun r => (hf r).mono (by have := hp.1; omega) (by omega)⟩
  | user g k ih =>
    exact ⟨by have := hp.1; omega, by have := hp.2.1; omega, fun c => ih c (hp.2.2 c) (by omega) (by omega)
      fun r => (hf r).mono (by have := hp.1; omega) (by have := hp.2.1; omega)⟩

theorem done (r : Res α) (n u : Nat) : Within (.done r : Steps.M V G α) n u := trivial

theorem bind {m : Steps.M V G α} {f : α → Steps.M V G β} {a b n u : Nat} (hm : Within m a b) (ha : a ≤ n) (hb : b ≤ u)
    (hf : ∀ x, Within (f x) (n - a) (u - b)) : Within (m >>= f) n u :=
  andThen hm ha hb fun r => by
    cases r with
    | ok a => exact hf a
    | throw e => trivial
    | abort a => trivial

theorem onThrow {m : Steps.M V G α} {h : Steps.M V G Unit} {a b n u : Nat} (hm : Within m a b) (ha : a ≤ n) (hb : b ≤ u)
    (hh : Within h (n - a) (u - b)) : Within (Steps.onThrow m h) n u :=
  andThen hm ha hb fun r => by
    cases r with
    | ok a => trivial
    | throw e => exact andThen hh (Nat.le_refl _) (Nat.le_refl _) fun r' => by cases r' <;> trivial
    | abort a => trivial

theorem noexceptIf {b : Bool} {m : Steps.M V G α} {n u : Nat} (hm : Within m n u) : Within (Steps.noexceptIf b m) n u :=
  andThen hm (Nat.le_refl _) (Nat.le_refl _) fun r => by
    cases r with
    | ok a => trivial
    | throw e => cases b <;> trivial
    | abort a => trivial

theorem attempt {m : Steps.M V G α} {n u : Nat} (hm : Within m n u) : Within (Steps.attempt m) n u :=
  andThen hm (Nat.le_refl _) (Nat.le_refl _) fun r => by cases r <;> trivial

theorem assertM {nd : Bool} {c : Steps.M V G Bool} {n u : Nat} (hc : Within c n u) : Within (Steps.assertM nd c) n u := by
  unfold Steps.assertM
  split
  · trivial
  · exact bind hc (Nat.le_refl _) (Nat.le_refl _) fun b => by cases b <;> trivial

theorem liftE (r : Except UB α) : Within (Steps.liftE r : Steps.M V G α) 0 0 := by cases r <;> trivial
theorem userCall (f : G → Except Exn α × G) : Within (Steps.userCall f : Steps.M V G α) 1 1 :=
  ⟨by decide, by decide, fun g => by
    show Within (match (f g).1 with | .ok a => _ | .error e => _) _ _
    split <;> trivial⟩
theorem userPure (f : G → α × G) : Within (Steps.userPure f : Steps.M V G α) 1 1 := ⟨by decide, by decide, fun _ => trivial⟩
theorem emit (e : Event) : Within (Steps.emit e : Steps.M V G Unit) 1 0 := ⟨by decide, trivial⟩
theorem freshId : Within (Steps.freshId : Steps.M V G Nat) 1 0 := ⟨by decide, fun _ => trivial⟩
theorem readStorage (x : Nat) : Within (Steps.readStorage x : Steps.M V G _) 1 0 := ⟨by decide, fun c => by cases c <;> trivial⟩
theorem writeStorage (x : Nat) (s : Storage V) : Within (Steps.writeStorage x s : Steps.M V G _) 1 0 := ⟨by decide, trivial⟩
theorem allocate (x : Nat) : Within (Steps.allocate x : Steps.M V G _) 2 0 :=
  ⟨by decide, fun c => by cases c with
    | none => exact ⟨by decide, trivial⟩
    | some s => trivial⟩
theorem release (x : Nat) : Within (Steps.release x : Steps.M V G _) 4 0 :=
  ⟨by decide, fun c => by
    cases c with
    | none => trivial
    | some s => rcases s with ⟨b, p | p, f | f⟩ <;> simp [Within]⟩

theorem pure (a : α) : Within (Pure.pure a : Steps.M V G α) 0 0 := trivial
theorem throwE (e : Exn) : Within (Steps.throwE e : Steps.M V G α) 0 0 := trivial
theorem ubM (k : UB) : Within (Steps.ubM k : Steps.M V G α) 0 0 := trivial

/-- Splits a program into its primitives. -/
macro "cost" : tactic => `(tactic| repeat' first
  | assumption
  | exact Within.pure _ | exact Within.throwE _ | exact Within.ubM _
  | exact Within.liftE _ | exact Within.userCall _ | exact Within.userPure _ | exact Within.emit _ | exact Within.freshId
  | exact Within.readStorage _ | exact Within.writeStorage _ _ | exact Within.allocate _ | exact Within.release _
  | exact Within.mono (Within.pure _) (by decide) (by decide) | exact Within.mono (Within.throwE _) (by decide) (by decide)
  | exact Within.mono (Within.ubM _) (by decide) (by decide) | exact Within.mono (Within.emit _) (by decide) (by decide)
  | exact Within.mono (Within.userCall _) (by decide) (by decide) | exact Within.mono (Within.writeStorage _ _) (by decide) (by decide)
  | exact Within.mono (Within.release _) (by decide) (by decide)
  | exact Within.mono (by assumption) (by decide) (by decide)
  | decide
  | refine Within.noexceptIf ?_
  | refine Within.assertM ?_
  | (apply Within.bind)
  | (apply Within.onThrow)
  | intro _
  | split)

variable (c : Config V) (d : V → G → G) (x y : Nat)

theorem getPayload : Within (Steps.getPayload x : Steps.M V G V) 1 0 := by unfold Steps.getPayload; cost
theorem setPayload (v : V) : Within (Steps.setPayload c x v : Steps.M V G Unit) 2 0 := by unfold Steps.setPayload; cost
theorem newPayload (v : V) : Within (Steps.newPayload c x v : Steps.M V G Unit) 4 0 := by unfold Steps.newPayload; cost
theorem destroy : Within (Steps.destroyPayload c d x : Steps.M V G Unit) 4 1 := by unfold Steps.destroyPayload; cost
theorem invalidate : Within (Steps.invalidateEmptyFlag c d x : Steps.M V G Unit) 5 1 := by
  have h := destroy c d x
  unfold Steps.invalidateEmptyFlag; cost
theorem initEmptyFlag : Within (Steps.initEmptyFlag c x : Steps.M V G Unit) 4 0 := by unfold Steps.initEmptyFlag; cost
theorem checkE (e : Option Exn) : Within (Steps.checkE e : Steps.M V G Unit) 0 0 := by cases e <;> trivial

variable (Γ : Env V G)
theorem hasValue : Within (Steps.hasValue Γ x) 1 0 := by unfold Steps.hasValue; cost
theorem assertHas (b : Bool) : Within (Steps.assertHas Γ x b) 1 0 := by
  have h := hasValue x Γ
  unfold Steps.assertHas; cost
theorem assertSame : Within (Steps.assertSame Γ x y) 2 0 := by
  have h := hasValue x Γ; have h' := hasValue y Γ
  unfold Steps.assertSame; cost
theorem evalArg (o : Ops V G) (a : Arg V G) : Within (Steps.evalArg Γ o a) 4 1 := by
  cases a with
  | ext nt c => exact (userCall c).mono (by decide) (by decide)
  | copyOf y => have h := getPayload (V := V) (G := G) y; simp only [Steps.evalArg]; cost
  | moveOf y =>
    have h := getPayload (V := V) (G := G) y; have h' := fun v => setPayload (G := G) (Γ y).cfg y v
    simp only [Steps.evalArg]
    exact bind h (by decide) (by decide) fun _ => bind (userPure _) (by decide) (by decide) fun _ =>
      bind (h' _) (by decide) (by decide) fun _ => by cost
theorem payloadAssign (a : AArg V G) : Within (Steps.payloadAssign Γ x a) 7 1 := by
  cases a with
  | ext f nt c =>
    exact bind (getPayload x) (by decide) (by decide) fun _ => bind (userPure _) (by decide) (by decide) fun _ =>
      bind (setPayload _ x _) (by decide) (by decide) fun _ => (checkE _).mono (by decide) (by decide)
  | copyOf y =>
    exact bind (getPayload x) (by decide) (by decide) fun _ => bind (getPayload y) (by decide) (by decide) fun _ =>
      bind (userPure _) (by decide) (by decide) fun _ =>
      bind (setPayload _ x _) (by decide) (by decide) fun _ => (checkE _).mono (by decide) (by decide)
  | moveOf y =>
    simp only [Steps.payloadAssign]
    refine bind (getPayload x) (by decide) (by decide) fun _ => bind (getPayload y) (by decide) (by decide) fun _ => ?_
    split
    · exact bind (userPure _) (by decide) (by decide) fun _ =>
        bind (setPayload _ x _) (by decide) (by decide) fun _ => (checkE _).mono (by decide) (by decide)
    · exact bind (userPure _) (by decide) (by decide) fun _ => bind (setPayload _ x _) (by decide) (by decide) fun _ =>
        bind (setPayload _ y _) (by decide) (by decide) fun _ => (checkE _).mono (by decide) (by decide)

theorem constructWith (nt : Bool) {mk : Steps.M V G V} {n u : Nat} (hmk : Within mk n u) :
    Within (Steps.constructWith Γ x nt mk) (n + 15) (u + 1) := by
  have hn : Within (mk >>= fun v => Steps.newPayload (Γ x).cfg x v) (n + 4) u :=
    bind hmk (by omega) (by omega) fun v => (newPayload _ x v).mono (by omega) (by omega)
  unfold Steps.constructWith
  refine noexceptIf (bind (assertHas x Γ false) (by omega) (by omega) fun _ => bind (invalidate _ _ x) (by omega) (by omega) fun _ => ?_)
  split
  · exact bind hmk (by omega) (by omega) fun _ => bind (newPayload _ x _) (by omega) (by omega) fun _ =>
      (assertHas x Γ true).mono (by omega) (by omega)
  · exact bind (onThrow (n := n + 8) (u := u) hn (by omega) (by omega) ((initEmptyFlag _ x).mono (by omega) (by omega))) (by omega) (by omega)
      fun _ => (assertHas x Γ true).mono (by omega) (by omega)
theorem constructPayload (a : Arg V G) : Within (Steps.constructPayload Γ x a) 19 2 := constructWith x Γ _ (evalArg Γ _ a)
theorem reset : Within (Steps.reset Γ x) 10 1 := by
  have h := assertHas x Γ false; have h1 := hasValue x Γ; have h2 := destroy (Γ x).cfg (Γ x).ops.dtor x
  have h3 := initEmptyFlag (G := G) (Γ x).cfg x
  unfold Steps.reset Steps.destroyPayloadOf; cost
theorem assignValue (a : AArg V G) : Within (Steps.assignValue Γ x a) 21 2 := by
  unfold Steps.assignValue
  refine bind (hasValue x Γ) (by decide) (by decide) fun _ => ?_
  split
  · exact bind (payloadAssign x Γ a) (by decide) (by decide) fun _ => (assertHas x Γ true).mono (by decide) (by decide)
  · exact bind (constructPayload x Γ _) (by decide) (by decide) fun _ => assertHas x Γ true
theorem storageDefaultCtor : Within (Steps.storageDefaultCtor Γ x) 7 0 :=
  noexceptIf (bind (allocate x) (by decide) (by decide) fun _ => bind (initEmptyFlag _ x) (by decide) (by decide) fun _ =>
    assertHas x Γ false)
theorem storageInPlaceCtor (a : Arg V G) : Within (Steps.storageInPlaceCtor Γ x a) 29 2 :=
  bind (allocate x) (by decide) (by decide) fun _ => onThrow (a := 23) (b := 2)
    (bind (initEmptyFlag _ x) (by decide) (by decide) fun _ => constructPayload x Γ a) (by decide) (by decide) (release x)
theorem storageFunctionCtor {nt : Bool} {call : Steps.M V G V} (hc : Within call 4 1) : Within (Steps.storageFunctionCtor Γ x nt call) 29 2 :=
  bind (allocate x) (by decide) (by decide) fun _ => onThrow (a := 23) (b := 2)
    (bind (initEmptyFlag _ x) (by decide) (by decide) fun _ => constructWith x Γ _ hc) (by decide) (by decide) (release x)
theorem storageDtor : Within (Steps.storageDtor Γ x) 9 1 := by
  unfold Steps.storageDtor Steps.destroyPayloadOf
  refine noexceptIf (bind (hasValue x Γ) (by decide) (by decide) fun _ => ?_)
  split
  · exact bind (destroy _ _ x) (by decide) (by decide) fun _ => release x
  · exact mono (p := Steps.release x) (release x) (by decide) (by decide)
theorem copyOrMoveCtor (nt : Bool) (a : Arg V G) : Within (Steps.copyOrMoveCtor Γ nt a x y) 38 3 := by
  unfold Steps.copyOrMoveCtor
  refine noexceptIf (bind (storageDefaultCtor x Γ) (by decide) (by decide) fun _ => onThrow (a := 22) (b := 2) ?_ (by decide) (by decide)
    (storageDtor x Γ))
  refine bind (hasValue y Γ) (by decide) (by decide) fun _ => ?_
  split
  · exact bind (constructPayload x Γ _) (by decide) (by decide) fun _ => assertSame x y Γ
  · exact bind (assertHas x Γ false) (by decide) (by decide) fun _ => (assertSame x y Γ).mono (by decide) (by decide)
theorem copyOrMoveAssign (nt : Bool) (a : AArg V G) : Within (Steps.copyOrMoveAssign Γ nt a x y) 24 2 := by
  unfold Steps.copyOrMoveAssign
  refine noexceptIf (bind (hasValue y Γ) (by decide) (by decide) fun _ => ?_)
  split
  · exact bind (assignValue x Γ _) (by decide) (by decide) fun _ => assertSame x y Γ
  · exact bind (reset x Γ) (by decide) (by decide) fun _ => (assertSame x y Γ).mono (by decide) (by decide)
theorem deref : Within (Steps.deref Γ x) 2 0 :=
  noexceptIf (bind (assertHas x Γ true) (by decide) (by decide) fun _ => getPayload x)
theorem swap : Within (Steps.swap Γ x y) 31 3 := by
  unfold Steps.swap
  refine noexceptIf (bind (hasValue x Γ) (by decide) (by decide) fun a => bind (hasValue y Γ) (by decide) (by decide) fun b => ?_)
  split
  · split
    · refine bind (getPayload x) (by decide) (by decide) fun _ => bind (getPayload y) (by decide) (by decide) fun _ => ?_
      split
      · exact bind (userPure _) (by decide) (by decide) fun _ => bind (setPayload _ x _) (by decide) (by decide) fun _ =>
          (checkE _).mono (by decide) (by decide)
      · exact bind (userPure _) (by decide) (by decide) fun _ => bind (setPayload _ x _) (by decide) (by decide) fun _ =>
          bind (setPayload _ y _) (by decide) (by decide) fun _ => (checkE _).mono (by decide) (by decide)
    · trivial
  · split
    · exact bind (constructPayload y Γ _) (by decide) (by decide) fun _ => reset x Γ
    · exact bind (constructPayload x Γ _) (by decide) (by decide) fun _ => reset y Γ
theorem materialize (r : Option V) : Within (Steps.materialize Γ x r) 29 2 := by
  cases r
  · exact (storageDefaultCtor x Γ).mono (by decide) (by decide)
  · exact storageInPlaceCtor x Γ _

/-- Compares budgets. -/
macro "budget" : tactic => `(tactic| first | decide | simp [Op.budget, LibCall.budget])

theorem execOp (op : Op V G) : Within (Steps.execOp Γ op) op.budget.steps op.budget.user := by
  cases op with
  | ctorDefault x => exact bind (storageDefaultCtor x Γ) (by budget) (by budget) fun _ => trivial
  | ctorInPlace x a => exact bind (storageInPlaceCtor x Γ a) (by budget) (by budget) fun _ => trivial
  | ctorCopy x y => exact bind (copyOrMoveCtor x y Γ _ _) (by budget) (by budget) fun _ => trivial
  | ctorMove x y => exact bind (copyOrMoveCtor x y Γ _ _) (by budget) (by budget) fun _ => trivial
  | dtor x => exact bind (storageDtor x Γ) (by budget) (by budget) fun _ => trivial
  | reset x => exact bind (reset x Γ) (by budget) (by budget) fun _ => trivial
  | assignNullopt x => exact bind (noexceptIf (reset x Γ)) (by budget) (by budget) fun _ => trivial
  | assignVal x a => exact bind (assignValue x Γ a) (by budget) (by budget) fun _ => trivial
  | assignScalar x tmp a =>
    exact bind (a := 71) (b := 6) (bind (storageInPlaceCtor tmp Γ a) (by budget) (by budget) fun _ =>
      bind (onThrow (n := 33) (u := 3) (copyOrMoveAssign x tmp Γ _ _) (by budget) (by budget) (storageDtor tmp Γ)) (by budget) (by budget)
        fun _ => storageDtor tmp Γ) (by budget) (by budget) fun _ => trivial
  | assignCopy x y => exact bind (copyOrMoveAssign x y Γ _ _) (by budget) (by budget) fun _ => trivial
  | assignMove x y => exact bind (copyOrMoveAssign x y Γ _ _) (by budget) (by budget) fun _ => trivial
  | emplace x a =>
    exact bind (a := 31) (b := 3) (bind (reset x Γ) (by budget) (by budget) fun _ => bind (constructPayload x Γ a) (by budget) (by budget)
      fun _ => bind (assertHas x Γ true) (by budget) (by budget) fun _ => getPayload x) (by budget) (by budget) fun _ => trivial
  | swap x y => exact bind (swap x y Γ) (by budget) (by budget) fun _ => trivial
  | hasValue x => exact bind (hasValue x Γ) (by budget) (by budget) fun _ => trivial
  | deref x => exact bind (deref x Γ) (by budget) (by budget) fun _ => trivial
  | value x =>
    refine bind (a := 2) (b := 0) (bind (hasValue x Γ) (by budget) (by budget) fun b => ?_) (by budget) (by budget) fun _ => trivial
    cases b
    · trivial
    · exact getPayload x
  | valueOr rv x d =>
    refine bind (a := 5) (b := 1) (bind (hasValue x Γ) (by budget) (by budget) fun b => ?_) (by budget) (by budget) fun _ => trivial
    cases b
    · exact (userCall d).mono (by budget) (by budget)
    · exact evalArg Γ _ _
  | modify x f =>
    exact bind (a := 5) (b := 1) (bind (deref x Γ) (by budget) (by budget) fun _ => bind (userPure _) (by budget) (by budget) fun _ =>
      bind (setPayload _ x _) (by budget) (by budget) fun _ => checkE _) (by budget) (by budget) fun _ => trivial
  | andThen x dst f =>
    refine bind (a := 35) (b := 3) (bind (hasValue x Γ) (by budget) (by budget) fun b => ?_) (by budget) (by budget) fun _ => trivial
    cases b
    · exact (storageDefaultCtor dst Γ).mono (by budget) (by budget)
    · refine bind (a := 5) (b := 1) (bind (deref x Γ) (by budget) (by budget) fun v => bind (userPure _) (by budget) (by budget) fun p =>
        bind (setPayload _ x _) (by budget) (by budget) fun _ => ?_) (by budget) (by budget) fun r => materialize dst Γ r
      rcases p with ⟨r | r, v'⟩ <;> trivial
  | transform nt x dst f =>
    refine bind (a := 31) (b := 2) (bind (hasValue x Γ) (by budget) (by budget) fun b => ?_) (by budget) (by budget) fun _ => trivial
    cases b
    · exact (storageDefaultCtor dst Γ).mono (by budget) (by budget)
    · refine bind (assertHas x Γ true) (by budget) (by budget) fun _ => storageFunctionCtor dst Γ (bind (getPayload x) (by budget) (by budget)
        fun v => bind (userPure _) (by budget) (by budget) fun p => bind (setPayload _ x _) (by budget) (by budget) fun _ => ?_)
      rcases p with ⟨r | r, v'⟩ <;> trivial
  | orElse rv x dst f =>
    refine bind (a := 39) (b := 3) (bind (hasValue x Γ) (by budget) (by budget) fun b => ?_) (by budget) (by budget) fun _ => trivial
    cases b
    · exact bind (userCall f) (by budget) (by budget) fun r => (materialize dst Γ r).mono (by budget) (by budget)
    · cases rv
      · exact copyOrMoveCtor dst x Γ _ _
      · exact copyOrMoveCtor dst x Γ _ _

theorem andM {a b : Steps.M V G Bool} {n u m v : Nat} (ha : Within a n u) (hb : Within b m v) : Within (Steps.andM a b) (n + m) (u + v) :=
  bind ha (by omega) (by omega) fun t => by
    cases t
    · trivial
    · exact hb.mono (by omega) (by omega)
theorem orM {a b : Steps.M V G Bool} {n u m v : Nat} (ha : Within a n u) (hb : Within b m v) : Within (Steps.orM a b) (n + m) (u + v) :=
  bind ha (by omega) (by omega) fun t => by
    cases t
    · exact hb.mono (by omega) (by omega)
    · trivial
theorem notM {a : Steps.M V G Bool} {n u : Nat} (ha : Within a n u) : Within (Steps.notM a) n u :=
  bind ha (by omega) (by omega) fun _ => trivial

section
variable {A B C : Type} {l : Steps.OptLike V G A} {r : Steps.OptLike V G B} {n m i j : Nat}

theorem payloadCmp (hl : Within l.deref n 0) (hr : Within r.deref m 0) (cmp : UserCmp G A B C) :
    Within (Steps.payloadCmp l r cmp) (n + m + 1) 1 :=
  bind hl (by omega) (by omega) fun _ => bind hr (by omega) (by omega) fun _ => (userCall _).mono (by omega) (by omega)

theorem optRel (hl : Within l.deref n 0) (hr : Within r.deref m 0) (hl' : Within l.hasValue i 0) (hr' : Within r.hasValue j 0) (op : RelOp)
    (cmp : RelOp → UserCmp G A B Bool) : Within (Steps.optRel l r op cmp) (i + j + (n + m + 1)) 1 := by
  have h := fun o => payloadCmp hl hr (cmp o)
  have e : ∀ b : Bool, Within (Pure.pure b : Steps.M V G Bool) 0 0 := fun _ => trivial
  have hj : ∀ f : Bool → Bool, Within (r.hasValue >>= fun b => Pure.pure (f b)) j 0 := fun f => bind hr' (by omega) (by omega) fun _ => trivial
  cases op
  · exact bind hl' (by omega) (by omega) fun _ => (andM (hj _) (orM (e _) (h _))).mono (by omega) (by omega)
  · exact bind hl' (by omega) (by omega) fun _ => (orM (hj _) (andM (e _) (h _))).mono (by omega) (by omega)
  · exact (andM hr' (orM (notM hl') (h _))).mono (by omega) (by omega)
  · exact (orM (notM hl') (andM hr' (h _))).mono (by omega) (by omega)
  · exact (andM hl' (orM (notM hr') (h _))).mono (by omega) (by omega)
  · exact (orM (notM hr') (andM hl' (h _))).mono (by omega) (by omega)

theorem optSpaceship (hl : Within l.deref n 0) (hr : Within r.deref m 0) (hl' : Within l.hasValue i 0) (hr' : Within r.hasValue j 0)
    (cmp : UserCmp G A B Cmp) {k : Nat} (hk : n + m + 1 ≤ k) (hk' : i + j ≤ k) : Within (Steps.optSpaceship l r cmp) (i + j + k) 1 := by
  unfold Steps.optSpaceship
  refine bind (andM hl' hr') (by omega) (by omega) fun b => ?_
  cases b
  · exact bind hl' (by omega) (by omega) fun _ => bind hr' (by omega) (by omega) fun _ => trivial
  · exact (payloadCmp hl hr cmp).mono (by omega) (by omega)
end

theorem condRel {U C : Type} (u : U) (e : C) (cmp : UserCmp G V U C) : Within (Steps.condRel Γ x u e cmp) 4 1 :=
  bind (hasValue x Γ) (by decide) (by decide) fun b => by
    cases b
    · trivial
    · exact bind (deref x Γ) (by decide) (by decide) fun _ => userCall _
theorem condRel' {U C : Type} (u : U) (e : C) (cmp : UserCmp G U V C) : Within (Steps.condRel' Γ x u e cmp) 4 1 :=
  bind (hasValue x Γ) (by decide) (by decide) fun b => by
    cases b
    · trivial
    · exact bind (deref x Γ) (by decide) (by decide) fun _ => userCall _

theorem execCall (c : LibCall V G α) : Within (Steps.execCall Γ c) c.budget.steps c.budget.user := by
  cases c with
  | op o => exact execOp Γ o
  | andThenConst x dst f =>
    refine bind (hasValue x Γ) (by budget) (by budget) fun b => ?_
    cases b
    · exact mono (p := Steps.storageDefaultCtor Γ dst) (storageDefaultCtor dst Γ) (by budget) (by budget)
    · exact bind (deref x Γ) (by budget) (by budget) fun _ => bind (userCall _) (by budget) (by budget) fun r => materialize dst Γ r
  | transformConst nt x dst f =>
    refine bind (hasValue x Γ) (by budget) (by budget) fun b => ?_
    cases b
    · exact mono (p := Steps.storageDefaultCtor Γ dst) (storageDefaultCtor dst Γ) (by budget) (by budget)
    · exact bind (assertHas x Γ true) (by budget) (by budget) fun _ => storageFunctionCtor dst Γ
        ((bind (n := 2) (u := 1) (getPayload x) (by budget) (by budget) fun _ => userCall _).mono (by budget) (by budget))
  | freeSwap x y tmp f =>
    cases f
    · exact swap x y Γ
    · exact bind (copyOrMoveCtor tmp x Γ _ _) (by budget) (by budget) fun _ =>
        bind (onThrow (n := 57) (u := 5) (bind (n := 48) (u := 4) (copyOrMoveAssign x y Γ _ _) (by budget) (by budget) fun _ =>
          copyOrMoveAssign y tmp Γ _ _) (by budget) (by budget) (storageDtor tmp Γ)) (by budget) (by budget) fun _ => storageDtor tmp Γ
  | rel x y op cmp => exact optRel (l := Steps.tinyOpt Γ x) (r := Steps.tinyOpt Γ y) (deref x Γ) (deref y Γ) (hasValue x Γ) (hasValue y Γ) op cmp
  | spaceship x y cmp => exact optSpaceship (l := Steps.tinyOpt Γ x) (r := Steps.tinyOpt Γ y) (deref x Γ) (deref y Γ) (hasValue x Γ) (hasValue y Γ) cmp (k := 5) (by budget) (by budget)
  | relStd x o op cmp =>
    exact optRel (l := Steps.tinyOpt Γ x) (r := Steps.stdOpt o) (m := 0) (j := 0) (deref x Γ) (by cases o <;> trivial) (hasValue x Γ) trivial op cmp
  | stdRel x o op cmp =>
    exact (optRel (l := Steps.stdOpt o) (r := Steps.tinyOpt Γ x) (n := 0) (i := 0) (by cases o <;> trivial) (deref x Γ) trivial (hasValue x Γ) op cmp).mono
      (by budget) (by budget)
  | spaceshipStd x o cmp =>
    exact optSpaceship (l := Steps.tinyOpt Γ x) (r := Steps.stdOpt o) (m := 0) (j := 0) (deref x Γ) (by cases o <;> trivial) (hasValue x Γ) trivial cmp (k := 3)
      (by budget) (by budget)
  | relNullopt x op =>
    have h := hasValue x Γ
    cases op <;> exact noexceptIf (by first | exact h | exact notM h | trivial)
  | nulloptRel x op =>
    have h := hasValue x Γ
    cases op <;> exact noexceptIf (by first | exact h | exact notM h | trivial)
  | spaceshipNullopt x => exact noexceptIf (bind (hasValue x Γ) (by budget) (by budget) fun _ => trivial)
  | relValue x u op cmp => cases op <;> exact condRel x Γ u _ _
  | valueRel x u op cmp => cases op <;> exact condRel' x Γ u _ _
  | spaceshipValue x u cmp => exact condRel x Γ u _ _
  | hash x f =>
    refine bind (hasValue x Γ) (by budget) (by budget) fun b => ?_
    cases b
    · trivial
    · exact bind (deref x Γ) (by budget) (by budget) fun _ => userCall _

/-- One step uses up one unit. -/
theorem step {p : Steps.M V G α} {n u : Nat} (h : Within p n u) (w : World V G) : Within (p.step w).1 (n - 1) (u - p.runsUser.toNat) := by
  cases p with
  | done r => trivial
  | read x k => exact h.2 _
  | write x c k => exact h.2
  | fresh k => exact h.2 _
  | event e k => exact h.2
  | user f k => exact h.2.2 _

theorem zero {p : Steps.M V G α} {u : Nat} (h : Within p 0 u) : ∃ r, p = .done r := by
  cases p with
  | done r => exact ⟨r, rfl⟩
  | read x k => exact absurd h.1 (by decide)
  | write x c k => exact absurd h.1 (by decide)
  | fresh k => exact absurd h.1 (by decide)
  | event e k => exact absurd h.1 (by decide)
  | user f k => exact absurd h.1 (by decide)

theorem disturbed {p : Steps.M V G α} {n u : Nat} (h : Within p n u) (ws : List (World V G)) :
    Within (p.disturbed ws) (n - ws.length) (u - p.userRuns ws) ∧ p.userRuns ws ≤ u := by
  induction ws generalizing p n u with
  | nil => exact ⟨h, Nat.zero_le _⟩
  | cons w ws ih =>
    have hu : p.runsUser.toNat ≤ u := by
      cases p <;> simp only [Steps.M.runsUser, Bool.toNat_false, Bool.toNat_true] <;> first | exact Nat.zero_le _ | exact h.2.1
    obtain ⟨a, b⟩ := ih (h.step w)
    exact ⟨a.mono (by simp only [List.length_cons]; omega) (by simp only [Steps.M.userRuns]; omega), by simp only [Steps.M.userRuns]; omega⟩

theorem execProg (P : TProg V G α) {n : Nat} (h : P.AtMost n) : ∃ u, Within (Steps.execProg Γ P) (104 * n) u := by
  refine ⟨9 * n, ?_⟩
  induction P generalizing n with
  | ret a => trivial
  | call c k ih =>
    have hn := h.1
    exact bind (attempt ((execCall Γ c).mono c.budget_le.1 c.budget_le.2)) (by omega) (by omega) fun r =>
      (ih r (h.2 r)).mono (by omega) (by omega)
  | own f k ih =>
    have hn := h.1
    exact bind (userPure f) (by omega) (by omega) fun r => (ih r (h.2 r)).mono (by omega) (by omega)

/-- The steps that a thread takes use up its bound; the steps of others do not matter. -/
theorem waits {T : Type} [DecidableEq T] (S : Threads T V G α) (t : T) {n u : Nat} (h : Within (S.prog t) n u) (σ : List T) :
    ∃ v, Within ((S.after σ).prog t) (n - σ.count t) v := by
  induction σ generalizing S n u with
  | nil => exact ⟨u, h⟩
  | cons a σ ih =>
    by_cases e : a = t
    · subst e
      have h' : Within ((S.step a).prog a) (n - 1) (u - (S.prog a).runsUser.toNat) := by
        show Within (if a = a then _ else _) _ _
        rw [if_pos rfl]
        exact h.step _
      obtain ⟨v, hv⟩ := ih (S.step a) h'
      exact ⟨v, hv.mono (by rw [List.count_cons_self]; omega) (Nat.le_refl _)⟩
    · have h' : Within ((S.step a).prog t) n u := by
        show Within (if t = a then _ else _) _ _
        rw [if_neg fun e' => e e'.symm]
        exact h
      obtain ⟨v, hv⟩ := ih (S.step a) h'
      exact ⟨v, hv.mono (by rw [List.count_cons_of_ne e]; omega) (Nat.le_refl _)⟩

end Within
end
end Verif
