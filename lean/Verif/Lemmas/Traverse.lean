import Verif.Lemmas.Threads

/-!
Helper lemmas: a property of programs in single steps that is respected by control flow and holds for the primitives, holds for all
library code. The optionals in `W` may be changed, those in `R` only read.
-/

namespace Verif.Model
open Verif.Spec (RelOp Cmp)

section
variable {V G α β : Type}

/-- `Q` is respected by control flow and holds for the primitives on optionals in `R` (reading) and `W`. -/
structure Traverse (Γ : Env V G) (R W : Nat → Prop) (Q : ∀ {α : Type}, Steps.M V G α → Prop) : Prop where
  done : ∀ {α : Type} (r : Res α), Q (.done r : Steps.M V G α)
  andThen : ∀ {α β : Type} {p : Steps.M V G α} {f : Res α → Steps.M V G β}, Q p → (∀ r, Q (f r)) → Q (p.andThen f)
  user : ∀ {α : Type} (f : G → G) {k : G → Steps.M V G α}, (∀ g, Q (k g)) → Q (.user f k)
  hasValue : ∀ {x : Nat}, R x ∨ W x → Q (Steps.hasValue Γ x)
  getPayload : ∀ {x : Nat}, R x ∨ W x → Q (Steps.getPayload x : Steps.M V G V)
  setPayload : ∀ {x : Nat}, W x → ∀ v, Q (Steps.setPayload (Γ x).cfg x v : Steps.M V G Unit)
  newPayload : ∀ {x : Nat}, W x → ∀ v, Q (Steps.newPayload (Γ x).cfg x v : Steps.M V G Unit)
  destroy : ∀ {x : Nat}, W x → Q (Steps.destroyPayload (Γ x).cfg (Γ x).ops.dtor x)
  invalidate : ∀ {x : Nat}, W x → Q (Steps.invalidateEmptyFlag (Γ x).cfg (Γ x).ops.dtor x)
  initEmptyFlag : ∀ {x : Nat}, W x → Q (Steps.initEmptyFlag (Γ x).cfg x : Steps.M V G Unit)
  allocate : ∀ {x : Nat}, W x → Q (Steps.allocate x : Steps.M V G Unit)
  release : ∀ {x : Nat}, W x → Q (Steps.release x : Steps.M V G Unit)

namespace Traverse
variable {Γ : Env V G} {R W : Nat → Prop} {Q : ∀ {α : Type}, Steps.M V G α → Prop} {x y : Nat} (L : Traverse Γ R W Q)
include L

theorem pure (a : α) : Q (Pure.pure a : Steps.M V G α) := L.done _
theorem throwE (e : Exn) : Q (Steps.throwE e : Steps.M V G α) := L.done _
theorem ubM (k : UB) : Q (Steps.ubM k : Steps.M V G α) := L.done _

theorem bind {m : Steps.M V G α} {f : α → Steps.M V G β} (hm : Q m) (hf : ∀ a, Q (f a)) : Q (m >>= f) :=
  L.andThen hm fun r => by
    cases r with
    | ok a => exact hf a
    | throw e => exact L.done _
    | abort a => exact L.done _

theorem onThrow {m : Steps.M V G α} {h : Steps.M V G Unit} (hm : Q m) (hh : Q h) : Q (Steps.onThrow m h) :=
  L.andThen hm fun r => by
    cases r with
    | ok a => exact L.done _
    | throw e => exact L.andThen hh fun r' => by cases r' <;> exact L.done _
    | abort a => exact L.done _

theorem noexceptIf {b : Bool} {m : Steps.M V G α} (hm : Q m) : Q (Steps.noexceptIf b m) :=
  L.andThen hm fun r => by
    cases r with
    | ok a => exact L.done _
    | throw e => cases b <;> exact L.done _
    | abort a => exact L.done _

theorem attempt {m : Steps.M V G α} (hm : Q m) : Q (Steps.attempt m) :=
  L.andThen hm fun r => by cases r <;> exact L.done _

theorem assertM {nd : Bool} {c : Steps.M V G Bool} (hc : Q c) : Q (Steps.assertM nd c) := by
  unfold Steps.assertM
  split
  · exact L.pure ()
  · exact L.bind hc fun b => by cases b <;> exact L.done _

theorem userCall (f : G → Except Exn α × G) : Q (Steps.userCall f : Steps.M V G α) := L.user _ fun g => by
  show Q (match (f g).1 with | .ok a => _ | .error e => _)
  split <;> exact L.done _
theorem userPure (f : G → α × G) : Q (Steps.userPure f : Steps.M V G α) := L.user _ fun _ => L.done _
theorem checkE (e : Option Exn) : Q (Steps.checkE e : Steps.M V G Unit) := by cases e <;> exact L.done _

/-- Splits a program into its primitives. -/
macro "walks " L:term : tactic => `(tactic| repeat' first
  | assumption
  | exact Traverse.getPayload $L (.inr ‹_›) | exact Traverse.getPayload $L ‹_› | exact Traverse.setPayload $L ‹_› _
  | exact Traverse.newPayload $L ‹_› _ | exact Traverse.destroy $L ‹_› | exact Traverse.invalidate $L ‹_› | exact Traverse.initEmptyFlag $L ‹_›
  | exact Traverse.checkE $L _ | exact Traverse.hasValue $L (.inr ‹_›) | exact Traverse.hasValue $L ‹_›
  | exact Traverse.allocate $L ‹_› | exact Traverse.release $L ‹_› | exact Traverse.userCall $L _ | exact Traverse.userPure $L _
  | exact Traverse.pure $L _ | exact Traverse.throwE $L _ | exact Traverse.ubM $L _
  | (refine Traverse.noexceptIf $L ?_) | (refine Traverse.onThrow $L ?_ ?_) | (refine Traverse.assertM $L ?_) | (refine Traverse.bind $L ?_ fun _ => ?_)
  | split)

theorem evalArg (o : Ops V G) (a : Arg V G) (hr : ∀ z ∈ a.reads, R z ∨ W z) (hw : ∀ z ∈ a.writes, W z) :
    Q (Steps.evalArg Γ o a) := by
  cases a with
  | ext nt c => exact L.userCall c
  | copyOf y =>
    have hy : R y ∨ W y := hr y (by simp [Arg.reads])
    simp only [Steps.evalArg]; walks L
  | moveOf y =>
    have hy : W y := hw y (by simp [Arg.writes])
    simp only [Steps.evalArg]; walks L

theorem payloadAssign (hx : W x) (a : AArg V G) (hr : ∀ z ∈ a.reads, R z ∨ W z) (hw : ∀ z ∈ a.writes, W z) :
    Q (Steps.payloadAssign Γ x a) := by
  cases a with
  | ext f nt c => simp only [Steps.payloadAssign]; walks L
  | copyOf y =>
    have hy : R y ∨ W y := hr y (by simp [AArg.reads])
    simp only [Steps.payloadAssign]
    exact L.bind (L.getPayload (.inr hx)) fun _ => L.bind (L.getPayload hy) fun _ => L.bind (L.userPure _) fun _ =>
      L.bind (L.setPayload hx _) fun _ => L.checkE _
  | moveOf y =>
    have hy : W y := hw y (by simp [AArg.writes])
    simp only [Steps.payloadAssign]
    refine L.bind (L.getPayload (.inr hx)) fun _ => L.bind (L.getPayload (.inr hy)) fun _ => ?_
    split
    · exact L.bind (L.userPure _) fun _ => L.bind (L.setPayload hx _) fun _ => L.checkE _
    · exact L.bind (L.userPure _) fun _ => L.bind (L.setPayload hx _) fun _ => L.bind (L.setPayload hy _) fun _ => L.checkE _

theorem assertHas (hx : R x ∨ W x) (b : Bool) : Q (Steps.assertHas Γ x b) := by
  have h := L.hasValue hx
  unfold Steps.assertHas; walks L
theorem assertSame (hx : R x ∨ W x) (hy : R y ∨ W y) : Q (Steps.assertSame Γ x y) :=
  L.assertM (L.bind (L.hasValue hx) fun _ => L.bind (L.hasValue hy) fun _ => L.pure _)
theorem constructWith (hx : W x) (nt : Bool) {mk : Steps.M V G V} (hmk : Q mk) : Q (Steps.constructWith Γ x nt mk) := by
  have h := L.assertHas (.inr hx) false; have h' := L.assertHas (.inr hx) true
  unfold Steps.constructWith; walks L
theorem constructPayload (hx : W x) (a : Arg V G) (hr : ∀ z ∈ a.reads, R z ∨ W z) (hw : ∀ z ∈ a.writes, W z) :
    Q (Steps.constructPayload Γ x a) := L.constructWith hx _ (L.evalArg _ a hr hw)
theorem reset (hx : W x) : Q (Steps.reset Γ x) := by
  have h := L.assertHas (.inr hx) false
  unfold Steps.reset Steps.destroyPayloadOf; walks L

theorem assignValue (hx : W x) (a : AArg V G) (hr : ∀ z ∈ a.reads, R z ∨ W z) (hw : ∀ z ∈ a.writes, W z) :
    Q (Steps.assignValue Γ x a) := by
  have h := L.assertHas (.inr hx) true
  have h' := L.constructPayload hx a.toArg (by rw [Fits.toArg_reads]; exact hr) (by rw [Fits.toArg_writes]; exact hw)
  have h3 := L.payloadAssign hx a hr hw
  unfold Steps.assignValue; walks L
theorem storageDefaultCtor (hx : W x) : Q (Steps.storageDefaultCtor Γ x) := by
  have h := L.assertHas (.inr hx) false
  unfold Steps.storageDefaultCtor; walks L
theorem storageInPlaceCtor (hx : W x) (a : Arg V G) (hr : ∀ z ∈ a.reads, R z ∨ W z) (hw : ∀ z ∈ a.writes, W z) :
    Q (Steps.storageInPlaceCtor Γ x a) := by
  have h := L.constructPayload hx a hr hw
  unfold Steps.storageInPlaceCtor; walks L
theorem storageFunctionCtor (hx : W x) {nt : Bool} {call : Steps.M V G V} (hc : Q call) : Q (Steps.storageFunctionCtor Γ x nt call) := by
  have h := L.constructWith hx nt hc
  unfold Steps.storageFunctionCtor Steps.constructPayloadFromFunction; walks L
theorem storageDtor (hx : W x) : Q (Steps.storageDtor Γ x) := by
  unfold Steps.storageDtor Steps.destroyPayloadOf; walks L
theorem copyOrMoveCtor (hx : W x) (hy : R y ∨ W y) (nt : Bool) (a : Arg V G) (hr : ∀ z ∈ a.reads, R z ∨ W z)
    (hw : ∀ z ∈ a.writes, W z) : Q (Steps.copyOrMoveCtor Γ nt a x y) := by
  have h := L.storageDefaultCtor hx; have h1 := L.hasValue hy; have h2 := L.constructPayload hx a hr hw
  have h3 := L.assertHas (.inr hx) false; have h4 := L.assertSame (.inr hx) hy; have h5 := L.storageDtor hx
  unfold Steps.copyOrMoveCtor; walks L
theorem copyOrMoveAssign (hx : W x) (hy : R y ∨ W y) (nt : Bool) (a : AArg V G) (hr : ∀ z ∈ a.reads, R z ∨ W z)
    (hw : ∀ z ∈ a.writes, W z) : Q (Steps.copyOrMoveAssign Γ nt a x y) := by
  have h1 := L.hasValue hy; have h2 := L.assignValue hx a hr hw
  have h3 := L.reset hx; have h4 := L.assertSame (.inr hx) hy
  unfold Steps.copyOrMoveAssign; walks L
theorem deref (hx : R x ∨ W x) : Q (Steps.deref Γ x) := by
  have h := L.assertHas hx true
  unfold Steps.deref; walks L
theorem swap (hx : W x) (hy : W y) : Q (Steps.swap Γ x y) := by
  have h3 := L.reset hx; have h4 := L.reset hy
  have h5 := L.constructPayload hx (.moveOf y) nofun (by intro z hz; simp only [Arg.writes, List.mem_singleton] at hz; rw [hz]; exact hy)
  have h6 := L.constructPayload hy (.moveOf x) nofun (by intro z hz; simp only [Arg.writes, List.mem_singleton] at hz; rw [hz]; exact hx)
  unfold Steps.swap
  refine L.noexceptIf (L.bind (L.hasValue (.inr hx)) fun a => L.bind (L.hasValue (.inr hy)) fun b => ?_)
  split
  · split
    · refine L.bind (L.getPayload (.inr hx)) fun _ => L.bind (L.getPayload (.inr hy)) fun _ => ?_
      split
      · exact L.bind (L.userPure _) fun _ => L.bind (L.setPayload hx _) fun _ => L.checkE _
      · exact L.bind (L.userPure _) fun _ => L.bind (L.setPayload hx _) fun _ => L.bind (L.setPayload hy _) fun _ => L.checkE _
    · exact L.pure _
  · split
    · exact L.bind h6 fun _ => h3
    · exact L.bind h5 fun _ => h4
theorem materialize (hx : W x) (r : Option V) : Q (Steps.materialize Γ x r) := by
  cases r
  · exact L.storageDefaultCtor hx
  · exact L.storageInPlaceCtor hx _ nofun nofun

/-- Every call of `Op`. -/
theorem execOp (op : Op V G) (hr : ∀ z ∈ op.reads, R z ∨ W z) (hw : ∀ z ∈ op.writes, W z) : Q (Steps.execOp Γ op) := by
  cases op with
  | ctorDefault x => exact L.bind (L.storageDefaultCtor (hw x (by simp [Op.writes]))) fun _ => L.pure _
  | ctorInPlace x a =>
    exact L.bind (L.storageInPlaceCtor (hw x (by simp [Op.writes])) a hr fun z hz => hw z (by simp [Op.writes, hz])) fun _ => L.pure _
  | ctorCopy x y =>
    exact L.bind (L.copyOrMoveCtor (hw x (by simp [Op.writes])) (hr y (by simp [Op.reads])) _ _ hr nofun) fun _ => L.pure _
  | ctorMove x y =>
    exact L.bind (L.copyOrMoveCtor (hw x (by simp [Op.writes])) (.inr (hw y (by simp [Op.writes]))) _ _ nofun
      fun z hz => hw z (by simp only [Arg.writes, List.mem_singleton] at hz; simp [Op.writes, hz])) fun _ => L.pure _
  | dtor x => exact L.bind (L.storageDtor (hw x (by simp [Op.writes]))) fun _ => L.pure _
  | reset x => exact L.bind (L.reset (hw x (by simp [Op.writes]))) fun _ => L.pure _
  | assignNullopt x => exact L.bind (L.noexceptIf (L.reset (hw x (by simp [Op.writes])))) fun _ => L.pure _
  | assignVal x a =>
    exact L.bind (L.assignValue (hw x (by simp [Op.writes])) a hr fun z hz => hw z (by simp [Op.writes, hz])) fun _ => L.pure _
  | assignScalar x tmp a =>
    have hx : W x := hw x (by simp [Op.writes])
    have ht : W tmp := hw tmp (by simp [Op.writes])
    exact L.bind (L.bind (L.storageInPlaceCtor ht a hr fun z hz => hw z (by simp [Op.writes, hz])) fun _ =>
      L.bind (L.onThrow (L.copyOrMoveAssign hx (.inr ht) _ _ nofun
        fun z hz => hw z (by simp only [AArg.writes, List.mem_singleton] at hz; simp [Op.writes, hz])) (L.storageDtor ht))
        fun _ => L.storageDtor ht) fun _ => L.pure _
  | assignCopy x y =>
    exact L.bind (L.copyOrMoveAssign (hw x (by simp [Op.writes])) (hr y (by simp [Op.reads])) _ _ hr nofun) fun _ => L.pure _
  | assignMove x y =>
    exact L.bind (L.copyOrMoveAssign (hw x (by simp [Op.writes])) (.inr (hw y (by simp [Op.writes]))) _ _ nofun
      fun z hz => hw z (by simp only [AArg.writes, List.mem_singleton] at hz; simp [Op.writes, hz])) fun _ => L.pure _
  | emplace x a =>
    have hx : W x := hw x (by simp [Op.writes])
    exact L.bind (L.bind (L.reset hx) fun _ => L.bind (L.constructPayload hx a hr fun z hz => hw z (by simp [Op.writes, hz])) fun _ =>
      L.bind (L.assertHas (.inr hx) true) fun _ => L.getPayload (.inr hx)) fun _ => L.pure _
  | swap x y => exact L.bind (L.swap (hw x (by simp [Op.writes])) (hw y (by simp [Op.writes]))) fun _ => L.pure _
  | hasValue x => exact L.bind (L.hasValue (hr x (by simp [Op.reads]))) fun _ => L.pure _
  | deref x => exact L.bind (L.deref (hr x (by simp [Op.reads]))) fun _ => L.pure _
  | value x =>
    have h := L.hasValue (hr x (by simp [Op.reads]))
    have h' : R x ∨ W x := hr x (by simp [Op.reads])
    simp only [Steps.execOp, Steps.value]; walks L
  | valueOr rv x d =>
    cases rv with
    | false =>
      have hx : R x ∨ W x := hr x (by simp [Op.reads])
      refine L.bind (L.bind (L.hasValue hx) fun b => ?_) fun _ => L.pure _
      cases b
      · exact L.userCall d
      · exact L.evalArg _ (.copyOf x) (by simpa [Arg.reads] using hx) nofun
    | true =>
      have hx : W x := hw x (by simp [Op.writes])
      refine L.bind (L.bind (L.hasValue (.inr hx)) fun b => ?_) fun _ => L.pure _
      cases b
      · exact L.userCall d
      · exact L.evalArg _ (.moveOf x) nofun (by simpa [Arg.writes] using hx)
  | modify x f =>
    have hx : W x := hw x (by simp [Op.writes])
    exact L.bind (L.bind (L.deref (.inr hx)) fun _ => L.bind (L.userPure _) fun _ => L.bind (L.setPayload hx _) fun _ => L.checkE _) fun _ => L.pure _
  | andThen x dst f =>
    have hx : W x := hw x (by simp [Op.writes])
    have hd : W dst := hw dst (by simp [Op.writes])
    refine L.bind (L.bind (L.hasValue (.inr hx)) fun b => ?_) fun _ => L.pure _
    cases b
    · exact L.storageDefaultCtor hd
    · refine L.bind (L.bind (L.deref (.inr hx)) fun v => L.bind (L.userPure _) fun p => L.bind (L.setPayload hx _) fun _ => ?_)
        fun r => L.materialize hd r
      rcases p with ⟨r | r, v'⟩
      · exact L.throwE _
      · exact L.pure _
  | transform nt x dst f =>
    have hx : W x := hw x (by simp [Op.writes])
    have hd : W dst := hw dst (by simp [Op.writes])
    refine L.bind (L.bind (L.hasValue (.inr hx)) fun b => ?_) fun _ => L.pure _
    cases b
    · exact L.storageDefaultCtor hd
    · refine L.bind (L.assertHas (.inr hx) true) fun _ => L.storageFunctionCtor hd (L.bind (L.getPayload (.inr hx)) fun v =>
        L.bind (L.userPure _) fun p => L.bind (L.setPayload hx _) fun _ => ?_)
      rcases p with ⟨r | r, v'⟩
      · exact L.throwE _
      · exact L.pure _
  | orElse rv x dst f =>
    cases rv with
    | false =>
      have hx : R x ∨ W x := hr x (by simp [Op.reads])
      have hd : W dst := hw dst (by simp [Op.writes])
      refine L.bind (L.bind (L.hasValue hx) fun b => ?_) fun _ => L.pure _
      cases b
      · exact L.bind (L.userCall f) fun r => L.materialize hd r
      · exact L.copyOrMoveCtor hd hx _ (.copyOf x) (by simpa [Arg.reads] using hx) nofun
    | true =>
      have hx : W x := hw x (by simp [Op.writes])
      have hd : W dst := hw dst (by simp [Op.writes])
      refine L.bind (L.bind (L.hasValue (.inr hx)) fun b => ?_) fun _ => L.pure _
      cases b
      · exact L.bind (L.userCall f) fun r => L.materialize hd r
      · exact L.copyOrMoveCtor hd (.inr hx) _ (.moveOf x) nofun (by simpa [Arg.writes] using hx)


theorem andM {a b : Steps.M V G Bool} (ha : Q a) (hb : Q b) : Q (Steps.andM a b) := by
  unfold Steps.andM; walks L
theorem orM {a b : Steps.M V G Bool} (ha : Q a) (hb : Q b) : Q (Steps.orM a b) := by
  unfold Steps.orM; walks L
theorem notM {a : Steps.M V G Bool} (ha : Q a) : Q (Steps.notM a) := by
  unfold Steps.notM; walks L

section
variable {A B C : Type} {l : Steps.OptLike V G A} {r : Steps.OptLike V G B}

theorem payloadCmp (hl : Q l.deref) (hr : Q r.deref) (cmp : UserCmp G A B C) : Q (Steps.payloadCmp l r cmp) := by
  unfold Steps.payloadCmp; walks L

theorem optRel (hl : Q l.deref) (hr : Q r.deref) (hl' : Q l.hasValue) (hr' : Q r.hasValue) (op : RelOp)
    (cmp : RelOp → UserCmp G A B Bool) : Q (Steps.optRel l r op cmp) := by
  have h := fun o => L.payloadCmp hl hr (cmp o)
  cases op
  · exact L.bind hl' fun _ => L.andM (L.bind hr' fun _ => L.pure _) (L.orM (L.pure _) (h _))
  · exact L.bind hl' fun _ => L.orM (L.bind hr' fun _ => L.pure _) (L.andM (L.pure _) (h _))
  · exact L.andM hr' (L.orM (L.notM hl') (h _))
  · exact L.orM (L.notM hl') (L.andM hr' (h _))
  · exact L.andM hl' (L.orM (L.notM hr') (h _))
  · exact L.orM (L.notM hr') (L.andM hl' (h _))

theorem optSpaceship (hl : Q l.deref) (hr : Q r.deref) (hl' : Q l.hasValue) (hr' : Q r.hasValue)
    (cmp : UserCmp G A B Cmp) : Q (Steps.optSpaceship l r cmp) := by
  have h := L.payloadCmp hl hr cmp
  have h' := L.andM hl' hr'
  unfold Steps.optSpaceship; walks L
end

theorem condRel {U C : Type} (hx : R x ∨ W x) (u : U) (d : C) (cmp : UserCmp G V U C) : Q (Steps.condRel Γ x u d cmp) := by
  have h := L.deref hx; have h' := L.hasValue hx
  unfold Steps.condRel; walks L
theorem condRel' {U C : Type} (hx : R x ∨ W x) (u : U) (d : C) (cmp : UserCmp G U V C) : Q (Steps.condRel' Γ x u d cmp) := by
  have h := L.deref hx; have h' := L.hasValue hx
  unfold Steps.condRel'; walks L

/-- Every call of the library. -/
theorem execCall (c : LibCall V G α) (hr : ∀ z ∈ c.reads, R z ∨ W z) (hw : ∀ z ∈ c.writes, W z) :
    Q (Steps.execCall Γ c) := by
  cases c with
  | op o => exact L.execOp o hr hw
  | andThenConst x dst f =>
    have hx : R x ∨ W x := hr x (by simp [LibCall.reads])
    have hd : W dst := hw dst (by simp [LibCall.writes])
    have h := L.hasValue hx; have h1 := L.deref hx; have h2 := fun r => L.materialize hd r
    have h3 := L.storageDefaultCtor hd
    refine L.bind h fun b => ?_
    cases b
    · exact h3
    · exact L.bind h1 fun _ => L.bind (L.userCall _) h2
  | transformConst nt x dst f =>
    have hx : R x ∨ W x := hr x (by simp [LibCall.reads])
    have hd : W dst := hw dst (by simp [LibCall.writes])
    refine L.bind (L.hasValue hx) fun b => ?_
    cases b
    · exact L.storageDefaultCtor hd
    · exact L.bind (L.assertHas hx true) fun _ => L.storageFunctionCtor hd (L.bind (L.getPayload hx) fun _ => L.userCall _)
  | freeSwap x y tmp f =>
    have hx : W x := hw x (by simp [LibCall.writes])
    have hy : W y := hw y (by simp [LibCall.writes])
    have ht : W tmp := hw tmp (by simp [LibCall.writes])
    cases f
    · exact L.swap hx hy
    · exact L.bind (L.copyOrMoveCtor ht (.inr hx) _ (.moveOf x) nofun (by simpa [Arg.writes] using hx)) fun _ =>
        L.bind (L.onThrow (L.bind (L.copyOrMoveAssign hx (.inr hy) _ (.moveOf y) nofun (by simpa [AArg.writes] using hy)) fun _ =>
          L.copyOrMoveAssign hy (.inr ht) _ (.moveOf tmp) nofun (by simpa [AArg.writes] using ht)) (L.storageDtor ht))
          fun _ => L.storageDtor ht
  | rel x y op cmp =>
    have hx : R x ∨ W x := hr x (by simp [LibCall.reads])
    have hy : R y ∨ W y := hr y (by simp [LibCall.reads])
    exact L.optRel (L.deref hx) (L.deref hy) (L.hasValue hx) (L.hasValue hy) op cmp
  | spaceship x y cmp =>
    have hx : R x ∨ W x := hr x (by simp [LibCall.reads])
    have hy : R y ∨ W y := hr y (by simp [LibCall.reads])
    exact L.optSpaceship (L.deref hx) (L.deref hy) (L.hasValue hx) (L.hasValue hy) cmp
  | relStd x o op cmp =>
    have hx : R x ∨ W x := hr x (by simp [LibCall.reads])
    exact L.optRel (l := Steps.tinyOpt Γ x) (r := Steps.stdOpt o) (L.deref hx) (by cases o <;> exact L.done _) (L.hasValue hx) (L.done _) op cmp
  | stdRel x o op cmp =>
    have hx : R x ∨ W x := hr x (by simp [LibCall.reads])
    exact L.optRel (l := Steps.stdOpt o) (r := Steps.tinyOpt Γ x) (by cases o <;> exact L.done _) (L.deref hx) (L.done _) (L.hasValue hx) op cmp
  | spaceshipStd x o cmp =>
    have hx : R x ∨ W x := hr x (by simp [LibCall.reads])
    exact L.optSpaceship (l := Steps.tinyOpt Γ x) (r := Steps.stdOpt o) (L.deref hx) (by cases o <;> exact L.done _) (L.hasValue hx) (L.done _) cmp
  | relNullopt x op =>
    have h := L.hasValue (hr x (by simp [LibCall.reads]))
    cases op <;> exact L.noexceptIf (by first | exact h | exact L.notM h | exact L.pure _)
  | nulloptRel x op =>
    have h := L.hasValue (hr x (by simp [LibCall.reads]))
    cases op <;> exact L.noexceptIf (by first | exact h | exact L.notM h | exact L.pure _)
  | spaceshipNullopt x => exact L.noexceptIf (L.bind (L.hasValue (hr x (by simp [LibCall.reads]))) fun _ => L.pure _)
  | relValue x u op cmp => cases op <;> exact L.condRel (hr x (by simp [LibCall.reads])) u _ _
  | valueRel x u op cmp => cases op <;> exact L.condRel' (hr x (by simp [LibCall.reads])) u _ _
  | spaceshipValue x u cmp => exact L.condRel (hr x (by simp [LibCall.reads])) u _ _
  | hash x f =>
    have h := L.hasValue (hr x (by simp [LibCall.reads])); have h' := L.deref (hr x (by simp [LibCall.reads]))
    show Q (Steps.hashOf Γ x f)
    unfold Steps.hashOf; walks L

theorem execProg (P : TProg V G α) (h : P.Within R W) : Q (Steps.execProg Γ P) := by
  induction P with
  | ret a => exact L.done _
  | call c k ih => exact L.bind (L.attempt (L.execCall c h.1 h.2.1)) fun r => ih r (h.2.2 r)
  | own f k ih => exact L.bind (L.userPure f) fun r => ih r (h r)


end Traverse
end
end Verif.Model
