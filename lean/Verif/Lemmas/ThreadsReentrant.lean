import Verif.Lemmas.Threads
import Verif.Model.Reentrant

/-! Helper lemmas: the two machines agree on re-entrant programs; which memory re-entrant programs access. -/

namespace Verif.Model
open Verif.Spec (RelOp Cmp)

/-! ## The two machines agree -/

section
variable {V G α : Type} (Γ : Env V G) (x y : Nat)

theorem toM_Re_copyOrMoveCtor (nt ntC : Bool) (c : Steps.M V G V) :
    toM (Steps.Re.copyOrMoveCtor Γ nt ntC c x y) = Re.copyOrMoveCtor Γ nt ntC (toM c) x y := by
  simp [Steps.Re.copyOrMoveCtor, Re.copyOrMoveCtor]

theorem toM_Re_transfer (rv : Bool) (c : Steps.M V G V) : toM (Steps.Re.transfer Γ rv x y c) = Re.transfer Γ rv x y (toM c) := by
  cases rv <;> simp [Steps.Re.transfer, Re.transfer, toM_Re_copyOrMoveCtor]

theorem toM_Re_destroyPayload (d : V → Steps.M V G Unit) :
    toM (Steps.Re.destroyPayload Γ x d) = Re.destroyPayload Γ x fun v => toM (d v) := by
  simp [Steps.Re.destroyPayload, Re.destroyPayload, Steps.Re.endPayload, Re.endPayload]

theorem toM_Re_reset (d : V → Steps.M V G Unit) : toM (Steps.Re.reset Γ x d) = Re.reset Γ x fun v => toM (d v) := by
  simp [Steps.Re.reset, Re.reset, toM_Re_destroyPayload]

theorem toM_Re_storageDtor (d : V → Steps.M V G Unit) : toM (Steps.Re.storageDtor Γ x d) = Re.storageDtor Γ x fun v => toM (d v) := by
  simp [Steps.Re.storageDtor, Re.storageDtor, toM_Re_destroyPayload]

theorem toM_Re_storageCtor (nt : Bool) (c : Steps.M V G V) : toM (Steps.Re.storageCtor Γ x nt c) = Re.storageCtor Γ x nt (toM c) := by
  simp [Steps.Re.storageCtor, Re.storageCtor]

theorem toM_Re_assignValue (nt : Bool) (a : Steps.M V G Unit) (c : Steps.M V G V) :
    toM (Steps.Re.assignValue Γ x nt a c) = Re.assignValue Γ x nt (toM a) (toM c) := by
  simp [Steps.Re.assignValue, Re.assignValue]

theorem toM_Re_copyOrMoveAssign (nt ntC : Bool) (a : Steps.M V G Unit) (c : Steps.M V G V) (d : V → Steps.M V G Unit) :
    toM (Steps.Re.copyOrMoveAssign Γ nt ntC a c d x y) = Re.copyOrMoveAssign Γ nt ntC (toM a) (toM c) (fun v => toM (d v)) x y := by
  simp [Steps.Re.copyOrMoveAssign, Re.copyOrMoveAssign, toM_Re_assignValue, toM_Re_reset]

theorem toM_Re_assignFrom (rv : Bool) (a : Steps.M V G Unit) (c : Steps.M V G V) (d : V → Steps.M V G Unit) :
    toM (Steps.Re.assignFrom Γ rv x y a c d) = Re.assignFrom Γ rv x y (toM a) (toM c) fun v => toM (d v) := by
  cases rv <;> simp [Steps.Re.assignFrom, Re.assignFrom, toM_Re_copyOrMoveAssign]

theorem toM_Re_emplace (nt : Bool) (d : V → Steps.M V G Unit) (c : Steps.M V G V) :
    toM (Steps.Re.emplace Γ x nt d c) = Re.emplace Γ x nt (fun v => toM (d v)) (toM c) := by
  simp [Steps.Re.emplace, Re.emplace, toM_Re_reset]

theorem toM_Re_swap (s : Steps.M V G Unit) (c : Nat → Steps.M V G V) (d : V → Steps.M V G Unit) :
    toM (Steps.Re.swap Γ x y s c d) = Re.swap Γ x y (toM s) (fun z => toM (c z)) fun v => toM (d v) := by
  unfold Steps.Re.swap Re.swap
  rw [toM_noexceptIf]
  refine congrArg _ (agree_bind (toM_hasValue Γ x) fun a => agree_bind (toM_hasValue Γ y) fun b => ?_)
  cases a <;> cases b <;> simp [toM_Re_reset]

theorem toM_Re_valueOr (c d : Steps.M V G V) : toM (Steps.Re.valueOr Γ x c d) = Re.valueOr Γ x (toM c) (toM d) := by
  simp [Steps.Re.valueOr, Re.valueOr]

theorem toM_Re_result (c : Nat → Steps.M V G V) (r : Returned) :
    toM (Steps.Re.result Γ x c r) = Re.result Γ x (fun z => toM (c z)) r := by
  cases r <;> simp [Steps.Re.result, Re.result, toM_Re_transfer]

theorem toM_Re_andThen (f : Steps.M V G Returned) (c : Nat → Steps.M V G V) :
    toM (Steps.Re.andThen Γ x y f c) = Re.andThen Γ x y (toM f) fun z => toM (c z) := by
  simp [Steps.Re.andThen, Re.andThen, toM_Re_result]

theorem toM_Re_transform (nt : Bool) (f : Steps.M V G V) : toM (Steps.Re.transform Γ nt x y f) = Re.transform Γ nt x y (toM f) := by
  simp [Steps.Re.transform, Re.transform, toM_Re_storageCtor]

theorem toM_Re_orElse (rv : Bool) (f : Steps.M V G Returned) (c : Nat → Steps.M V G V) :
    toM (Steps.Re.orElse Γ rv x y f c) = Re.orElse Γ rv x y (toM f) fun z => toM (c z) := by
  simp [Steps.Re.orElse, Re.orElse, toM_Re_transfer, toM_Re_result]

section
variable {A B R : Type} {l : Steps.OptLike V G A} {l' : OptLike V G A} {r : Steps.OptLike V G B} {r' : OptLike V G B}

theorem toM_Re_payloadCmp (hl : OptLike.Agrees l l') (hr : OptLike.Agrees r r') (cmp : A → B → Steps.M V G R) :
    toM (Steps.Re.payloadCmp l r cmp) = Re.payloadCmp l' r' fun a b => toM (cmp a b) := by
  simp [Steps.Re.payloadCmp, Re.payloadCmp, hl.deref, hr.deref]

theorem toM_Re_optRel (hl : OptLike.Agrees l l') (hr : OptLike.Agrees r r') (op : RelOp) (cmp : A → B → Steps.M V G Bool) :
    toM (Steps.Re.optRel l r op cmp) = Re.optRel l' r' op fun a b => toM (cmp a b) := by
  cases op <;> simp [Steps.Re.optRel, Re.optRel, Steps.Re.optEq, Re.optEq, Steps.Re.optNe, Re.optNe, Steps.Re.optLt, Re.optLt,
    Steps.Re.optLe, Re.optLe, Steps.Re.optGt, Re.optGt, Steps.Re.optGe, Re.optGe, toM_andM, toM_orM, toM_notM,
    toM_Re_payloadCmp hl hr, hl.has, hr.has]

theorem toM_Re_optSpaceship (hl : OptLike.Agrees l l') (hr : OptLike.Agrees r r') (cmp : A → B → Steps.M V G Cmp) :
    toM (Steps.Re.optSpaceship l r cmp) = Re.optSpaceship l' r' fun a b => toM (cmp a b) := by
  simp [Steps.Re.optSpaceship, Re.optSpaceship, toM_andM, toM_Re_payloadCmp hl hr, hl.has, hr.has]

theorem toM_Re_compare (hl : OptLike.Agrees l l') (hr : OptLike.Agrees r r') (q : Comparison R) (cmp : A → B → Steps.M V G R) :
    toM (Steps.Re.compare l r q cmp) = Re.compare l' r' q fun a b => toM (cmp a b) := by
  cases q with
  | rel op => exact toM_Re_optRel hl hr op cmp
  | spaceship => exact toM_Re_optSpaceship hl hr cmp
end

theorem toM_Re_condRel {R : Type} (d : R) (f : V → Steps.M V G R) :
    toM (Steps.Re.condRel Γ x d f) = Re.condRel Γ x d fun v => toM (f v) := by
  simp [Steps.Re.condRel, Re.condRel]

theorem toM_Re_inspect {R : Type} (q : Inspection R) (f : V → Steps.M V G R) :
    toM (Steps.Re.inspect Γ x q f) = Re.inspect Γ x q fun v => toM (f v) := by
  cases q with
  | withStd fl op has =>
    cases fl
    · exact toM_Re_optRel (tinyOpt_agrees Γ x) (stdOpt_agrees _) op _
    · exact toM_Re_optRel (stdOpt_agrees _) (tinyOpt_agrees Γ x) op _
  | spaceshipStd fl has =>
    cases fl
    · exact toM_Re_optSpaceship (tinyOpt_agrees Γ x) (stdOpt_agrees _) _
    · exact toM_Re_optSpaceship (stdOpt_agrees _) (tinyOpt_agrees Γ x) _
  | withValue fl op => cases fl <;> cases op <;> exact toM_Re_condRel Γ x _ f
  | spaceshipValue => exact toM_Re_condRel Γ x _ f
  | hash => simp [Steps.Re.inspect, Re.inspect, Steps.Re.hashOf, Re.hashOf]

theorem toM_runProg (p : Prog V G α) : toM (Steps.runProg Γ p) = runProg Γ p := by
  induction p with
  | ret r => cases r <;> rfl
  | _ => simp only [Steps.runProg, runProg, toM_bind, toM_attempt, toM_userPure, toM_execOp, toM_Re_storageCtor, toM_Re_transfer,
      toM_Re_storageDtor, toM_Re_reset, toM_Re_assignValue, toM_Re_assignFrom, toM_Re_emplace, toM_Re_swap, toM_Re_valueOr,
      toM_Re_andThen, toM_Re_transform, toM_Re_orElse, toM_Re_compare (tinyOpt_agrees Γ _) (tinyOpt_agrees Γ _), toM_Re_inspect, *]

end

/-! ## Which memory is accessed -/

section
variable {V G α β : Type}

/-- All results that the program can return satisfy `Q`. -/
def Post (Q : α → Prop) : Steps.M V G α → Prop
  | .done (.ok a) => Q a
  | .done _ => True
  | .read _ k => ∀ c, Post Q (k c)
  | .write _ _ k => Post Q k
  | .fresh k => ∀ n, Post Q (k n)
  | .event _ k => Post Q k
  | .user _ k => ∀ g, Post Q (k g)

theorem Post.bind {Q : β → Prop} {m : Steps.M V G α} {f : α → Steps.M V G β} (hf : ∀ a, Post Q (f a)) : Post Q (m >>= f) := by
  induction m with
  | done r =>
    cases r with
    | ok a => exact hf a
    | throw e => trivial
    | abort a => trivial
  | read x k ih => exact ih
  | write x c k ih => exact ih
  | fresh k ih => exact ih
  | event e k ih => exact ih
  | user h k ih => exact ih

theorem Post.runProg (Γ : Env V G) {Q : α → Prop} (p : Prog V G α) (h : p.Returns Q) : Post Q (Steps.runProg Γ p) := by
  induction p with
  | ret r => cases r <;> exact h
  | _ => rename_i ih; exact Post.bind fun r => ih r (h r)

namespace Fits
variable {R W : Nat → Prop} {x y : Nat}

theorem bindPost {Q : α → Prop} {m : Steps.M V G α} {f : α → Steps.M V G β} (hm : Fits R W m) (hq : Post Q m)
    (hf : ∀ a, Q a → Fits R W (f a)) : Fits R W (m >>= f) := by
  induction m with
  | done r =>
    cases r with
    | ok a => exact hf a hq
    | throw e => trivial
    | abort a => trivial
  | read x k ih => exact ⟨hm.1, fun c => ih c (hm.2 c) (hq c)⟩
  | write x c k ih => exact ⟨hm.1, ih hm.2 hq⟩
  | fresh k ih => exact fun n => ih n (hm n) (hq n)
  | event e k ih => exact ih hm hq
  | user h k ih => exact fun g => ih g (hm g) (hq g)

variable (Γ : Env V G)

theorem Re_transfer (hx : W x) (hy : R y ∨ W y) (rv : Bool) {c : Steps.M V G V} (hc : Fits R W c) :
    Fits R W (Steps.Re.transfer Γ rv x y c) := by
  have h := storageDefaultCtor Γ (R := R) hx; have h1 := hasValue Γ hy
  have h2 := fun nt => constructWith Γ hx nt hc
  have h3 := assertHas Γ (R := R) (.inr hx) false; have h4 := assertSame Γ (.inr hx) hy; have h5 := storageDtor Γ (R := R) hx
  unfold Steps.Re.transfer Steps.Re.copyOrMoveCtor
  fits <;> exact h2 _

theorem Re_destroyPayload (hx : W x) {d : V → Steps.M V G Unit} (hd : ∀ v, Fits R W (d v)) :
    Fits R W (Steps.Re.destroyPayload Γ x d) :=
  noexceptIf (bind (getPayload (.inr hx)) fun v => bind (hd v) fun _ => destroy hx _ _)

theorem Re_reset (hx : W x) {d : V → Steps.M V G Unit} (hd : ∀ v, Fits R W (d v)) : Fits R W (Steps.Re.reset Γ x d) := by
  have h := assertHas Γ (R := R) (.inr hx) false; have h1 := Re_destroyPayload Γ hx hd
  unfold Steps.Re.reset; fits'

theorem Re_storageDtor (hx : W x) {d : V → Steps.M V G Unit} (hd : ∀ v, Fits R W (d v)) :
    Fits R W (Steps.Re.storageDtor Γ x d) := by
  have h1 := Re_destroyPayload Γ hx hd
  unfold Steps.Re.storageDtor; fits'

theorem Re_storageCtor (hx : W x) (nt : Bool) {c : Steps.M V G V} (hc : Fits R W c) : Fits R W (Steps.Re.storageCtor Γ x nt c) := by
  have h := constructWith Γ hx nt hc
  unfold Steps.Re.storageCtor; fits'

theorem Re_assignValue (hx : W x) (nt : Bool) {a : Steps.M V G Unit} {c : Steps.M V G V} (ha : Fits R W a) (hc : Fits R W c) :
    Fits R W (Steps.Re.assignValue Γ x nt a c) := by
  have h := constructWith Γ hx nt hc; have h1 := assertHas Γ (R := R) (.inr hx) true
  unfold Steps.Re.assignValue; fits'

theorem Re_assignFrom (hx : W x) (hy : R y ∨ W y) (rv : Bool) {a : Steps.M V G Unit} {c : Steps.M V G V} {d : V → Steps.M V G Unit}
    (ha : Fits R W a) (hc : Fits R W c) (hd : ∀ v, Fits R W (d v)) : Fits R W (Steps.Re.assignFrom Γ rv x y a c d) := by
  have h1 := hasValue Γ hy; have h2 := fun nt => Re_assignValue Γ hx nt ha hc
  have h3 := Re_reset Γ hx hd; have h4 := assertSame Γ (.inr hx) hy
  unfold Steps.Re.assignFrom Steps.Re.copyOrMoveAssign
  fits <;> exact h2 _

theorem Re_emplace (hx : W x) (nt : Bool) {c : Steps.M V G V} {d : V → Steps.M V G Unit} (hd : ∀ v, Fits R W (d v))
    (hc : Fits R W c) : Fits R W (Steps.Re.emplace Γ x nt d c) :=
  bind (Re_reset Γ hx hd) fun _ => bind (constructWith Γ hx nt hc) fun _ => bind (assertHas Γ (.inr hx) true) fun _ =>
    getPayload (.inr hx)

theorem Re_swap (hx : W x) (hy : W y) {s : Steps.M V G Unit} {c : Nat → Steps.M V G V} {d : V → Steps.M V G Unit}
    (hs : Fits R W s) (hc : ∀ z, Fits R W (c z)) (hd : ∀ v, Fits R W (d v)) : Fits R W (Steps.Re.swap Γ x y s c d) := by
  have h1 := constructWith Γ hx (Γ x).ops.nothrowMoveCtor (hc y)
  have h2 := constructWith Γ hy (Γ y).ops.nothrowMoveCtor (hc x)
  have h3 := Re_reset Γ hx hd; have h4 := Re_reset Γ hy hd
  unfold Steps.Re.swap
  refine noexceptIf (bind (hasValue Γ (.inr hx)) fun a => bind (hasValue Γ (.inr hy)) fun b => ?_)
  cases a <;> cases b
  · exact pure _
  · exact bind h1 fun _ => h4
  · exact bind h2 fun _ => h3
  · exact hs

theorem Re_valueOr (hx : R x ∨ W x) {c d : Steps.M V G V} (hc : Fits R W c) (hd : Fits R W d) :
    Fits R W (Steps.Re.valueOr Γ x c d) := by
  have h := hasValue Γ hx
  unfold Steps.Re.valueOr; fits

theorem Re_result (hx : W x) {c : Nat → Steps.M V G V} (hc : ∀ z, Fits R W (c z)) :
    ∀ r : Returned, r.To (fun y => R y ∨ W y) → Fits R W (Steps.Re.result Γ x c r)
  | .object, _ => pure _
  | .lref y, hy => Re_transfer Γ hx hy _ (hc y)
  | .rref y, hy => Re_transfer Γ hx hy _ (hc y)

theorem Re_andThen (hx : R x ∨ W x) (hy : W y) {f : Steps.M V G Returned} {c : Nat → Steps.M V G V} (hf : Fits R W f)
    (hq : Post (Returned.To fun y => R y ∨ W y) f) (hc : ∀ z, Fits R W (c z)) : Fits R W (Steps.Re.andThen Γ x y f c) := by
  unfold Steps.Re.andThen
  refine bind (hasValue Γ hx) fun b => ?_
  cases b
  · exact storageDefaultCtor Γ hy
  · exact bind (assertHas Γ hx true) fun _ => bindPost hf hq fun r hr => Re_result Γ hy hc r hr

theorem Re_transform {nt : Bool} (hx : R x ∨ W x) (hy : W y) {f : Steps.M V G V} (hf : Fits R W f) : Fits R W (Steps.Re.transform Γ nt x y f) := by
  unfold Steps.Re.transform
  refine bind (hasValue Γ hx) fun b => ?_
  cases b
  · exact storageDefaultCtor Γ hy
  · exact bind (assertHas Γ hx true) fun _ => Re_storageCtor Γ hy _ hf

theorem Re_orElse (hx : R x ∨ W x) (hy : W y) (rv : Bool) {f : Steps.M V G Returned} {c : Nat → Steps.M V G V} (hf : Fits R W f)
    (hq : Post (Returned.To fun y => R y ∨ W y) f) (hc : ∀ z, Fits R W (c z)) : Fits R W (Steps.Re.orElse Γ rv x y f c) := by
  unfold Steps.Re.orElse
  refine bind (hasValue Γ hx) fun b => ?_
  cases b
  · refine bindPost hf hq fun r hr => Re_result Γ hy hc _ ?_
    cases rv
    · cases r <;> exact hr
    · exact hr
  · exact Re_transfer Γ hy hx _ (hc x)

section
variable {A B C : Type} {l : Steps.OptLike V G A} {r : Steps.OptLike V G B}

theorem Re_payloadCmp (hl : Fits R W l.deref) (hr : Fits R W r.deref) {cmp : A → B → Steps.M V G C} (hc : ∀ a b, Fits R W (cmp a b)) :
    Fits R W (Steps.Re.payloadCmp l r cmp) := bind hl fun a => bind hr fun b => hc a b

theorem Re_optRel (hl : Fits R W l.deref) (hr : Fits R W r.deref) (hl' : Fits R W l.hasValue) (hr' : Fits R W r.hasValue)
    (op : RelOp) {cmp : A → B → Steps.M V G Bool} (hc : ∀ a b, Fits R W (cmp a b)) : Fits R W (Steps.Re.optRel l r op cmp) := by
  have h := Re_payloadCmp hl hr hc
  cases op
  · exact bind hl' fun _ => andM (bind hr' fun _ => pure _) (orM (pure _) h)
  · exact bind hl' fun _ => orM (bind hr' fun _ => pure _) (andM (pure _) h)
  · exact andM hr' (orM (notM hl') h)
  · exact orM (notM hl') (andM hr' h)
  · exact andM hl' (orM (notM hr') h)
  · exact orM (notM hr') (andM hl' h)

theorem Re_optSpaceship (hl : Fits R W l.deref) (hr : Fits R W r.deref) (hl' : Fits R W l.hasValue) (hr' : Fits R W r.hasValue)
    {cmp : A → B → Steps.M V G Cmp} (hc : ∀ a b, Fits R W (cmp a b)) : Fits R W (Steps.Re.optSpaceship l r cmp) := by
  have h := Re_payloadCmp hl hr hc
  have h' := andM hl' hr'
  unfold Steps.Re.optSpaceship; fits

theorem Re_compare (hl : Fits R W l.deref) (hr : Fits R W r.deref) (hl' : Fits R W l.hasValue) (hr' : Fits R W r.hasValue)
    (q : Comparison C) {cmp : A → B → Steps.M V G C} (hc : ∀ a b, Fits R W (cmp a b)) : Fits R W (Steps.Re.compare l r q cmp) := by
  cases q with
  | rel op => exact Re_optRel hl hr hl' hr' op hc
  | spaceship => exact Re_optSpaceship hl hr hl' hr' hc
end

theorem Re_condRel {C : Type} (hx : R x ∨ W x) (d : C) {f : V → Steps.M V G C} (hf : ∀ v, Fits R W (f v)) :
    Fits R W (Steps.Re.condRel Γ x d f) := by
  have h := hasValue Γ hx
  unfold Steps.Re.condRel
  refine bind h fun b => ?_
  cases b
  · exact pure _
  · exact bind (deref Γ hx) hf

theorem Re_inspect {C : Type} (hx : R x ∨ W x) (q : Inspection C) {f : V → Steps.M V G C} (hf : ∀ v, Fits R W (f v)) :
    Fits R W (Steps.Re.inspect Γ x q f) := by
  have hs : ∀ o : Option Unit, Fits R W (Steps.stdOpt (V := V) (G := G) o).deref := fun o => by cases o <;> trivial
  cases q with
  | withStd fl op has =>
    cases fl
    · exact Re_optRel (l := Steps.tinyOpt Γ x) (r := Steps.stdOpt _) (deref Γ hx) (hs _) (hasValue Γ hx) trivial op fun v _ => hf v
    · exact Re_optRel (l := Steps.stdOpt _) (r := Steps.tinyOpt Γ x) (hs _) (deref Γ hx) trivial (hasValue Γ hx) op fun _ v => hf v
  | spaceshipStd fl has =>
    cases fl
    · exact Re_optSpaceship (l := Steps.tinyOpt Γ x) (r := Steps.stdOpt _) (deref Γ hx) (hs _) (hasValue Γ hx) trivial fun v _ => hf v
    · exact Re_optSpaceship (l := Steps.stdOpt _) (r := Steps.tinyOpt Γ x) (hs _) (deref Γ hx) trivial (hasValue Γ hx) fun _ v => hf v
  | withValue fl op => cases fl <;> cases op <;> exact Re_condRel Γ hx _ hf
  | spaceshipValue => exact Re_condRel Γ hx _ hf
  | hash =>
    show Fits R W (Steps.Re.hashOf Γ x f)
    unfold Steps.Re.hashOf
    refine bind (hasValue Γ hx) fun b => ?_
    cases b
    · exact pure _
    · exact bind (deref Γ hx) hf

/-- Re-entrant programs. -/
theorem runProg (p : Prog V G α) (h : p.Within R W) : Fits R W (Steps.runProg Γ p) := by
  induction p with
  | ret r => cases r <;> trivial
  | user f k ih => exact bind (userPure _) fun g => ih g (h g)
  | call op k ih => exact bind (attempt (execOp Γ op h.1 h.2.1)) fun r => ih r (h.2.2 r)
  | construct x nt c k ihc ih => exact bind (attempt (Re_storageCtor Γ h.1 nt (ihc h.2.1))) fun r => ih r (h.2.2 r)
  | transfer rv x y c k ihc ih => exact bind (attempt (Re_transfer Γ h.1 h.2.1 rv (ihc h.2.2.1))) fun r => ih r (h.2.2.2 r)
  | destroy x d k ihd ih => exact bind (attempt (Re_storageDtor Γ h.1 fun v => ihd v (h.2.1 v))) fun r => ih r (h.2.2 r)
  | reset x d k ihd ih => exact bind (attempt (Re_reset Γ h.1 fun v => ihd v (h.2.1 v))) fun r => ih r (h.2.2 r)
  | assign x nt a c k iha ihc ih =>
    exact bind (attempt (Re_assignValue Γ h.1 nt (iha h.2.1) (ihc h.2.2.1))) fun r => ih r (h.2.2.2 r)
  | assignFrom rv x y a c d k iha ihc ihd ih =>
    exact bind (attempt (Re_assignFrom Γ h.1 h.2.1 rv (iha h.2.2.1) (ihc h.2.2.2.1) fun v => ihd v (h.2.2.2.2.1 v)))
      fun r => ih r (h.2.2.2.2.2 r)
  | emplace x nt d c k ihd ihc ih =>
    exact bind (attempt (Re_emplace Γ h.1 nt (fun v => ihd v (h.2.1 v)) (ihc h.2.2.1))) fun r => ih r (h.2.2.2 r)
  | swap x y s c d k ihs ihc ihd ih =>
    exact bind (attempt (Re_swap Γ h.1 h.2.1 (ihs h.2.2.1) (fun z => ihc z (h.2.2.2.1 z)) fun v => ihd v (h.2.2.2.2.1 v)))
      fun r => ih r (h.2.2.2.2.2 r)
  | valueOr x c d k ihc ihd ih =>
    exact bind (attempt (Re_valueOr Γ h.1 (ihc h.2.1) (ihd h.2.2.1))) fun r => ih r (h.2.2.2 r)
  | andThen x dst f c k ihf ihc ih =>
    exact bind (attempt (Re_andThen Γ h.1 h.2.1 (ihf h.2.2.1) (Post.runProg Γ f h.2.2.2.1) fun z => ihc z (h.2.2.2.2.1 z)))
      fun r => ih r (h.2.2.2.2.2 r)
  | transform nt x dst f k ihf ih => exact bind (attempt (Re_transform Γ h.1 h.2.1 (ihf h.2.2.1))) fun r => ih r (h.2.2.2 r)
  | orElse rv x dst f c k ihf ihc ih =>
    exact bind (attempt (Re_orElse Γ h.1 h.2.1 rv (ihf h.2.2.1) (Post.runProg Γ f h.2.2.2.1) fun z => ihc z (h.2.2.2.2.1 z)))
      fun r => ih r (h.2.2.2.2.2 r)
  | compare q x y cmp k ihc ih =>
    exact bind (attempt (Re_compare (l := Steps.tinyOpt Γ x) (r := Steps.tinyOpt Γ y) (deref Γ h.1) (deref Γ h.2.1) (hasValue Γ h.1)
      (hasValue Γ h.2.1) q fun a b => ihc a b (h.2.2.1 a b))) fun r => ih r (h.2.2.2 r)
  | inspect q x f k ihf ih => exact bind (attempt (Re_inspect Γ h.1 q fun v => ihf v (h.2.1 v))) fun r => ih r (h.2.2 r)

end Fits
end
end Verif.Model
