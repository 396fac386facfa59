import Verif.Lemmas.Traverse
import Verif.Lemmas.ThreadsReentrant
import Verif.Lemmas.FlatMemory

/-! Helper lemmas: `Traverse` for programs whose user code calls the library. -/

namespace Verif.Model
open Verif.Spec (RelOp Cmp Agrees ShareByte)

section
variable {V G α β : Type}

/-- In addition: the end of a payload's lifetime, and control flow that depends on what a program can return. -/
structure TraverseRe (Γ : Env V G) (R W : Nat → Prop) (Q : ∀ {α : Type}, Steps.M V G α → Prop) : Prop extends Traverse Γ R W Q where
  endPayload : ∀ {x : Nat}, W x → Q (Steps.Re.endPayload Γ x)
  andThenPost : ∀ {α β : Type} {S : α → Prop} {p : Steps.M V G α} {f : Res α → Steps.M V G β}, Q p → Post S p →
    (∀ r, (∀ a, r = .ok a → S a) → Q (f r)) → Q (p.andThen f)

namespace TraverseRe
variable {Γ : Env V G} {R W : Nat → Prop} {Q : ∀ {α : Type}, Steps.M V G α → Prop} {x y : Nat} (L : TraverseRe Γ R W Q)
include L

theorem bindPost {S : α → Prop} {m : Steps.M V G α} {f : α → Steps.M V G β} (hm : Q m) (hq : Post S m) (hf : ∀ a, S a → Q (f a)) :
    Q (m >>= f) :=
  L.andThenPost hm hq fun r hr => by
    cases r with
    | ok a => exact hf a (hr a rfl)
    | throw e => exact L.done _
    | abort a => exact L.done _

theorem Re_transfer (hx : W x) (hy : R y ∨ W y) (rv : Bool) {c : Steps.M V G V} (hc : Q c) :
    Q (Steps.Re.transfer Γ rv x y c) := by
  have h := L.storageDefaultCtor hx; have h1 := L.hasValue hy
  have h2 := fun nt => L.constructWith hx nt hc
  have h3 := L.assertHas (.inr hx) false; have h4 := L.assertSame (.inr hx) hy; have h5 := L.storageDtor hx
  unfold Steps.Re.transfer Steps.Re.copyOrMoveCtor
  walks L.toTraverse <;> exact h2 _

theorem Re_destroyPayload (hx : W x) {d : V → Steps.M V G Unit} (hd : ∀ v, Q (d v)) :
    Q (Steps.Re.destroyPayload Γ x d) :=
  L.noexceptIf (L.bind (L.getPayload (.inr hx)) fun v => L.bind (hd v) fun _ => L.endPayload hx)

theorem Re_reset (hx : W x) {d : V → Steps.M V G Unit} (hd : ∀ v, Q (d v)) : Q (Steps.Re.reset Γ x d) := by
  have h := L.assertHas (.inr hx) false; have h1 := L.Re_destroyPayload hx hd
  unfold Steps.Re.reset; walks L.toTraverse

theorem Re_storageDtor (hx : W x) {d : V → Steps.M V G Unit} (hd : ∀ v, Q (d v)) :
    Q (Steps.Re.storageDtor Γ x d) := by
  have h1 := L.Re_destroyPayload hx hd
  unfold Steps.Re.storageDtor; walks L.toTraverse

theorem Re_storageCtor (hx : W x) (nt : Bool) {c : Steps.M V G V} (hc : Q c) : Q (Steps.Re.storageCtor Γ x nt c) := by
  have h := L.constructWith hx nt hc
  unfold Steps.Re.storageCtor; walks L.toTraverse

theorem Re_assignValue (hx : W x) (nt : Bool) {a : Steps.M V G Unit} {c : Steps.M V G V} (ha : Q a) (hc : Q c) :
    Q (Steps.Re.assignValue Γ x nt a c) := by
  have h := L.constructWith hx nt hc; have h1 := L.assertHas (.inr hx) true
  unfold Steps.Re.assignValue; walks L.toTraverse

theorem Re_assignFrom (hx : W x) (hy : R y ∨ W y) (rv : Bool) {a : Steps.M V G Unit} {c : Steps.M V G V} {d : V → Steps.M V G Unit}
    (ha : Q a) (hc : Q c) (hd : ∀ v, Q (d v)) : Q (Steps.Re.assignFrom Γ rv x y a c d) := by
  have h1 := L.hasValue hy; have h2 := fun nt => L.Re_assignValue hx nt ha hc
  have h3 := L.Re_reset hx hd; have h4 := L.assertSame (.inr hx) hy
  unfold Steps.Re.assignFrom Steps.Re.copyOrMoveAssign
  walks L.toTraverse <;> exact h2 _

theorem Re_emplace (hx : W x) (nt : Bool) {c : Steps.M V G V} {d : V → Steps.M V G Unit} (hd : ∀ v, Q (d v))
    (hc : Q c) : Q (Steps.Re.emplace Γ x nt d c) :=
  L.bind (L.Re_reset hx hd) fun _ => L.bind (L.constructWith hx nt hc) fun _ => L.bind (L.assertHas (.inr hx) true) fun _ =>
    L.getPayload (.inr hx)

theorem Re_swap (hx : W x) (hy : W y) {s : Steps.M V G Unit} {c : Nat → Steps.M V G V} {d : V → Steps.M V G Unit}
    (hs : Q s) (hc : ∀ z, Q (c z)) (hd : ∀ v, Q (d v)) : Q (Steps.Re.swap Γ x y s c d) := by
  have h1 := L.constructWith hx (Γ x).ops.nothrowMoveCtor (hc y)
  have h2 := L.constructWith hy (Γ y).ops.nothrowMoveCtor (hc x)
  have h3 := L.Re_reset hx hd; have h4 := L.Re_reset hy hd
  unfold Steps.Re.swap
  refine L.noexceptIf (L.bind (L.hasValue (.inr hx)) fun a => L.bind (L.hasValue (.inr hy)) fun b => ?_)
  cases a <;> cases b
  · exact L.pure _
  · exact L.bind h1 fun _ => h4
  · exact L.bind h2 fun _ => h3
  · exact hs

theorem Re_valueOr (hx : R x ∨ W x) {c d : Steps.M V G V} (hc : Q c) (hd : Q d) :
    Q (Steps.Re.valueOr Γ x c d) := by
  have h := L.hasValue hx
  unfold Steps.Re.valueOr; walks L.toTraverse

theorem Re_result (hx : W x) {c : Nat → Steps.M V G V} (hc : ∀ z, Q (c z)) :
    ∀ r : Returned, r.To (fun y => R y ∨ W y) → Q (Steps.Re.result Γ x c r)
  | .object, _ => L.pure _
  | .lref y, hy => L.Re_transfer hx hy _ (hc y)
  | .rref y, hy => L.Re_transfer hx hy _ (hc y)

theorem Re_andThen (hx : R x ∨ W x) (hy : W y) {f : Steps.M V G Returned} {c : Nat → Steps.M V G V} (hf : Q f)
    (hq : Post (Returned.To fun y => R y ∨ W y) f) (hc : ∀ z, Q (c z)) : Q (Steps.Re.andThen Γ x y f c) := by
  unfold Steps.Re.andThen
  refine L.bind (L.hasValue hx) fun b => ?_
  cases b
  · exact L.storageDefaultCtor hy
  · exact L.bind (L.assertHas hx true) fun _ => L.bindPost hf hq fun r hr => L.Re_result hy hc r hr

theorem Re_transform {nt : Bool} (hx : R x ∨ W x) (hy : W y) {f : Steps.M V G V} (hf : Q f) : Q (Steps.Re.transform Γ nt x y f) := by
  unfold Steps.Re.transform
  refine L.bind (L.hasValue hx) fun b => ?_
  cases b
  · exact L.storageDefaultCtor hy
  · exact L.bind (L.assertHas hx true) fun _ => L.Re_storageCtor hy _ hf

theorem Re_orElse (hx : R x ∨ W x) (hy : W y) (rv : Bool) {f : Steps.M V G Returned} {c : Nat → Steps.M V G V} (hf : Q f)
    (hq : Post (Returned.To fun y => R y ∨ W y) f) (hc : ∀ z, Q (c z)) : Q (Steps.Re.orElse Γ rv x y f c) := by
  unfold Steps.Re.orElse
  refine L.bind (L.hasValue hx) fun b => ?_
  cases b
  · refine L.bindPost hf hq fun r hr => L.Re_result hy hc _ ?_
    cases rv
    · cases r <;> exact hr
    · exact hr
  · exact L.Re_transfer hy hx _ (hc x)

section
variable {A B C : Type} {l : Steps.OptLike V G A} {r : Steps.OptLike V G B}

theorem Re_payloadCmp (hl : Q l.deref) (hr : Q r.deref) {cmp : A → B → Steps.M V G C} (hc : ∀ a b, Q (cmp a b)) :
    Q (Steps.Re.payloadCmp l r cmp) := L.bind hl fun a => L.bind hr fun b => hc a b

theorem Re_optRel (hl : Q l.deref) (hr : Q r.deref) (hl' : Q l.hasValue) (hr' : Q r.hasValue)
    (op : RelOp) {cmp : A → B → Steps.M V G Bool} (hc : ∀ a b, Q (cmp a b)) : Q (Steps.Re.optRel l r op cmp) := by
  have h := L.Re_payloadCmp hl hr hc
  cases op
  · exact L.bind hl' fun _ => L.andM (L.bind hr' fun _ => L.pure _) (L.orM (L.pure _) h)
  · exact L.bind hl' fun _ => L.orM (L.bind hr' fun _ => L.pure _) (L.andM (L.pure _) h)
  · exact L.andM hr' (L.orM (L.notM hl') h)
  · exact L.orM (L.notM hl') (L.andM hr' h)
  · exact L.andM hl' (L.orM (L.notM hr') h)
  · exact L.orM (L.notM hr') (L.andM hl' h)

theorem Re_optSpaceship (hl : Q l.deref) (hr : Q r.deref) (hl' : Q l.hasValue) (hr' : Q r.hasValue)
    {cmp : A → B → Steps.M V G Cmp} (hc : ∀ a b, Q (cmp a b)) : Q (Steps.Re.optSpaceship l r cmp) := by
  have h := L.Re_payloadCmp hl hr hc
  have h' := L.andM hl' hr'
  unfold Steps.Re.optSpaceship; walks L.toTraverse

theorem Re_compare (hl : Q l.deref) (hr : Q r.deref) (hl' : Q l.hasValue) (hr' : Q r.hasValue)
    (q : Comparison C) {cmp : A → B → Steps.M V G C} (hc : ∀ a b, Q (cmp a b)) : Q (Steps.Re.compare l r q cmp) := by
  cases q with
  | rel op => exact L.Re_optRel hl hr hl' hr' op hc
  | spaceship => exact L.Re_optSpaceship hl hr hl' hr' hc
end

theorem Re_condRel {C : Type} (hx : R x ∨ W x) (d : C) {f : V → Steps.M V G C} (hf : ∀ v, Q (f v)) :
    Q (Steps.Re.condRel Γ x d f) := by
  have h := L.hasValue hx
  unfold Steps.Re.condRel
  refine L.bind h fun b => ?_
  cases b
  · exact L.pure _
  · exact L.bind (L.deref hx) hf

theorem Re_inspect {C : Type} (hx : R x ∨ W x) (q : Inspection C) {f : V → Steps.M V G C} (hf : ∀ v, Q (f v)) :
    Q (Steps.Re.inspect Γ x q f) := by
  have hs : ∀ o : Option Unit, Q (Steps.stdOpt (V := V) (G := G) o).deref := fun o => by cases o <;> exact L.done _
  cases q with
  | withStd fl op has =>
    cases fl
    · exact L.Re_optRel (l := Steps.tinyOpt Γ x) (r := Steps.stdOpt _) (L.deref hx) (hs _) (L.hasValue hx) (L.pure _) op fun v _ => hf v
    · exact L.Re_optRel (l := Steps.stdOpt _) (r := Steps.tinyOpt Γ x) (hs _) (L.deref hx) (L.pure _) (L.hasValue hx) op fun _ v => hf v
  | spaceshipStd fl has =>
    cases fl
    · exact L.Re_optSpaceship (l := Steps.tinyOpt Γ x) (r := Steps.stdOpt _) (L.deref hx) (hs _) (L.hasValue hx) (L.pure _) fun v _ => hf v
    · exact L.Re_optSpaceship (l := Steps.stdOpt _) (r := Steps.tinyOpt Γ x) (hs _) (L.deref hx) (L.pure _) (L.hasValue hx) fun _ v => hf v
  | withValue fl op => cases fl <;> cases op <;> exact L.Re_condRel hx _ hf
  | spaceshipValue => exact L.Re_condRel hx _ hf
  | hash =>
    show Q (Steps.Re.hashOf Γ x f)
    unfold Steps.Re.hashOf
    refine L.bind (L.hasValue hx) fun b => ?_
    cases b
    · exact L.pure _
    · exact L.bind (L.deref hx) hf

/-- Re-entrant programs. -/
theorem runProg (p : Prog V G α) (h : p.Within R W) : Q (Steps.runProg Γ p) := by
  induction p with
  | ret r => cases r <;> exact L.done _
  | user f k ih => exact L.bind (L.userPure _) fun g => ih g (h g)
  | call op k ih => exact L.bind (L.attempt (L.execOp op h.1 h.2.1)) fun r => ih r (h.2.2 r)
  | construct x nt c k ihc ih => exact L.bind (L.attempt (L.Re_storageCtor h.1 nt (ihc h.2.1))) fun r => ih r (h.2.2 r)
  | transfer rv x y c k ihc ih => exact L.bind (L.attempt (L.Re_transfer h.1 h.2.1 rv (ihc h.2.2.1))) fun r => ih r (h.2.2.2 r)
  | destroy x d k ihd ih => exact L.bind (L.attempt (L.Re_storageDtor h.1 fun v => ihd v (h.2.1 v))) fun r => ih r (h.2.2 r)
  | reset x d k ihd ih => exact L.bind (L.attempt (L.Re_reset h.1 fun v => ihd v (h.2.1 v))) fun r => ih r (h.2.2 r)
  | assign x nt a c k iha ihc ih =>
    exact L.bind (L.attempt (L.Re_assignValue h.1 nt (iha h.2.1) (ihc h.2.2.1))) fun r => ih r (h.2.2.2 r)
  | assignFrom rv x y a c d k iha ihc ihd ih =>
    exact L.bind (L.attempt (L.Re_assignFrom h.1 h.2.1 rv (iha h.2.2.1) (ihc h.2.2.2.1) fun v => ihd v (h.2.2.2.2.1 v)))
      fun r => ih r (h.2.2.2.2.2 r)
  | emplace x nt d c k ihd ihc ih =>
    exact L.bind (L.attempt (L.Re_emplace h.1 nt (fun v => ihd v (h.2.1 v)) (ihc h.2.2.1))) fun r => ih r (h.2.2.2 r)
  | swap x y s c d k ihs ihc ihd ih =>
    exact L.bind (L.attempt (L.Re_swap h.1 h.2.1 (ihs h.2.2.1) (fun z => ihc z (h.2.2.2.1 z)) fun v => ihd v (h.2.2.2.2.1 v)))
      fun r => ih r (h.2.2.2.2.2 r)
  | valueOr x c d k ihc ihd ih =>
    exact L.bind (L.attempt (L.Re_valueOr h.1 (ihc h.2.1) (ihd h.2.2.1))) fun r => ih r (h.2.2.2 r)
  | andThen x dst f c k ihf ihc ih =>
    exact L.bind (L.attempt (L.Re_andThen h.1 h.2.1 (ihf h.2.2.1) (Post.runProg Γ f h.2.2.2.1) fun z => ihc z (h.2.2.2.2.1 z)))
      fun r => ih r (h.2.2.2.2.2 r)
  | transform nt x dst f k ihf ih => exact L.bind (L.attempt (L.Re_transform h.1 h.2.1 (ihf h.2.2.1))) fun r => ih r (h.2.2.2 r)
  | orElse rv x dst f c k ihf ihc ih =>
    exact L.bind (L.attempt (L.Re_orElse h.1 h.2.1 rv (ihf h.2.2.1) (Post.runProg Γ f h.2.2.2.1) fun z => ihc z (h.2.2.2.2.1 z)))
      fun r => ih r (h.2.2.2.2.2 r)
  | compare q x y cmp k ihc ih =>
    exact L.bind (L.attempt (L.Re_compare (l := Steps.tinyOpt Γ x) (r := Steps.tinyOpt Γ y) (L.deref h.1) (L.deref h.2.1) (L.hasValue h.1)
      (L.hasValue h.2.1) q fun a b => ihc a b (h.2.2.1 a b))) fun r => ih r (h.2.2.2 r)
  | inspect q x f k ihf ih => exact L.bind (L.attempt (L.Re_inspect h.1 q fun v => ihf v (h.2.1 v))) fun r => ih r (h.2.2 r)

end TraverseRe

/-- What a program returns in one memory is something that it can return. -/
theorem Post.flat {Γ : Env V G} {pos : Placement} {bad : Nat → Nat → Prop} {S : α → Prop} {p : Steps.M V G α} (h : Post S p)
    (f : FlatWorld V G) (a : α) (ha : (p.flat Γ pos bad f).1 = .ok a) : S a := by
  induction p generalizing f with
  | done r => cases ha; exact h
  | read x k ih => exact ih _ (h _) _ ha
  | write x c k ih => exact ih h _ ha
  | fresh k ih => exact ih _ (h _) _ ha
  | event e k ih => exact ih h _ ha
  | user g k ih => exact ih _ (h _) _ ha

theorem _root_.Verif.Prog.returns_all {S : α → Prop} (hS : ∀ a, S a) (p : Prog V G α) : p.Returns S := by
  induction p with
  | ret r => cases r <;> first | exact hS _ | trivial
  | _ => rename_i ih; exact fun r => ih r hS

theorem _root_.Verif.Prog.within_all (p : Prog V G α) : p.Within (fun _ => True) (fun _ => True) := by
  have hr : ∀ f : Prog V G Returned, f.Returns (Returned.To fun _ => True ∨ True) := fun f =>
    f.returns_all fun r => by cases r <;> simp [Returned.To]
  induction p <;> simp_all [Prog.Within]

/-- Programs whose user code calls the library, in one memory. -/
theorem Flatly.traverseRe {Γ : Env V G} {pos : Placement} {W : Nat → Prop} (hΓ : ∀ x, (Γ x).cfg.WF) (R : Nat → Prop) :
    TraverseRe Γ R W (Flatly Γ pos W) where
  toTraverse := Flatly.traverse hΓ R
  endPayload hx := Flatly.destroy hx _
  andThenPost := by
    intro α β S p k hp hq hk f w h
    unfold FlatSim
    rw [flat_andThen, exec_andThen]
    rcases hp f w h with hc | ⟨h1, h2, h3⟩
    · exact .inl (flat_clash hc _)
    · have hr := hk (p.flat Γ pos (ShareByte Γ pos) f).1 (fun a e => hq.flat f a e) _ _ h2
      rw [← h1]
      rcases hr with hc | ⟨h4, h5, h6⟩
      · exact .inl hc
      · exact .inr ⟨h4, h5, fun a ha => (h6 a ha).trans (h3 a ha)⟩

end
end Verif.Model
