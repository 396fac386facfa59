import Verif.Lemmas.Bounds
import Verif.Model.Reentrant

/-! Helper lemmas: no access outside of an optional is attempted by functions whose user code attempts none. -/

namespace Verif.Model.InB
open Verif.Spec (RelOp Cmp)

variable {V G α A D R : Type} {Γ : Env V G} {x y : Nat}

theorem attempt {m : M V G α} (hm : InB m) : InB (Model.attempt m) := by
  intro w
  have h1 := hm w
  unfold Model.attempt
  rcases hw : m w with ⟨a | e | k, w'⟩ <;> rw [hw] at h1
  · nofun
  · nofun
  · intro h; cases h; exact h1 rfl

theorem andM {a b : M V G Bool} (ha : InB a) (hb : InB b) : InB (Model.andM a b) :=
  bind ha fun r => by cases r; exact pure _; exact hb
theorem orM {a b : M V G Bool} (ha : InB a) (hb : InB b) : InB (Model.orM a b) :=
  bind ha fun r => by cases r; exact hb; exact pure _
theorem notM {a : M V G Bool} (ha : InB a) : InB (Model.notM a) := bind ha fun _ => pure _

variable (hΓ : ∀ x, (Γ x).cfg.WF)
include hΓ

omit hΓ in
theorem reDestroy {d : V → M V G Unit} (hd : ∀ v, InB (d v)) : InB (Re.destroyPayload Γ x d) := by
  exact noexceptIf (bind (getPayload x) fun v => bind (hd v) fun _ => destroy _ _ x)

theorem reReset {d : V → M V G Unit} (hd : ∀ v, InB (d v)) : InB (Re.reset Γ x d) := by
  have h1 := hasValue hΓ x; have h2 := reDestroy (Γ := Γ) (x := x) hd; have h3 := initEmptyFlag hΓ x; have h4 := assertHas hΓ x false
  unfold Re.reset; inb

theorem reDtor {d : V → M V G Unit} (hd : ∀ v, InB (d v)) : InB (Re.storageDtor Γ x d) := by
  have h1 := hasValue hΓ x; have h2 := reDestroy (Γ := Γ) (x := x) hd
  unfold Re.storageDtor; inb

theorem reCtor {nt : Bool} {mk : M V G V} (hm : InB mk) : InB (Re.storageCtor Γ x nt mk) := by
  have h1 := initEmptyFlag hΓ x; have h2 := constructWith hΓ x nt hm
  unfold Re.storageCtor; inb

theorem reAssign {nt : Bool} {asg : M V G Unit} {mk : M V G V} (ha : InB asg) (hm : InB mk) : InB (Re.assignValue Γ x nt asg mk) := by
  have h1 := hasValue hΓ x; have h2 := constructWith hΓ x nt hm; have h3 := assertHas hΓ x true
  unfold Re.assignValue; inb

theorem reTransfer {rv : Bool} {mk : M V G V} (hm : InB mk) : InB (Re.transfer Γ rv x y mk) := by
  have key : ∀ nt ntC, InB (Re.copyOrMoveCtor Γ nt ntC mk x y) := by
    intro nt ntC
    have h1 := storageDefaultCtor hΓ x; have h2 := hasValue hΓ y; have h3 := constructWith hΓ x ntC hm; have h4 := assertHas hΓ x false
    have h5 := assertSame hΓ x y; have h6 := storageDtor hΓ x
    unfold Re.copyOrMoveCtor; inb
  cases rv <;> exact key _ _

theorem reAssignFrom {rv : Bool} {asg : M V G Unit} {mk : M V G V} {d : V → M V G Unit} (ha : InB asg) (hm : InB mk) (hd : ∀ v, InB (d v)) :
    InB (Re.assignFrom Γ rv x y asg mk d) := by
  have key : ∀ nt ntC, InB (Re.copyOrMoveAssign Γ nt ntC asg mk d x y) := by
    intro nt ntC
    have h1 := hasValue hΓ y; have h2 := reAssign (x := x) (nt := ntC) hΓ ha hm; have h3 := reReset (x := x) hΓ hd
    have h4 := assertSame hΓ x y
    unfold Re.copyOrMoveAssign; inb
  cases rv <;> exact key _ _

theorem reEmplace {nt : Bool} {mk : M V G V} {d : V → M V G Unit} (hd : ∀ v, InB (d v)) (hm : InB mk) : InB (Re.emplace Γ x nt d mk) :=
  bind (reReset hΓ hd) fun _ => bind (constructWith hΓ x nt hm) fun _ => bind (assertHas hΓ x true) fun _ => getPayload x

theorem reSwap {swp : M V G Unit} {mk : Nat → M V G V} {d : V → M V G Unit} (hs : InB swp) (hm : ∀ z, InB (mk z)) (hd : ∀ v, InB (d v)) :
    InB (Re.swap Γ x y swp mk d) := by
  have h1 := hasValue hΓ x; have h2 := hasValue hΓ y; have h3 := constructWith hΓ x (Γ x).ops.nothrowMoveCtor (hm y)
  have h4 := constructWith hΓ y (Γ y).ops.nothrowMoveCtor (hm x); have h5 := reReset (x := x) hΓ hd; have h6 := reReset (x := y) hΓ hd
  unfold Re.swap; inb

theorem reResult {dst : Nat} {mk : Nat → M V G V} (hm : ∀ z, InB (mk z)) (r : Returned) : InB (Re.result Γ dst mk r) := by
  cases r
  · exact pure ()
  · exact reTransfer hΓ (hm _)
  · exact reTransfer hΓ (hm _)

omit hΓ in
theorem reOptRel {l : OptLike V G A} {r : OptLike V G D} (hl : InB l.hasValue) (hl' : InB l.deref) (hr : InB r.hasValue) (hr' : InB r.deref)
    (op : RelOp) {cmp : A → D → M V G Bool} (hc : ∀ a b, InB (cmp a b)) : InB (Re.optRel l r op cmp) := by
  have hp : InB (Re.payloadCmp l r cmp) := bind hl' fun a => bind hr' fun b => hc a b
  cases op
  · exact bind hl fun b => andM (bind hr fun _ => pure _) (orM (pure _) hp)
  · exact bind hl fun b => orM (bind hr fun _ => pure _) (andM (pure _) hp)
  · exact andM hr (orM (notM hl) hp)
  · exact orM (notM hl) (andM hr hp)
  · exact andM hl (orM (notM hr) hp)
  · exact orM (notM hr) (andM hl hp)

omit hΓ in
theorem reSpaceship {l : OptLike V G A} {r : OptLike V G D} (hl : InB l.hasValue) (hl' : InB l.deref) (hr : InB r.hasValue) (hr' : InB r.deref)
    {cmp : A → D → M V G Cmp} (hc : ∀ a b, InB (cmp a b)) : InB (Re.optSpaceship l r cmp) := by
  refine bind (andM hl hr) fun b => ?_
  cases b
  · exact bind hl fun _ => bind hr fun _ => pure _
  · exact bind hl' fun a => bind hr' fun b => hc a b

theorem reCondRel {dflt : R} {f : V → M V G R} (hf : ∀ v, InB (f v)) : InB (Re.condRel Γ x dflt f) :=
  bind (hasValue hΓ x) fun b => by cases b; exact pure _; exact bind (deref hΓ x) hf

theorem reInspect (q : Inspection R) {f : V → M V G R} (hf : ∀ v, InB (f v)) : InB (Re.inspect Γ x q f) := by
  have stdHas : ∀ o : Option Unit, InB (stdOpt o : OptLike V G Unit).hasValue := fun o => by cases o <;> exact pure _
  have stdDeref : ∀ o : Option Unit, InB (stdOpt o : OptLike V G Unit).deref := fun o => by
    cases o
    · exact ubM (by decide)
    · exact pure _
  cases q with
  | withStd swapped op has =>
    cases swapped
    · exact reOptRel (l := tinyOpt Γ x) (hasValue hΓ x) (deref hΓ x) (stdHas _) (stdDeref _) op fun v _ => hf v
    · exact reOptRel (r := tinyOpt Γ x) (stdHas _) (stdDeref _) (hasValue hΓ x) (deref hΓ x) op fun _ v => hf v
  | spaceshipStd swapped has =>
    cases swapped
    · exact reSpaceship (l := tinyOpt Γ x) (hasValue hΓ x) (deref hΓ x) (stdHas _) (stdDeref _) fun v _ => hf v
    · exact reSpaceship (r := tinyOpt Γ x) (stdHas _) (stdDeref _) (hasValue hΓ x) (deref hΓ x) fun _ v => hf v
  | withValue swapped op => cases swapped <;> cases op <;> exact reCondRel hΓ hf
  | spaceshipValue => exact reCondRel hΓ hf
  | hash => exact reCondRel hΓ hf

/-- Every program, legal or not. -/
theorem runProg (p : Prog V G α) : InB (Model.runProg Γ p) := by
  induction p with
  | ret r =>
    cases r with
    | ok a => exact pure a
    | error e => exact throwE e
  | user f k ih => exact bind (userPure _) ih
  | call op k ih => exact bind (attempt (execOp hΓ op)) ih
  | construct x nt ctor k ihc ih => exact bind (attempt (reCtor hΓ ihc)) ih
  | transfer rv x y ctor k ihc ih => exact bind (attempt (reTransfer hΓ ihc)) ih
  | destroy x dtor k ihd ih => exact bind (attempt (reDtor hΓ ihd)) ih
  | reset x dtor k ihd ih => exact bind (attempt (reReset hΓ ihd)) ih
  | assign x nt asg ctor k iha ihc ih => exact bind (attempt (reAssign hΓ iha ihc)) ih
  | assignFrom rv x y asg ctor dtor k iha ihc ihd ih => exact bind (attempt (reAssignFrom hΓ iha ihc ihd)) ih
  | emplace x nt dtor ctor k ihd ihc ih => exact bind (attempt (reEmplace hΓ ihd ihc)) ih
  | swap x y swp ctor dtor k ihs ihc ihd ih => exact bind (attempt (reSwap hΓ ihs ihc ihd)) ih
  | valueOr x ctor conv k ihc ihv ih =>
    exact bind (attempt (bind (hasValue hΓ x) fun b => by cases b; exact ihv; exact ihc)) ih
  | andThen x dst f ctor k ihf ihc ih =>
    refine bind (attempt (bind (hasValue hΓ x) fun b => ?_)) ih
    cases b
    · exact storageDefaultCtor hΓ dst
    · exact bind (assertHas hΓ x true) fun _ => bind ihf fun r => reResult hΓ ihc r
  | transform nt x dst f k ihf ih =>
    refine bind (attempt (bind (hasValue hΓ x) fun b => ?_)) ih
    cases b
    · exact storageDefaultCtor hΓ dst
    · exact bind (assertHas hΓ x true) fun _ => reCtor hΓ ihf
  | orElse rv x dst f ctor k ihf ihc ih =>
    refine bind (attempt (bind (hasValue hΓ x) fun b => ?_)) ih
    cases b
    · exact bind ihf fun r => reResult hΓ ihc _
    · exact reTransfer hΓ (ihc x)
  | compare q x y cmp k ihc ih =>
    refine bind (attempt ?_) ih
    cases q with
    | rel op =>
      exact reOptRel (l := tinyOpt Γ x) (r := tinyOpt Γ y) (hasValue hΓ x) (deref hΓ x) (hasValue hΓ y) (deref hΓ y) op ihc
    | spaceship =>
      exact reSpaceship (l := tinyOpt Γ x) (r := tinyOpt Γ y) (hasValue hΓ x) (deref hΓ x) (hasValue hΓ y) (deref hΓ y) ihc
  | inspect q x f k ihf ih => exact bind (attempt (reInspect hΓ q ihf)) ih

end Verif.Model.InB
