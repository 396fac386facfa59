import Verif.Lemmas.Lockstep
import Verif.Model.Reentrant

/-! Helper lemmas: running programs whose user code calls the library with two environments in lockstep. -/

namespace Verif.Model
open Verif.Spec (RelOp Cmp)

section
variable {V G α : Type} {Γ Γ' : Env V G}

/-- In addition: user code may catch exceptions. -/
structure LockstepRe (Q : ∀ {α : Type}, M V G α → M V G α → Prop) (Γ Γ' : Env V G) : Prop extends Lockstep Q Γ Γ' where
  attempt : ∀ {α : Type} {m m' : M V G α}, Q m m' → Q (attempt m) (attempt m')

namespace LockstepRe
variable {Q : ∀ {α : Type}, M V G α → M V G α → Prop} (L : LockstepRe (V := V) (G := G) Q Γ Γ') {x y : Nat}
include L

theorem Re_transfer (rv : Bool) (x y : Nat) {c c' : M V G V} (h : Q c c') : Q (Re.transfer Γ rv x y c) (Re.transfer Γ' rv x y c') := by
  have h1 : ∀ nt ntC, Q (Re.copyOrMoveCtor Γ nt ntC c x y) (Re.copyOrMoveCtor Γ' nt ntC c' x y) := fun nt ntC =>
    L.noexceptIf _ (L.bind (L.storageDefaultCtor _) fun _ => L.onThrow (L.bind (L.hasValue _) fun _ =>
      Lockstep.ite (L.bind (L.constructWith _ _ h) fun _ => L.assertSame _ _) (L.bind (L.assertHas _ _) fun _ => L.assertSame _ _))
      (L.storageDtor _))
  unfold Re.transfer
  rw [L.ops]
  exact Lockstep.ite (h1 _ _) (h1 _ _)

theorem Re_destroyPayload (x : Nat) {d d' : V → M V G Unit} (h : ∀ v, Q (d v) (d' v)) :
    Q (Re.destroyPayload Γ x d) (Re.destroyPayload Γ' x d') :=
  L.noexceptIf _ (L.bind (L.refl _) fun v => L.bind (h v) fun _ => L.destroy _ _)

theorem Re_reset (x : Nat) {d d' : V → M V G Unit} (h : ∀ v, Q (d v) (d' v)) : Q (Re.reset Γ x d) (Re.reset Γ' x d') :=
  L.noexceptIf _ (L.bind (L.hasValue _) fun _ => Lockstep.ite
    (L.bind (L.Re_destroyPayload _ h) fun _ => L.bind (L.init _) fun _ => L.assertHas _ _) (L.refl _))

theorem Re_storageDtor (x : Nat) {d d' : V → M V G Unit} (h : ∀ v, Q (d v) (d' v)) :
    Q (Re.storageDtor Γ x d) (Re.storageDtor Γ' x d') :=
  L.noexceptIf _ (L.bind (L.hasValue _) fun _ => Lockstep.ite (L.bind (L.Re_destroyPayload _ h) fun _ => L.refl _) (L.refl _))

theorem Re_storageCtor (x : Nat) (nt : Bool) {c c' : M V G V} (h : Q c c') : Q (Re.storageCtor Γ x nt c) (Re.storageCtor Γ' x nt c') :=
  L.bind (L.refl _) fun _ => L.onThrow (L.bind (L.init _) fun _ => L.constructWith _ _ h) (L.refl _)

theorem Re_assignValue (x : Nat) (nt : Bool) {a a' : M V G Unit} {c c' : M V G V} (ha : Q a a') (hc : Q c c') :
    Q (Re.assignValue Γ x nt a c) (Re.assignValue Γ' x nt a' c') :=
  L.bind (L.hasValue _) fun _ => Lockstep.ite (L.bind ha fun _ => L.assertHas _ _)
    (L.bind (L.constructWith _ _ hc) fun _ => L.assertHas _ _)

theorem Re_assignFrom (rv : Bool) (x y : Nat) {a a' : M V G Unit} {c c' : M V G V} {d d' : V → M V G Unit} (ha : Q a a') (hc : Q c c')
    (hd : ∀ v, Q (d v) (d' v)) : Q (Re.assignFrom Γ rv x y a c d) (Re.assignFrom Γ' rv x y a' c' d') := by
  have h1 : ∀ nt ntC, Q (Re.copyOrMoveAssign Γ nt ntC a c d x y) (Re.copyOrMoveAssign Γ' nt ntC a' c' d' x y) := fun nt ntC =>
    L.noexceptIf _ (L.bind (L.hasValue _) fun _ => Lockstep.ite (L.bind (L.Re_assignValue _ _ ha hc) fun _ => L.assertSame _ _)
      (L.bind (L.Re_reset _ hd) fun _ => L.assertSame _ _))
  unfold Re.assignFrom
  rw [L.ops]
  exact Lockstep.ite (h1 _ _) (h1 _ _)

theorem Re_emplace (x : Nat) (nt : Bool) {c c' : M V G V} {d d' : V → M V G Unit} (hd : ∀ v, Q (d v) (d' v)) (hc : Q c c') :
    Q (Re.emplace Γ x nt d c) (Re.emplace Γ' x nt d' c') :=
  L.bind (L.Re_reset _ hd) fun _ => L.bind (L.constructWith _ _ hc) fun _ => L.bind (L.assertHas _ _) fun _ => L.refl _

theorem Re_swap (x y : Nat) {s s' : M V G Unit} {c c' : Nat → M V G V} {d d' : V → M V G Unit} (hs : Q s s') (hc : ∀ z, Q (c z) (c' z))
    (hd : ∀ v, Q (d v) (d' v)) : Q (Re.swap Γ x y s c d) (Re.swap Γ' x y s' c' d') := by
  unfold Re.swap
  rw [L.ops, L.ops]
  exact L.noexceptIf _ (L.bind (L.hasValue _) fun _ => L.bind (L.hasValue _) fun _ => Lockstep.ite (Lockstep.ite hs (L.refl _))
    (Lockstep.ite (L.bind (L.constructWith _ _ (hc _)) fun _ => L.Re_reset _ hd)
      (L.bind (L.constructWith _ _ (hc _)) fun _ => L.Re_reset _ hd)))

theorem Re_valueOr (x : Nat) {c c' d d' : M V G V} (hc : Q c c') (hd : Q d d') : Q (Re.valueOr Γ x c d) (Re.valueOr Γ' x c' d') :=
  L.bind (L.hasValue _) fun _ => Lockstep.ite hc hd

theorem Re_result (dst : Nat) {c c' : Nat → M V G V} (hc : ∀ z, Q (c z) (c' z)) (r : Returned) :
    Q (Re.result Γ dst c r) (Re.result Γ' dst c' r) := by
  cases r with
  | object => exact L.refl _
  | lref y => exact L.Re_transfer _ _ _ (hc y)
  | rref y => exact L.Re_transfer _ _ _ (hc y)

theorem Re_andThen (x dst : Nat) {f f' : M V G Returned} {c c' : Nat → M V G V} (hf : Q f f') (hc : ∀ z, Q (c z) (c' z)) :
    Q (Re.andThen Γ x dst f c) (Re.andThen Γ' x dst f' c') :=
  L.bind (L.hasValue _) fun _ => Lockstep.ite (L.bind (L.assertHas _ _) fun _ => L.bind hf fun r => L.Re_result _ hc r)
    (L.storageDefaultCtor _)

theorem Re_transform (nt : Bool) (x dst : Nat) {f f' : M V G V} (hf : Q f f') :
    Q (Re.transform Γ nt x dst f) (Re.transform Γ' nt x dst f') :=
  L.bind (L.hasValue _) fun _ => Lockstep.ite (L.bind (L.assertHas _ _) fun _ => L.Re_storageCtor _ _ hf) (L.storageDefaultCtor _)

theorem Re_orElse (rv : Bool) (x dst : Nat) {f f' : M V G Returned} {c c' : Nat → M V G V} (hf : Q f f') (hc : ∀ z, Q (c z) (c' z)) :
    Q (Re.orElse Γ rv x dst f c) (Re.orElse Γ' rv x dst f' c') :=
  L.bind (L.hasValue _) fun _ => Lockstep.ite (L.Re_transfer _ _ _ (hc x)) (L.bind hf fun _ => L.Re_result _ hc _)

theorem andM {a a' b b' : M V G Bool} (ha : Q a a') (hb : Q b b') : Q (andM a b) (andM a' b') :=
  L.bind ha fun _ => Lockstep.ite hb (L.refl _)

theorem orM {a a' b b' : M V G Bool} (ha : Q a a') (hb : Q b b') : Q (orM a b) (orM a' b') :=
  L.bind ha fun _ => Lockstep.ite (L.refl _) hb

theorem notM {a a' : M V G Bool} (ha : Q a a') : Q (notM a) (notM a') := L.bind ha fun _ => L.refl _

section
variable {A B C : Type} {l l' : OptLike V G A} {r r' : OptLike V G B}

theorem Re_payloadCmp (hl : Q l.deref l'.deref) (hr : Q r.deref r'.deref) {cmp cmp' : A → B → M V G C}
    (hc : ∀ a b, Q (cmp a b) (cmp' a b)) : Q (Re.payloadCmp l r cmp) (Re.payloadCmp l' r' cmp') :=
  L.bind hl fun a => L.bind hr fun b => hc a b

theorem Re_optRel (hl : Q l.deref l'.deref) (hr : Q r.deref r'.deref) (hl' : Q l.hasValue l'.hasValue) (hr' : Q r.hasValue r'.hasValue)
    (op : RelOp) {cmp cmp' : A → B → M V G Bool} (hc : ∀ a b, Q (cmp a b) (cmp' a b)) :
    Q (Re.optRel l r op cmp) (Re.optRel l' r' op cmp') := by
  have h := L.Re_payloadCmp hl hr hc
  cases op
  · exact L.bind hl' fun _ => L.andM (L.bind hr' fun _ => L.refl _) (L.orM (L.refl _) h)
  · exact L.bind hl' fun _ => L.orM (L.bind hr' fun _ => L.refl _) (L.andM (L.refl _) h)
  · exact L.andM hr' (L.orM (L.notM hl') h)
  · exact L.orM (L.notM hl') (L.andM hr' h)
  · exact L.andM hl' (L.orM (L.notM hr') h)
  · exact L.orM (L.notM hr') (L.andM hl' h)

theorem Re_optSpaceship (hl : Q l.deref l'.deref) (hr : Q r.deref r'.deref) (hl' : Q l.hasValue l'.hasValue)
    (hr' : Q r.hasValue r'.hasValue) {cmp cmp' : A → B → M V G Cmp} (hc : ∀ a b, Q (cmp a b) (cmp' a b)) :
    Q (Re.optSpaceship l r cmp) (Re.optSpaceship l' r' cmp') :=
  L.bind (L.andM hl' hr') fun _ => Lockstep.ite (L.Re_payloadCmp hl hr hc)
    (L.bind hl' fun _ => L.bind hr' fun _ => L.refl _)

theorem Re_compare (hl : Q l.deref l'.deref) (hr : Q r.deref r'.deref) (hl' : Q l.hasValue l'.hasValue)
    (hr' : Q r.hasValue r'.hasValue) (q : Comparison C) {cmp cmp' : A → B → M V G C} (hc : ∀ a b, Q (cmp a b) (cmp' a b)) :
    Q (Re.compare l r q cmp) (Re.compare l' r' q cmp') := by
  cases q with
  | rel op => exact L.Re_optRel hl hr hl' hr' op hc
  | spaceship => exact L.Re_optSpaceship hl hr hl' hr' hc
end

theorem Re_condRel {C : Type} (x : Nat) (d : C) {f f' : V → M V G C} (hf : ∀ v, Q (f v) (f' v)) :
    Q (Re.condRel Γ x d f) (Re.condRel Γ' x d f') :=
  L.bind (L.hasValue _) fun _ => Lockstep.ite (L.bind (L.deref _) hf) (L.refl _)

theorem Re_inspect {C : Type} (x : Nat) (q : Inspection C) {f f' : V → M V G C} (hf : ∀ v, Q (f v) (f' v)) :
    Q (Re.inspect Γ x q f) (Re.inspect Γ' x q f') := by
  cases q with
  | withStd fl op has =>
    cases fl
    · exact L.Re_optRel (l := tinyOpt Γ x) (l' := tinyOpt Γ' x) (r := stdOpt _) (r' := stdOpt _) (L.deref _) (L.refl _) (L.hasValue _) (L.refl _) op fun v _ => hf v
    · exact L.Re_optRel (l := stdOpt _) (l' := stdOpt _) (r := tinyOpt Γ x) (r' := tinyOpt Γ' x) (L.refl _) (L.deref _) (L.refl _) (L.hasValue _) op fun _ v => hf v
  | spaceshipStd fl has =>
    cases fl
    · exact L.Re_optSpaceship (l := tinyOpt Γ x) (l' := tinyOpt Γ' x) (r := stdOpt _) (r' := stdOpt _) (L.deref _) (L.refl _) (L.hasValue _) (L.refl _) fun v _ => hf v
    · exact L.Re_optSpaceship (l := stdOpt _) (l' := stdOpt _) (r := tinyOpt Γ x) (r' := tinyOpt Γ' x) (L.refl _) (L.deref _) (L.refl _) (L.hasValue _) fun _ v => hf v
  | withValue fl op => cases fl <;> cases op <;> exact L.Re_condRel _ _ hf
  | spaceshipValue => exact L.Re_condRel _ _ hf
  | hash => exact L.bind (L.hasValue _) fun _ => Lockstep.ite (L.bind (L.deref _) hf) (L.refl _)

/-- Re-entrant programs. -/
theorem runProg (p : Prog V G α) : Q (runProg Γ p) (Model.runProg Γ' p) := by
  induction p with
  | ret r => cases r <;> exact L.refl _
  | user f k ih => exact L.bind (L.refl _) fun g => ih g
  | call op k ih => exact L.bind (L.attempt (L.execOp op)) fun r => ih r
  | construct x nt c k ihc ih => exact L.bind (L.attempt (L.Re_storageCtor _ _ ihc)) fun r => ih r
  | transfer rv x y c k ihc ih => exact L.bind (L.attempt (L.Re_transfer _ _ _ ihc)) fun r => ih r
  | destroy x d k ihd ih => exact L.bind (L.attempt (L.Re_storageDtor _ ihd)) fun r => ih r
  | reset x d k ihd ih => exact L.bind (L.attempt (L.Re_reset _ ihd)) fun r => ih r
  | assign x nt a c k iha ihc ih => exact L.bind (L.attempt (L.Re_assignValue _ _ iha ihc)) fun r => ih r
  | assignFrom rv x y a c d k iha ihc ihd ih => exact L.bind (L.attempt (L.Re_assignFrom _ _ _ iha ihc ihd)) fun r => ih r
  | emplace x nt d c k ihd ihc ih => exact L.bind (L.attempt (L.Re_emplace _ _ ihd ihc)) fun r => ih r
  | swap x y s c d k ihs ihc ihd ih => exact L.bind (L.attempt (L.Re_swap _ _ ihs ihc ihd)) fun r => ih r
  | valueOr x c d k ihc ihd ih => exact L.bind (L.attempt (L.Re_valueOr _ ihc ihd)) fun r => ih r
  | andThen x dst f c k ihf ihc ih => exact L.bind (L.attempt (L.Re_andThen _ _ ihf ihc)) fun r => ih r
  | transform nt x dst f k ihf ih => exact L.bind (L.attempt (L.Re_transform _ _ _ ihf)) fun r => ih r
  | orElse rv x dst f c k ihf ihc ih => exact L.bind (L.attempt (L.Re_orElse _ _ _ ihf ihc)) fun r => ih r
  | compare q x y cmp k ihc ih =>
    exact L.bind (L.attempt (L.Re_compare (l := tinyOpt Γ x) (r := tinyOpt Γ y) (l' := tinyOpt Γ' x) (r' := tinyOpt Γ' y) (L.deref _)
      (L.deref _) (L.hasValue _) (L.hasValue _) q ihc)) fun r => ih r
  | inspect q x f k ihf ih => exact L.bind (L.attempt (L.Re_inspect _ q ihf)) fun r => ih r

end LockstepRe

end

end Verif.Model
