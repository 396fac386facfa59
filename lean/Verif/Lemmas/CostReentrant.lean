import Verif.Lemmas.Cost
import Verif.Lemmas.ThreadsReentrant
import Verif.Spec.CostReentrant

/-! # Lemmas: bounds on the number of steps of re-entrant programs -/

namespace Verif
open Verif.Model
open Verif.Spec (RelOp Cmp)

section
variable {V G α β : Type}

/-- The program ends within `n` steps, whatever it finds in memory. -/
def Ends (p : Steps.M V G α) (n : Nat) : Prop := Within p n n

theorem Within.ends {p : Steps.M V G α} {n u : Nat} (h : Within p n u) : Ends p n := by
  unfold Ends
  induction p generalizing n u with
  | done r => trivial
  | read x k ih => exact ⟨h.1, fun c => (ih c (h.2 c)).mono (Nat.le_refl _) (by omega)⟩
  | write x c k ih => exact ⟨h.1, (ih h.2).mono (Nat.le_refl _) (by omega)⟩
  | fresh k ih => exact ⟨h.1, fun c => (ih c (h.2 c)).mono (Nat.le_refl _) (by omega)⟩
  | event e k ih => exact ⟨h.1, (ih h.2).mono (Nat.le_refl _) (by omega)⟩
  | user f k ih => exact ⟨h.1, h.1, fun c => ih c (h.2.2 c)⟩

namespace Ends

theorem mono {p : Steps.M V G α} {n m : Nat} (h : Ends p n) (hn : n ≤ m) : Ends p m := Within.mono h hn hn
theorem done (r : Res α) (n : Nat) : Ends (.done r : Steps.M V G α) n := trivial
theorem pure (a : α) (n : Nat) : Ends (Pure.pure a : Steps.M V G α) n := trivial
theorem bind {m : Steps.M V G α} {f : α → Steps.M V G β} {a n : Nat} (hm : Ends m a) (ha : a ≤ n) (hf : ∀ x, Ends (f x) (n - a)) :
    Ends (m >>= f) n := Within.bind hm ha ha hf
theorem onThrow {m : Steps.M V G α} {h : Steps.M V G Unit} {a n : Nat} (hm : Ends m a) (ha : a ≤ n) (hh : Ends h (n - a)) :
    Ends (Steps.onThrow m h) n := Within.onThrow hm ha ha hh
theorem noexceptIf {b : Bool} {m : Steps.M V G α} {n : Nat} (hm : Ends m n) : Ends (Steps.noexceptIf b m) n := Within.noexceptIf hm
theorem attempt {m : Steps.M V G α} {n : Nat} (hm : Ends m n) : Ends (Steps.attempt m) n := Within.attempt hm

variable (x y : Nat) (Γ : Env V G)

theorem hasValue : Ends (Steps.hasValue Γ x) 1 := (Within.hasValue x Γ).ends
theorem assertHas (b : Bool) : Ends (Steps.assertHas Γ x b) 1 := (Within.assertHas x Γ b).ends
theorem assertSame : Ends (Steps.assertSame Γ x y) 2 := (Within.assertSame x y Γ).ends
theorem getPayload : Ends (Steps.getPayload x : Steps.M V G V) 1 := (Within.getPayload x).ends
theorem deref : Ends (Steps.deref Γ x) 2 := (Within.deref x Γ).ends
theorem release : Ends (Steps.release x : Steps.M V G Unit) 4 := (Within.release x).ends
theorem defaultCtor : Ends (Steps.defaultCtor Γ x) 7 := (Within.storageDefaultCtor x Γ).ends

theorem constructWith (nt : Bool) {mk : Steps.M V G V} {n : Nat} (h : Ends mk n) : Ends (Steps.constructWith Γ x nt mk) (n + 15) :=
  (Within.constructWith x Γ nt h).ends

theorem reStorageCtor (nt : Bool) {mk : Steps.M V G V} {n : Nat} (h : Ends mk n) : Ends (Steps.Re.storageCtor Γ x nt mk) (n + 25) :=
  bind (Within.allocate x).ends (by omega) fun _ => onThrow (a := n + 19)
    (bind (Within.initEmptyFlag _ x).ends (by omega) fun _ => (constructWith x Γ nt h).mono (by omega)) (by omega)
    ((release x).mono (by omega))

theorem reTransfer (rv : Bool) {ctor : Steps.M V G V} {n : Nat} (h : Ends ctor n) : Ends (Steps.Re.transfer Γ rv x y ctor) (n + 34) := by
  have key (nt ntC : Bool) : Ends (Steps.Re.copyOrMoveCtor Γ nt ntC ctor x y) (n + 34) := by
    unfold Steps.Re.copyOrMoveCtor
    refine noexceptIf (bind (Within.storageDefaultCtor x Γ).ends (by omega) fun _ => onThrow (a := n + 18) ?_ (by omega)
      ((Within.storageDtor x Γ).ends.mono (by omega)))
    refine bind (hasValue y Γ) (by omega) fun _ => ?_
    split
    · exact bind (constructWith x Γ ntC h) (by omega) fun _ => (assertSame x y Γ).mono (by omega)
    · exact bind (assertHas x Γ false) (by omega) fun _ => (assertSame x y Γ).mono (by omega)
  cases rv
  · exact key _ _
  · exact key _ _

theorem reDestroyPayload {dtor : V → Steps.M V G Unit} {n : Nat} (h : ∀ v, Ends (dtor v) n) :
    Ends (Steps.Re.destroyPayload Γ x dtor) (n + 5) :=
  noexceptIf (bind (getPayload x) (by omega) fun v => bind (h v) (by omega) fun _ => (Within.destroy _ _ x).ends.mono (by omega))

theorem reReset {dtor : V → Steps.M V G Unit} {n : Nat} (h : ∀ v, Ends (dtor v) n) : Ends (Steps.Re.reset Γ x dtor) (n + 11) := by
  unfold Steps.Re.reset
  refine noexceptIf (bind (hasValue x Γ) (by omega) fun _ => ?_)
  split
  · exact bind (reDestroyPayload x Γ h) (by omega) fun _ => bind (Within.initEmptyFlag _ x).ends (by omega) fun _ =>
      (assertHas x Γ false).mono (by omega)
  · trivial

theorem reStorageDtor {dtor : V → Steps.M V G Unit} {n : Nat} (h : ∀ v, Ends (dtor v) n) : Ends (Steps.Re.storageDtor Γ x dtor) (n + 10) := by
  unfold Steps.Re.storageDtor
  refine noexceptIf (bind (hasValue x Γ) (by omega) fun _ => ?_)
  split
  · exact bind (reDestroyPayload x Γ h) (by omega) fun _ => (release x).mono (by omega)
  · exact mono (p := Steps.release x) (release x) (by omega)

theorem reAssignValue (nt : Bool) {asg : Steps.M V G Unit} {ctor : Steps.M V G V} {n : Nat} (ha : Ends asg n) (hc : Ends ctor n) :
    Ends (Steps.Re.assignValue Γ x nt asg ctor) (n + 17) := by
  unfold Steps.Re.assignValue
  refine bind (hasValue x Γ) (by omega) fun _ => ?_
  split
  · exact bind ha (by omega) fun _ => (assertHas x Γ true).mono (by omega)
  · exact bind (constructWith x Γ nt hc) (by omega) fun _ => (assertHas x Γ true).mono (by omega)

theorem reAssignFrom (rv : Bool) {asg : Steps.M V G Unit} {ctor : Steps.M V G V} {dtor : V → Steps.M V G Unit} {n : Nat}
    (ha : Ends asg n) (hc : Ends ctor n) (hd : ∀ v, Ends (dtor v) n) : Ends (Steps.Re.assignFrom Γ rv x y asg ctor dtor) (n + 20) := by
  have key (nt ntC : Bool) : Ends (Steps.Re.copyOrMoveAssign Γ nt ntC asg ctor dtor x y) (n + 20) := by
    unfold Steps.Re.copyOrMoveAssign
    refine noexceptIf (bind (hasValue y Γ) (by omega) fun _ => ?_)
    split
    · exact bind (reAssignValue x Γ ntC ha hc) (by omega) fun _ => (assertSame x y Γ).mono (by omega)
    · exact bind (reReset x Γ hd) (by omega) fun _ => (assertSame x y Γ).mono (by omega)
  cases rv
  · exact key _ _
  · exact key _ _

theorem reEmplace (nt : Bool) {dtor : V → Steps.M V G Unit} {ctor : Steps.M V G V} {a b : Nat} (hd : ∀ v, Ends (dtor v) a)
    (hc : Ends ctor b) : Ends (Steps.Re.emplace Γ x nt dtor ctor) (a + b + 28) :=
  bind (reReset x Γ hd) (by omega) fun _ => bind (constructWith x Γ nt hc) (by omega) fun _ => bind (assertHas x Γ true) (by omega)
    fun _ => (getPayload x).mono (by omega)

theorem reSwap {swp : Steps.M V G Unit} {ctor : Nat → Steps.M V G V} {dtor : V → Steps.M V G Unit} {a b : Nat} (hs : Ends swp (a + b))
    (hc : ∀ z, Ends (ctor z) a) (hd : ∀ v, Ends (dtor v) b) : Ends (Steps.Re.swap Γ x y swp ctor dtor) (a + b + 28) := by
  unfold Steps.Re.swap
  refine noexceptIf (bind (hasValue x Γ) (by omega) fun _ => bind (hasValue y Γ) (by omega) fun _ => ?_)
  split
  · split
    · exact hs.mono (by omega)
    · trivial
  · split
    · exact bind (constructWith y Γ _ (hc x)) (by omega) fun _ => (reReset x Γ hd).mono (by omega)
    · exact bind (constructWith x Γ _ (hc y)) (by omega) fun _ => (reReset y Γ hd).mono (by omega)

theorem reValueOr {ctor conv : Steps.M V G V} {n : Nat} (hc : Ends ctor n) (hd : Ends conv n) :
    Ends (Steps.Re.valueOr Γ x ctor conv) (n + 1) := by
  unfold Steps.Re.valueOr
  refine bind (hasValue x Γ) (by omega) fun _ => ?_
  split
  · exact hc.mono (by omega)
  · exact hd.mono (by omega)

theorem reResult {ctor : Nat → Steps.M V G V} {n : Nat} (hc : ∀ z, Ends (ctor z) n) (r : Returned) :
    Ends (Steps.Re.result Γ x ctor r) (n + 34) := by
  cases r with
  | object => trivial
  | lref y => exact reTransfer x y Γ false (hc y)
  | rref y => exact reTransfer x y Γ true (hc y)

theorem reAndThen {f : Steps.M V G Returned} {ctor : Nat → Steps.M V G V} {a b : Nat} (hf : Ends f a) (hc : ∀ z, Ends (ctor z) b) :
    Ends (Steps.Re.andThen Γ x y f ctor) (a + b + 36) := by
  unfold Steps.Re.andThen
  refine bind (hasValue x Γ) (by omega) fun _ => ?_
  split
  · exact bind (assertHas x Γ true) (by omega) fun _ => bind hf (by omega) fun r => (reResult y Γ hc r).mono (by omega)
  · exact (defaultCtor y Γ).mono (by omega)

theorem reTransform (nt : Bool) {f : Steps.M V G V} {n : Nat} (hf : Ends f n) : Ends (Steps.Re.transform Γ nt x y f) (n + 27) := by
  unfold Steps.Re.transform
  refine bind (hasValue x Γ) (by omega) fun _ => ?_
  split
  · exact bind (assertHas x Γ true) (by omega) fun _ => (reStorageCtor y Γ nt hf).mono (by omega)
  · exact (defaultCtor y Γ).mono (by omega)

theorem reOrElse (rv : Bool) {f : Steps.M V G Returned} {ctor : Nat → Steps.M V G V} {a b : Nat} (hf : Ends f a)
    (hc : ∀ z, Ends (ctor z) b) : Ends (Steps.Re.orElse Γ rv x y f ctor) (a + b + 35) := by
  unfold Steps.Re.orElse
  refine bind (hasValue x Γ) (by omega) fun _ => ?_
  split
  · exact (reTransfer y x Γ rv (hc x)).mono (by omega)
  · exact bind hf (by omega) fun r => (reResult y Γ hc _).mono (by omega)

theorem andM {a b : Steps.M V G Bool} {n m : Nat} (ha : Ends a n) (hb : Ends b m) : Ends (Steps.andM a b) (n + m) := Within.andM ha hb
theorem orM {a b : Steps.M V G Bool} {n m : Nat} (ha : Ends a n) (hb : Ends b m) : Ends (Steps.orM a b) (n + m) := Within.orM ha hb
theorem notM {a : Steps.M V G Bool} {n : Nat} (ha : Ends a n) : Ends (Steps.notM a) n := Within.notM ha

section
variable {A B C : Type} {l : Steps.OptLike V G A} {r : Steps.OptLike V G B} {n m i j a : Nat}

theorem rePayloadCmp (hl : Ends l.deref n) (hr : Ends r.deref m) {cmp : A → B → Steps.M V G C} (hc : ∀ u v, Ends (cmp u v) a) :
    Ends (Steps.Re.payloadCmp l r cmp) (n + m + a) :=
  bind hl (by omega) fun _ => bind hr (by omega) fun _ => (hc _ _).mono (by omega)

theorem reOptRel (hl : Ends l.deref n) (hr : Ends r.deref m) (hl' : Ends l.hasValue i) (hr' : Ends r.hasValue j) (op : RelOp)
    {cmp : A → B → Steps.M V G Bool} (hc : ∀ u v, Ends (cmp u v) a) : Ends (Steps.Re.optRel l r op cmp) (i + j + (n + m + a)) := by
  have h := rePayloadCmp hl hr hc
  have e : ∀ b : Bool, Ends (Pure.pure b : Steps.M V G Bool) 0 := fun _ => trivial
  have hj : ∀ f : Bool → Bool, Ends (r.hasValue >>= fun b => Pure.pure (f b)) j := fun f => bind hr' (by omega) fun _ => trivial
  cases op
  · exact bind hl' (by omega) fun _ => (andM (hj _) (orM (e _) h)).mono (by omega)
  · exact bind hl' (by omega) fun _ => (orM (hj _) (andM (e _) h)).mono (by omega)
  · exact (andM hr' (orM (notM hl') h)).mono (by omega)
  · exact (orM (notM hl') (andM hr' h)).mono (by omega)
  · exact (andM hl' (orM (notM hr') h)).mono (by omega)
  · exact (orM (notM hr') (andM hl' h)).mono (by omega)

theorem reOptSpaceship (hl : Ends l.deref n) (hr : Ends r.deref m) (hl' : Ends l.hasValue i) (hr' : Ends r.hasValue j)
    {cmp : A → B → Steps.M V G Cmp} (hc : ∀ u v, Ends (cmp u v) a) (hij : i + j ≤ n + m) :
    Ends (Steps.Re.optSpaceship l r cmp) (i + j + (n + m + a)) := by
  unfold Steps.Re.optSpaceship
  refine bind (andM hl' hr') (by omega) fun b => ?_
  cases b
  · exact bind hl' (by omega) fun _ => bind hr' (by omega) fun _ => trivial
  · exact (rePayloadCmp hl hr hc).mono (by omega)
end

theorem reCompare {R : Type} (q : Comparison R) {cmp : V → V → Steps.M V G R} {a : Nat} (hc : ∀ u v, Ends (cmp u v) a) :
    Ends (Steps.Re.compare (Steps.tinyOpt Γ x) (Steps.tinyOpt Γ y) q cmp) (a + 6) := by
  cases q with
  | rel op =>
    exact (reOptRel (l := Steps.tinyOpt Γ x) (r := Steps.tinyOpt Γ y) (deref x Γ) (deref y Γ) (hasValue x Γ) (hasValue y Γ) op hc).mono
      (by omega)
  | spaceship =>
    exact (reOptSpaceship (l := Steps.tinyOpt Γ x) (r := Steps.tinyOpt Γ y) (deref x Γ) (deref y Γ) (hasValue x Γ) (hasValue y Γ) hc
      (by omega)).mono (by omega)

theorem reCondRel {R : Type} (d : R) {f : V → Steps.M V G R} {a : Nat} (hf : ∀ v, Ends (f v) a) :
    Ends (Steps.Re.condRel Γ x d f) (a + 3) := by
  unfold Steps.Re.condRel
  refine bind (hasValue x Γ) (by omega) fun b => ?_
  split
  · exact bind (deref x Γ) (by omega) fun v => (hf v).mono (by omega)
  · trivial

theorem reInspect {R : Type} (q : Inspection R) {f : V → Steps.M V G R} {a : Nat} (hf : ∀ v, Ends (f v) a) :
    Ends (Steps.Re.inspect Γ x q f) (a + 3) := by
  have hs (h : Bool) : Ends (Steps.stdOpt (if h then some () else none) : Steps.OptLike V G Unit).deref 0 := by cases h <;> trivial
  cases q with
  | withStd fl op h =>
    cases fl
    · exact (reOptRel (l := Steps.tinyOpt Γ x) (j := 0) (deref x Γ) (hs h) (hasValue x Γ) trivial op fun v _ => hf v).mono (by omega)
    · exact (reOptRel (r := Steps.tinyOpt Γ x) (i := 0) (hs h) (deref x Γ) trivial (hasValue x Γ) op fun _ v => hf v).mono (by omega)
  | spaceshipStd fl h =>
    cases fl
    · exact (reOptSpaceship (l := Steps.tinyOpt Γ x) (j := 0) (deref x Γ) (hs h) (hasValue x Γ) trivial (fun v _ => hf v)
        (by omega)).mono (by omega)
    · exact (reOptSpaceship (r := Steps.tinyOpt Γ x) (i := 0) (hs h) (deref x Γ) trivial (hasValue x Γ) (fun _ v => hf v)
        (by omega)).mono (by omega)
  | withValue fl op => cases fl <;> cases op <;> exact reCondRel x Γ _ hf
  | spaceshipValue => exact reCondRel x Γ _ hf
  | hash => exact reCondRel x Γ 0 hf

theorem runProg (p : Prog V G α) {n : Nat} (hp : p.Costs Prog.overhead n) : Ends (Steps.runProg Γ p) n := by
  induction p generalizing n with
  | ret r => cases r <;> trivial
  | user f k ih => exact bind (Within.userPure _).ends hp.1 fun g => ih g (hp.2 g)
  | call op k ih => exact bind (attempt (Within.execOp Γ op).ends) hp.1 fun r => ih r (hp.2 r)
  | construct x nt ctor k ih ik =>
    obtain ⟨a, m, hn, ha, hm⟩ := hp.2
    have hn : 25 + a + m ≤ n := hn
    exact bind (attempt (reStorageCtor x Γ nt (ih ha))) (by omega) fun r => (ik r (hm r)).mono (by omega)
  | transfer rv x y ctor k ih ik =>
    obtain ⟨a, m, hn, ha, hm⟩ := hp.2
    have hn : 34 + a + m ≤ n := hn
    exact bind (attempt (reTransfer x y Γ rv (ih ha))) (by omega) fun r => (ik r (hm r)).mono (by omega)
  | destroy x dtor k ih ik =>
    obtain ⟨a, m, hn, ha, hm⟩ := hp.2
    have hn : 10 + a + m ≤ n := hn
    exact bind (attempt (reStorageDtor x Γ fun v => ih v (ha v))) (by omega) fun r => (ik r (hm r)).mono (by omega)
  | reset x dtor k ih ik =>
    obtain ⟨a, m, hn, ha, hm⟩ := hp.2
    have hn : 11 + a + m ≤ n := hn
    exact bind (attempt (reReset x Γ fun v => ih v (ha v))) (by omega) fun r => (ik r (hm r)).mono (by omega)
  | assign x nt asg ctor k ih1 ih2 ik =>
    obtain ⟨a, m, hn, h1, h2, hm⟩ := hp.2
    have hn : 17 + a + m ≤ n := hn
    exact bind (attempt (reAssignValue x Γ nt (ih1 h1) (ih2 h2))) (by omega) fun r => (ik r (hm r)).mono (by omega)
  | assignFrom rv x y asg ctor dtor k ih1 ih2 ih3 ik =>
    obtain ⟨a, m, hn, h1, h2, h3, hm⟩ := hp.2
    have hn : 20 + a + m ≤ n := hn
    exact bind (attempt (reAssignFrom x y Γ rv (ih1 h1) (ih2 h2) fun v => ih3 v (h3 v))) (by omega) fun r => (ik r (hm r)).mono (by omega)
  | emplace x nt dtor ctor k ih1 ih2 ik =>
    obtain ⟨a, b, m, hn, h1, h2, hm⟩ := hp.2
    have hn : 28 + (a + b) + m ≤ n := hn
    exact bind (attempt (reEmplace x Γ nt (fun v => ih1 v (h1 v)) (ih2 h2))) (by omega) fun r => (ik r (hm r)).mono (by omega)
  | swap x y swp ctor dtor k ih1 ih2 ih3 ik =>
    obtain ⟨a, b, m, hn, h1, h2, h3, hm⟩ := hp.2
    have hn : 28 + (a + b) + m ≤ n := hn
    exact bind (attempt (reSwap x y Γ (ih1 h1) (fun z => ih2 z (h2 z)) fun v => ih3 v (h3 v))) (by omega) fun r =>
      (ik r (hm r)).mono (by omega)
  | valueOr x ctor conv k ih1 ih2 ik =>
    obtain ⟨a, m, hn, h1, h2, hm⟩ := hp.2
    have hn : 1 + a + m ≤ n := hn
    exact bind (attempt (reValueOr x Γ (ih1 h1) (ih2 h2))) (by omega) fun r => (ik r (hm r)).mono (by omega)
  | andThen x dst f ctor k ih1 ih2 ik =>
    obtain ⟨a, b, m, hn, h1, h2, hm⟩ := hp.2
    have hn : 36 + (a + b) + m ≤ n := hn
    exact bind (attempt (reAndThen x dst Γ (ih1 h1) fun z => ih2 z (h2 z))) (by omega) fun r => (ik r (hm r)).mono (by omega)
  | transform nt x dst f k ih ik =>
    obtain ⟨a, m, hn, ha, hm⟩ := hp.2
    have hn : 27 + a + m ≤ n := hn
    exact bind (attempt (reTransform x dst Γ nt (ih ha))) (by omega) fun r => (ik r (hm r)).mono (by omega)
  | orElse rv x dst f ctor k ih1 ih2 ik =>
    obtain ⟨a, b, m, hn, h1, h2, hm⟩ := hp.2
    have hn : 35 + (a + b) + m ≤ n := hn
    exact bind (attempt (reOrElse x dst Γ rv (ih1 h1) fun z => ih2 z (h2 z))) (by omega) fun r => (ik r (hm r)).mono (by omega)
  | compare q x y cmp k ih ik =>
    obtain ⟨a, m, hn, ha, hm⟩ := hp.2
    have hn : 6 + a + m ≤ n := hn
    exact bind (attempt (reCompare x y Γ q fun u v => ih u v (ha u v))) (by omega) fun r => (ik r (hm r)).mono (by omega)
  | inspect q x f k ih ik =>
    obtain ⟨a, m, hn, ha, hm⟩ := hp.2
    have hn : 3 + a + m ≤ n := hn
    exact bind (attempt (reInspect x Γ q fun v => ih v (ha v))) (by omega) fun r => (ik r (hm r)).mono (by omega)

end Ends

theorem costs_mono (c : {α : Type} → Prog V G α → Nat) (p : Prog V G α) {n m : Nat} (h : p.Costs c n) (hn : n ≤ m) : p.Costs c m := by
  induction p generalizing n m with
  | ret r => exact ⟨Nat.le_trans h.1 hn, trivial⟩
  | user f k ih => exact ⟨Nat.le_trans h.1 hn, fun g => ih g (h.2 g) (by omega)⟩
  | call op k ih => exact ⟨Nat.le_trans h.1 hn, fun g => ih g (h.2 g) (by omega)⟩
  | emplace | swap | andThen | orElse =>
    obtain ⟨h1, a, b, l, h2, h3⟩ := h
    exact ⟨Nat.le_trans h1 hn, a, b, l, Nat.le_trans h2 hn, h3⟩
  | _ =>
    obtain ⟨h1, a, l, h2, h3⟩ := h
    exact ⟨Nat.le_trans h1 hn, a, l, Nat.le_trans h2 hn, h3⟩

/-- Each call and each own computation takes at most 71 steps. -/
theorem costs_overhead (p : Prog V G α) {n : Nat} (h : p.Costs Prog.one n) : p.Costs Prog.overhead (71 * n) := by
  have key {β : Type} (q : Prog V G β) : q.overhead ≤ 71 * q.one := q.overhead_le
  induction p generalizing n with
  | ret r => exact ⟨Nat.zero_le _, trivial⟩
  | user f k ih =>
    have h1 : 1 ≤ n := h.1
    exact ⟨by show 1 ≤ _; omega, fun g => costs_mono _ _ (ih g (h.2 g)) (by show 71 * (n - 1) ≤ 71 * n - 1; omega)⟩
  | call op k ih =>
    have h1 : 1 ≤ n := h.1
    have h2 : op.budget.steps ≤ 71 := key (.call op k)
    exact ⟨by show op.budget.steps ≤ _; omega, fun g => costs_mono _ _ (ih g (h.2 g))
      (by show 71 * (n - 1) ≤ 71 * n - op.budget.steps; omega)⟩
  | construct x nt ctor k ih ik =>
    obtain ⟨h1, a, m, hn, ha, hm⟩ := h
    have hn : 1 + a + m ≤ n := hn
    exact ⟨by show 25 ≤ _; omega, 71 * a, 71 * m, by show 25 + _ + _ ≤ _; omega, ih ha, fun r => ik r (hm r)⟩
  | transfer rv x y ctor k ih ik =>
    obtain ⟨h1, a, m, hn, ha, hm⟩ := h
    have hn : 1 + a + m ≤ n := hn
    exact ⟨by show 34 ≤ _; omega, 71 * a, 71 * m, by show 34 + _ + _ ≤ _; omega, ih ha, fun r => ik r (hm r)⟩
  | destroy x dtor k ih ik =>
    obtain ⟨h1, a, m, hn, ha, hm⟩ := h
    have hn : 1 + a + m ≤ n := hn
    exact ⟨by show 10 ≤ _; omega, 71 * a, 71 * m, by show 10 + _ + _ ≤ _; omega, fun v => ih v (ha v), fun r => ik r (hm r)⟩
  | reset x dtor k ih ik =>
    obtain ⟨h1, a, m, hn, ha, hm⟩ := h
    have hn : 1 + a + m ≤ n := hn
    exact ⟨by show 11 ≤ _; omega, 71 * a, 71 * m, by show 11 + _ + _ ≤ _; omega, fun v => ih v (ha v), fun r => ik r (hm r)⟩
  | assign x nt asg ctor k ih1 ih2 ik =>
    obtain ⟨h1, a, m, hn, ha, hb, hm⟩ := h
    have hn : 1 + a + m ≤ n := hn
    exact ⟨by show 17 ≤ _; omega, 71 * a, 71 * m, by show 17 + _ + _ ≤ _; omega, ih1 ha, ih2 hb, fun r => ik r (hm r)⟩
  | assignFrom rv x y asg ctor dtor k ih1 ih2 ih3 ik =>
    obtain ⟨h1, a, m, hn, ha, hb, hc, hm⟩ := h
    have hn : 1 + a + m ≤ n := hn
    exact ⟨by show 20 ≤ _; omega, 71 * a, 71 * m, by show 20 + _ + _ ≤ _; omega, ih1 ha, ih2 hb, fun v => ih3 v (hc v), fun r => ik r (hm r)⟩
  | emplace x nt dtor ctor k ih1 ih2 ik =>
    obtain ⟨h1, a, b, m, hn, ha, hb, hm⟩ := h
    have hn : 1 + (a + b) + m ≤ n := hn
    exact ⟨by show 28 ≤ _; omega, 71 * a, 71 * b, 71 * m, by show 28 + _ + _ ≤ _; omega, fun v => ih1 v (ha v), ih2 hb, fun r => ik r (hm r)⟩
  | swap x y swp ctor dtor k ih1 ih2 ih3 ik =>
    obtain ⟨h1, a, b, m, hn, hs, ha, hb, hm⟩ := h
    have hn : 1 + (a + b) + m ≤ n := hn
    exact ⟨by show 28 ≤ _; omega, 71 * a, 71 * b, 71 * m, by show 28 + _ + _ ≤ _; omega, costs_mono _ _ (ih1 hs) (by omega),
      fun z => ih2 z (ha z), fun v => ih3 v (hb v), fun r => ik r (hm r)⟩
  | valueOr x ctor conv k ih1 ih2 ik =>
    obtain ⟨h1, a, m, hn, ha, hb, hm⟩ := h
    have hn : 1 + a + m ≤ n := hn
    exact ⟨by show 1 ≤ _; omega, 71 * a, 71 * m, by show 1 + _ + _ ≤ _; omega, ih1 ha, ih2 hb, fun r => ik r (hm r)⟩
  | andThen x dst f ctor k ih1 ih2 ik =>
    obtain ⟨h1, a, b, m, hn, ha, hb, hm⟩ := h
    have hn : 1 + (a + b) + m ≤ n := hn
    exact ⟨by show 36 ≤ _; omega, 71 * a, 71 * b, 71 * m, by show 36 + _ + _ ≤ _; omega, ih1 ha, fun z => ih2 z (hb z), fun r => ik r (hm r)⟩
  | transform nt x dst f k ih ik =>
    obtain ⟨h1, a, m, hn, ha, hm⟩ := h
    have hn : 1 + a + m ≤ n := hn
    exact ⟨by show 27 ≤ _; omega, 71 * a, 71 * m, by show 27 + _ + _ ≤ _; omega, ih ha, fun r => ik r (hm r)⟩
  | orElse rv x dst f ctor k ih1 ih2 ik =>
    obtain ⟨h1, a, b, m, hn, ha, hb, hm⟩ := h
    have hn : 1 + (a + b) + m ≤ n := hn
    exact ⟨by show 35 ≤ _; omega, 71 * a, 71 * b, 71 * m, by show 35 + _ + _ ≤ _; omega, ih1 ha, fun z => ih2 z (hb z), fun r => ik r (hm r)⟩
  | compare q x y cmp k ih ik =>
    obtain ⟨h1, a, m, hn, ha, hm⟩ := h
    have hn : 1 + a + m ≤ n := hn
    exact ⟨by show 6 ≤ _; omega, 71 * a, 71 * m, by show 6 + _ + _ ≤ _; omega, fun u v => ih u v (ha u v), fun r => ik r (hm r)⟩
  | inspect q x f k ih ik =>
    obtain ⟨h1, a, m, hn, ha, hm⟩ := h
    have hn : 1 + a + m ≤ n := hn
    exact ⟨by show 3 ≤ _; omega, 71 * a, 71 * m, by show 3 + _ + _ ≤ _; omega, fun v => ih v (ha v), fun r => ik r (hm r)⟩

end
end Verif
