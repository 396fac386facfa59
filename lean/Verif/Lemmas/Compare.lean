import Verif.Model.Compare
import Verif.Lemmas.History

/-! Helper lemmas for comparisons. -/

namespace Verif.Model
open Verif.Spec (RelOp Cmp Answer stdRel stdCmp)
variable {V G A B R : Type} {w : World V G}

alsoAny
/-- The operand answers `has_value()` and `*` as an optional with content `o`, without side effects. -/
def OptLike.Shows (l : OptLike V G A) (o : Option A) (w : World V G) : Prop :=
  l.hasValue w = (.ok o.isSome, w) ∧ ∀ a, o = some a → l.deref w = (.ok a, w)

alsoAny
theorem stdOpt_shows (o : Option A) : (stdOpt o : OptLike V G A).Shows o w := by
  refine ⟨rfl, fun a h => ?_⟩
  subst h; rfl

alsoAny
theorem andM_true {a b : M V G Bool} (h : a w = (.ok true, w)) : andM a b w = b w := by
  unfold andM; rw [bind_ok h]; rfl
alsoAny
theorem andM_false {a b : M V G Bool} (h : a w = (.ok false, w)) : andM a b w = (.ok false, w) := by
  unfold andM; rw [bind_ok h]; rfl
alsoAny
theorem orM_true {a b : M V G Bool} (h : a w = (.ok true, w)) : orM a b w = (.ok true, w) := by
  unfold orM; rw [bind_ok h]; rfl
alsoAny
theorem orM_false {a b : M V G Bool} (h : a w = (.ok false, w)) : orM a b w = b w := by
  unfold orM; rw [bind_ok h]; rfl
alsoAny
theorem notM_run {a : M V G Bool} {b} (h : a w = (.ok b, w)) : notM a w = (.ok (!b), w) := by
  unfold notM; rw [bind_ok h]; rfl

alsoAny
/-- Carry out an answer of the specification. -/
def answer (ans : Answer R A B) (cmp : UserCmp G A B R) : M V G R :=
  match ans with
  | .const r => pure r
  | .ask a b => userCall (cmp a b)

variable {l : OptLike V G A} {r : OptLike V G B}

alsoAny
theorem payloadCmp_run {cmp : UserCmp G A B R} {a b} (hl : l.deref w = (.ok a, w)) (hr : r.deref w = (.ok b, w)) :
    payloadCmp l r cmp w = userCall (cmp a b) w := by
  unfold payloadCmp; rw [bind_ok hl, bind_ok hr]

alsoAny
theorem optRel_run {o : Option A} {p : Option B} (hl : l.Shows o w) (hr : r.Shows p w) (op : RelOp)
    (cmp : RelOp → UserCmp G A B Bool) :
    optRel l r op cmp w = answer (stdRel op o p) (cmp op) w := by
  obtain ⟨hl1, hl2⟩ := hl
  obtain ⟨hr1, hr2⟩ := hr
  have hnl := notM_run hl1
  have hnr := notM_run hr1
  have he : ∀ b : Bool, (do let rhsHasValue ← r.hasValue; pure (b == rhsHasValue) : M V G Bool) w = (.ok (b == p.isSome), w) :=
    fun b => by rw [bind_ok hr1]; rfl
  have hn : ∀ b : Bool, (do let rhsHasValue ← r.hasValue; pure (b != rhsHasValue) : M V G Bool) w = (.ok (b != p.isSome), w) :=
    fun b => by rw [bind_ok hr1]; rfl
  have hp : ∀ b : Bool, (pure b : M V G Bool) w = (.ok b, w) := fun _ => rfl
  have hpay : ∀ a b, o = some a → p = some b → payloadCmp l r (cmp op) w = userCall (cmp op a b) w :=
    fun a b ha hb => payloadCmp_run (hl2 a ha) (hr2 b hb)
  cases op
  · show optEq l r (cmp .eq) w = _
    unfold optEq
    rw [bind_ok hl1]
    cases o <;> cases p
    · rw [andM_true (he _)]; exact orM_true (hp _)
    · rw [andM_false (he _)]; rfl
    · rw [andM_false (he _)]; rfl
    · rw [andM_true (he _)]; exact (orM_false (hp _)).trans (hpay _ _ rfl rfl)
  · show optNe l r (cmp .ne) w = _
    unfold optNe
    rw [bind_ok hl1]
    cases o <;> cases p
    · rw [orM_false (hn _)]; exact andM_false (hp _)
    · rw [orM_true (hn _)]; rfl
    · rw [orM_true (hn _)]; rfl
    · rw [orM_false (hn _)]; exact (andM_true (hp _)).trans (hpay _ _ rfl rfl)
  · show optLt l r (cmp .lt) w = _
    unfold optLt
    cases o <;> cases p
    · rw [andM_false hr1]; rfl
    · rw [andM_true hr1, orM_true hnl]; rfl
    · rw [andM_false hr1]; rfl
    · rw [andM_true hr1, orM_false hnl]; exact hpay _ _ rfl rfl
  · show optLe l r (cmp .le) w = _
    unfold optLe
    cases o <;> cases p
    · rw [orM_true hnl]; rfl
    · rw [orM_true hnl]; rfl
    · rw [orM_false hnl, andM_false hr1]; rfl
    · rw [orM_false hnl, andM_true hr1]; exact hpay _ _ rfl rfl
  · show optGt l r (cmp .gt) w = _
    unfold optGt
    cases o <;> cases p
    · rw [andM_false hl1]; rfl
    · rw [andM_false hl1]; rfl
    · rw [andM_true hl1, orM_true hnr]; rfl
    · rw [andM_true hl1, orM_false hnr]; exact hpay _ _ rfl rfl
  · show optGe l r (cmp .ge) w = _
    unfold optGe
    cases o <;> cases p
    · rw [orM_true hnr]; rfl
    · rw [orM_false hnr, andM_false hl1]; rfl
    · rw [orM_true hnr]; rfl
    · rw [orM_false hnr, andM_true hl1]; exact hpay _ _ rfl rfl

alsoAny
theorem optSpaceship_run {o : Option A} {p : Option B} (hl : l.Shows o w) (hr : r.Shows p w)
    (cmp : UserCmp G A B Cmp) :
    optSpaceship l r cmp w = answer (stdCmp o p) cmp w := by
  obtain ⟨hl1, hl2⟩ := hl
  obtain ⟨hr1, hr2⟩ := hr
  unfold optSpaceship
  have h : andM l.hasValue r.hasValue w = (.ok (o.isSome && p.isSome), w) := by
    cases o
    · rw [andM_false hl1]; rfl
    · rw [andM_true hl1]; exact hr1
  rw [bind_ok h]
  cases o <;> cases p <;>
    simp only [Option.isSome_none, Option.isSome_some, Bool.and_true, Bool.and_false, stdCmp, if_true, if_false,
      Bool.false_eq_true] at *
  · rw [bind_ok hl1, bind_ok hr1]; rfl
  · rw [bind_ok hl1, bind_ok hr1]; rfl
  · rw [bind_ok hl1, bind_ok hr1]; rfl
  · rw [payloadCmp_run (hl2 _ rfl) (hr2 _ rfl)]; rfl

end Verif.Model
