import Verif.Lemmas.Walk
import Verif.Spec.Lifetime

/-! Helper lemmas: the lifetime invariant of the event log. -/

namespace Verif.Model

/-- Life of one object. -/
inductive LS where
  | unborn | alive | dead | leaked | flagAlive | flagDead | flagGone | bad
deriving DecidableEq

def LS.step (id : Nat) (s : LS) : Event → LS
  | .payloadCtor i => if i = id then (if s = .unborn then .alive else .bad) else s
  | .payloadDtor i => if i = id then (if s = .alive then .dead else .bad) else s
  | .payloadLeak i => if i = id then (if s = .alive then .leaked else .bad) else s
  | .flagInit i => if i = id then (if s = .unborn then .flagAlive else .bad) else s
  | .flagInval i => if i = id then (if s = .flagAlive then .flagDead else .bad) else s
  | .flagAbandon i => if i = id then (if s = .flagAlive then .flagGone else .bad) else s

def status (l : List Event) (id : Nat) : LS := l.foldl (LS.step id) .unborn

theorem status_snoc (l : List Event) (e : Event) (id : Nat) : status (l ++ [e]) id = LS.step id (status l id) e := by
  simp [status]

theorem foldl_bad (l : List Event) (id : Nat) : l.foldl (LS.step id) .bad = .bad := by
  induction l with
  | nil => rfl
  | cons e l ih =>
    rw [List.foldl_cons]
    have : LS.step id .bad e = .bad := by cases e <;> simp [LS.step]
    rw [this, ih]

theorem status_prefix {p l : List Event} (h : p <+: l) {id : Nat} (hl : status l id ≠ .bad) : status p id ≠ .bad := by
  obtain ⟨t, rfl⟩ := h
  intro hb
  apply hl
  unfold status at hb ⊢
  rw [List.foldl_append, hb, foldl_bad]

/-- The counts that belong to a status. -/
def LS.counts : LS → Nat × Nat × Nat × Nat × Nat × Nat
  | .unborn => (0, 0, 0, 0, 0, 0)
  | .alive => (1, 0, 0, 0, 0, 0)
  | .dead => (1, 1, 0, 0, 0, 0)
  | .leaked => (1, 0, 1, 0, 0, 0)
  | .flagAlive => (0, 0, 0, 1, 0, 0)
  | .flagDead => (0, 0, 0, 1, 1, 0)
  | .flagGone => (0, 0, 0, 1, 0, 1)
  | .bad => (0, 0, 0, 0, 0, 0)

theorem step_counts (id : Nat) (l : List Event) (e : Event) (h : status (l ++ [e]) id ≠ .bad)
    (ih : (created l id, destroyed l id, leaked l id, flagCreated l id, flagDestroyed l id, flagAbandoned l id)
      = (status l id).counts) :
    (created (l ++ [e]) id, destroyed (l ++ [e]) id, leaked (l ++ [e]) id, flagCreated (l ++ [e]) id,
      flagDestroyed (l ++ [e]) id, flagAbandoned (l ++ [e]) id) = (status (l ++ [e]) id).counts := by
  rw [status_snoc] at h ⊢
  simp only [created, destroyed, leaked, flagCreated, flagDestroyed, flagAbandoned, List.count_append] at ih ⊢
  generalize status l id = s at *
  cases s <;> simp only [LS.counts, Prod.mk.injEq] at ih <;> obtain ⟨h1, h2, h3, h4, h5, h6⟩ := ih <;>
    simp only [h1, h2, h3, h4, h5, h6] <;> cases e <;> rename_i i <;> by_cases hi : i = id <;>
    simp_all [LS.step, LS.counts]

theorem counts_of_status (id : Nat) (l : List Event) (h : status l id ≠ .bad) :
    (created l id, destroyed l id, leaked l id, flagCreated l id, flagDestroyed l id, flagAbandoned l id)
      = (status l id).counts := by
  induction hl : l.length generalizing l with
  | zero => rw [List.length_eq_zero_iff.1 hl]; rfl
  | succ n ih =>
    have hne : l ≠ [] := by intro hc; simp [hc] at hl
    obtain ⟨l', e, rfl⟩ : ∃ l' e, l = l' ++ [e] := ⟨l.dropLast, l.getLast hne, (List.dropLast_concat_getLast hne).symm⟩
    exact step_counts id l' e h (ih l' (status_prefix ⟨[e], rfl⟩ h) (by simpa using hl))

/-- The invariant: `P x`/`F x` is the payload/flag object in optional `x`. -/
structure LifeA (log : List Event) (n : Nat) (P F : Nat → Option Nat) : Prop where
  fresh : ∀ id, n ≤ id → status log id = .unborn
  ok : ∀ id, status log id ≠ .bad
  payload : ∀ id, status log id = .alive ↔ ∃ x, P x = some id
  flag : ∀ id, status log id = .flagAlive ↔ ∃ x, F x = some id
  uniqP : ∀ x y id, P x = some id → P y = some id → x = y
  uniqF : ∀ x y id, F x = some id → F y = some id → x = y

namespace LifeA
variable {log : List Event} {n : Nat} {P F : Nat → Option Nat} {x id : Nat}

theorem mono (h : LifeA log n P F) {n' : Nat} (hn : n ≤ n') : LifeA log n' P F :=
  { h with fresh := fun id hi => h.fresh id (by omega) }

theorem newP (h : LifeA log n P F) (hx : P x = none) :
    LifeA (log ++ [.payloadCtor n]) (n + 1) (upd P x (some n)) F := by
  have hn := h.fresh n (Nat.le_refl n)
  have hst : ∀ i, status (log ++ [.payloadCtor n]) i = if i = n then .alive else status log i := by
    intro i
    rw [status_snoc]
    by_cases hi : n = i
    · subst hi; simp [LS.step, hn]
    · have hi' : ¬ i = n := fun h => hi h.symm
      simp [LS.step, hi, hi']
  refine ⟨?_, ?_, ?_, ?_, ?_, h.uniqF⟩
  · intro i hi; rw [hst, if_neg (by omega)]; exact h.fresh i (by omega)
  · intro i; rw [hst]; split; simp; exact h.ok i
  · intro i
    rw [hst]
    by_cases hi : i = n
    · subst hi
      simp only [if_true, true_iff]
      exact ⟨x, upd_same _ _ _⟩
    · rw [if_neg hi, h.payload i]
      constructor
      · rintro ⟨z, hz⟩
        refine ⟨z, ?_⟩
        rw [upd_other]; exact hz
        rintro rfl; simp [hx] at hz
      · rintro ⟨z, hz⟩
        refine ⟨z, ?_⟩
        by_cases hzx : z = x
        · subst hzx; rw [upd_same] at hz; simp at hz; omega
        · rwa [upd_other _ _ hzx] at hz
  · intro i
    rw [hst]
    by_cases hi : i = n
    · subst hi
      simp only [if_true, reduceCtorEq, false_iff]
      intro hc
      have := (h.flag i).2 hc
      simp [hn] at this
    · rw [if_neg hi]; exact h.flag i
  · have old : ∀ z, P z ≠ some n := fun z hz => by
      have := (h.payload n).2 ⟨z, hz⟩
      simp [hn] at this
    intro a b i ha hb
    by_cases h1 : a = x <;> by_cases h2 : b = x
    · rw [h1, h2]
    · rw [h1, upd_same] at ha; rw [upd_other _ _ h2] at hb
      simp at ha; subst ha; exact absurd hb (old b)
    · rw [h2, upd_same] at hb; rw [upd_other _ _ h1] at ha
      simp at hb; subst hb; exact absurd ha (old a)
    · rw [upd_other _ _ h1] at ha; rw [upd_other _ _ h2] at hb
      exact h.uniqP a b i ha hb

theorem newF (h : LifeA log n P F) (hx : F x = none) :
    LifeA (log ++ [.flagInit n]) (n + 1) P (upd F x (some n)) := by
  have hn := h.fresh n (Nat.le_refl n)
  have hst : ∀ i, status (log ++ [.flagInit n]) i = if i = n then .flagAlive else status log i := by
    intro i
    rw [status_snoc]
    by_cases hi : n = i
    · subst hi; simp [LS.step, hn]
    · have hi' : ¬ i = n := fun h => hi h.symm
      simp [LS.step, hi, hi']
  refine ⟨?_, ?_, ?_, ?_, h.uniqP, ?_⟩
  · intro i hi; rw [hst, if_neg (by omega)]; exact h.fresh i (by omega)
  · intro i; rw [hst]; split; simp; exact h.ok i
  · intro i
    rw [hst]
    by_cases hi : i = n
    · subst hi
      simp only [if_true, reduceCtorEq, false_iff]
      intro hc
      have := (h.payload i).2 hc
      simp [hn] at this
    · rw [if_neg hi]; exact h.payload i
  · intro i
    rw [hst]
    by_cases hi : i = n
    · subst hi
      simp only [if_true, true_iff]
      exact ⟨x, upd_same _ _ _⟩
    · rw [if_neg hi, h.flag i]
      constructor
      · rintro ⟨z, hz⟩
        refine ⟨z, ?_⟩
        rw [upd_other]; exact hz
        rintro rfl; simp [hx] at hz
      · rintro ⟨z, hz⟩
        refine ⟨z, ?_⟩
        by_cases hzx : z = x
        · subst hzx; rw [upd_same] at hz; simp at hz; omega
        · rwa [upd_other _ _ hzx] at hz
  · have old : ∀ z, F z ≠ some n := fun z hz => by
      have := (h.flag n).2 ⟨z, hz⟩
      simp [hn] at this
    intro a b i ha hb
    by_cases h1 : a = x <;> by_cases h2 : b = x
    · rw [h1, h2]
    · rw [h1, upd_same] at ha; rw [upd_other _ _ h2] at hb
      simp at ha; subst ha; exact absurd hb (old b)
    · rw [h2, upd_same] at hb; rw [upd_other _ _ h1] at ha
      simp at hb; subst hb; exact absurd ha (old a)
    · rw [upd_other _ _ h1] at ha; rw [upd_other _ _ h2] at hb
      exact h.uniqF a b i ha hb

theorem delP (h : LifeA log n P F) (hx : P x = some id) {e : Event} (he : e = .payloadDtor id ∨ e = .payloadLeak id) :
    LifeA (log ++ [e]) n (upd P x none) F := by
  have ha := (h.payload id).2 ⟨x, hx⟩
  have hlt : id < n := by
    apply Nat.lt_of_not_le
    intro hle
    have := h.fresh id hle
    simp [ha] at this
  obtain ⟨q, hq, hst⟩ : ∃ q : LS, (q = .dead ∨ q = .leaked) ∧
      ∀ i, status (log ++ [e]) i = if i = id then q else status log i := by
    rcases he with rfl | rfl
    · refine ⟨.dead, .inl rfl, fun i => ?_⟩
      rw [status_snoc]
      by_cases hi : id = i
      · subst hi; simp [LS.step, ha]
      · have hi' : ¬ i = id := fun h => hi h.symm
        simp [LS.step, hi, hi']
    · refine ⟨.leaked, .inr rfl, fun i => ?_⟩
      rw [status_snoc]
      by_cases hi : id = i
      · subst hi; simp [LS.step, ha]
      · have hi' : ¬ i = id := fun h => hi h.symm
        simp [LS.step, hi, hi']
  have hq1 : q ≠ .bad := by rcases hq with rfl | rfl <;> simp
  have hq2 : q ≠ .alive := by rcases hq with rfl | rfl <;> simp
  have hq3 : q ≠ .flagAlive := by rcases hq with rfl | rfl <;> simp
  refine ⟨?_, ?_, ?_, ?_, ?_, h.uniqF⟩
  · intro i hi; rw [hst, if_neg (by omega)]; exact h.fresh i hi
  · intro i; rw [hst]; split; exact hq1; exact h.ok i
  · intro i
    rw [hst]
    by_cases hi : i = id
    · subst hi
      simp only [if_true, hq2, false_iff]
      rintro ⟨z, hz⟩
      by_cases hzx : z = x
      · subst hzx; rw [upd_same] at hz; simp at hz
      · rw [upd_other _ _ hzx] at hz
        exact hzx (h.uniqP z x i hz hx)
    · rw [if_neg hi, h.payload i]
      constructor
      · rintro ⟨z, hz⟩
        refine ⟨z, ?_⟩
        rw [upd_other]; exact hz
        rintro rfl; rw [hx] at hz; simp at hz; omega
      · rintro ⟨z, hz⟩
        refine ⟨z, ?_⟩
        by_cases hzx : z = x
        · subst hzx; rw [upd_same] at hz; simp at hz
        · rwa [upd_other _ _ hzx] at hz
  · intro i
    rw [hst]
    by_cases hi : i = id
    · subst hi
      simp only [if_true, hq3, false_iff]
      intro hc
      have := (h.flag i).2 hc
      simp [ha] at this
    · rw [if_neg hi]; exact h.flag i
  · intro a b i ha hb
    by_cases h1 : a = x
    · rw [h1, upd_same] at ha; simp at ha
    · by_cases h2 : b = x
      · rw [h2, upd_same] at hb; simp at hb
      · rw [upd_other _ _ h1] at ha; rw [upd_other _ _ h2] at hb
        exact h.uniqP a b i ha hb

theorem delF (h : LifeA log n P F) (hx : F x = some id) {e : Event} (he : e = .flagInval id ∨ e = .flagAbandon id) :
    LifeA (log ++ [e]) n P (upd F x none) := by
  have ha := (h.flag id).2 ⟨x, hx⟩
  have hlt : id < n := by
    apply Nat.lt_of_not_le
    intro hle
    have := h.fresh id hle
    simp [ha] at this
  obtain ⟨q, hq, hst⟩ : ∃ q : LS, (q = .flagDead ∨ q = .flagGone) ∧
      ∀ i, status (log ++ [e]) i = if i = id then q else status log i := by
    rcases he with rfl | rfl
    · refine ⟨.flagDead, .inl rfl, fun i => ?_⟩
      rw [status_snoc]
      by_cases hi : id = i
      · subst hi; simp [LS.step, ha]
      · have hi' : ¬ i = id := fun h => hi h.symm
        simp [LS.step, hi, hi']
    · refine ⟨.flagGone, .inr rfl, fun i => ?_⟩
      rw [status_snoc]
      by_cases hi : id = i
      · subst hi; simp [LS.step, ha]
      · have hi' : ¬ i = id := fun h => hi h.symm
        simp [LS.step, hi, hi']
  have hq1 : q ≠ .bad := by rcases hq with rfl | rfl <;> simp
  have hq2 : q ≠ .alive := by rcases hq with rfl | rfl <;> simp
  have hq3 : q ≠ .flagAlive := by rcases hq with rfl | rfl <;> simp
  refine ⟨?_, ?_, ?_, ?_, h.uniqP, ?_⟩
  · intro i hi; rw [hst, if_neg (by omega)]; exact h.fresh i hi
  · intro i; rw [hst]; split; exact hq1; exact h.ok i
  · intro i
    rw [hst]
    by_cases hi : i = id
    · subst hi
      simp only [if_true, hq2, false_iff]
      intro hc
      have := (h.payload i).2 hc
      simp [ha] at this
    · rw [if_neg hi]; exact h.payload i
  · intro i
    rw [hst]
    by_cases hi : i = id
    · subst hi
      simp only [if_true, hq3, false_iff]
      rintro ⟨z, hz⟩
      by_cases hzx : z = x
      · subst hzx; rw [upd_same] at hz; simp at hz
      · rw [upd_other _ _ hzx] at hz
        exact hzx (h.uniqF z x i hz hx)
    · rw [if_neg hi, h.flag i]
      constructor
      · rintro ⟨z, hz⟩
        refine ⟨z, ?_⟩
        rw [upd_other]; exact hz
        rintro rfl; rw [hx] at hz; simp at hz; omega
      · rintro ⟨z, hz⟩
        refine ⟨z, ?_⟩
        by_cases hzx : z = x
        · subst hzx; rw [upd_same] at hz; simp at hz
        · rwa [upd_other _ _ hzx] at hz
  · intro a b i ha hb
    by_cases h1 : a = x
    · rw [h1, upd_same] at ha; simp at ha
    · by_cases h2 : b = x
      · rw [h2, upd_same] at hb; simp at hb
      · rw [upd_other _ _ h1] at ha; rw [upd_other _ _ h2] at hb
        exact h.uniqF a b i ha hb

end LifeA

section
variable {V G : Type}

def pidS (o : Option (Storage V)) : Option Nat := o.bind fun s => s.payload.map (·.id)
def fidS (o : Option (Storage V)) : Option Nat := o.bind fun s => s.flag.map (·.id)

/-- The invariant on worlds. -/
def Life (w : World V G) : Prop :=
  LifeA w.log w.nextObj (fun x => pidS (w.mem x)) (fun x => fidS (w.mem x))

theorem upd_id {f : Nat → Option Nat} {x : Nat} {b : Option Nat} (h : f x = b) : upd f x b = f := by
  funext z; unfold upd; split
  · next hz => rw [hz, h]
  · rfl

/-- Transition lemma: one storage changes. -/
theorem Life.of {w w' : World V G} {x : Nat} {o : Option (Storage V)} (hm : w'.mem = upd w.mem x o)
    (h : LifeA w'.log w'.nextObj (upd (fun x => pidS (w.mem x)) x (pidS o)) (upd (fun x => fidS (w.mem x)) x (fidS o))) :
    Life w' := by
  unfold Life
  have h1 : (fun z => pidS (w'.mem z)) = upd (fun x => pidS (w.mem x)) x (pidS o) := by
    funext z; rw [hm]; unfold upd; split <;> rfl
  have h2 : (fun z => fidS (w'.mem z)) = upd (fun x => fidS (w.mem x)) x (fidS o) := by
    funext z; rw [hm]; unfold upd; split <;> rfl
  rw [h1, h2]; exact h

theorem life_init (g : G) : Life (World.init g : World V G) :=
  ⟨fun _ _ => rfl, fun _ => by simp [status, World.init], fun _ => by simp [status, World.init, pidS],
    fun _ => by simp [status, World.init, fidS], fun _ _ _ h => by simp [World.init, pidS] at h,
    fun _ _ _ h => by simp [World.init, fidS] at h⟩

theorem readStorage_none {x : Nat} {w : World V G} (h : w.mem x = none) : readStorage x w = (.abort (.ub .noOptional), w) := by
  simp [readStorage, h]

theorem life_destroyPayload (c : Config V) (d : V → G → G) (x : Nat) :
    Steps (fun a b : World V G => Life a → Life b) (destroyPayload c d x) := by
  intro w hw
  unfold destroyPayload
  rcases hx : w.mem x with _ | s
  · rw [bind_abort (readStorage_none hx)]; exact hw
  · rw [bind_ok (readStorage_ok hx)]
    rcases hp : s.payload with _ | p
    · exact hw
    · refine Life.of (w := w) (x := x) (o := some _) rfl ?_
      have h2 := LifeA.delP (x := x) hw (by simp [pidS, hx, hp]) (.inl rfl : _ ∨ Event.payloadDtor p.id = _)
      rw [upd_id (f := fun x => fidS (w.mem x)) (by simp [hx, fidS])]
      exact h2

/-- The invariant is kept by every primitive, whatever it does. -/
theorem life_closed (Γ : Env V G) : Closed Γ (fun _ => True) (fun _ => True) (fun a b : World V G => Life a → Life b) where
  refl _ := id
  trans _ _ _ h1 h2 := fun h => h2 (h1 h)
  user _ _ := id
  initEmptyFlag x _ := by
    intro w hw
    unfold initEmptyFlag
    rcases hx : w.mem x with _ | s
    · rw [bind_abort (readStorage_none hx)]; exact hw
    · rw [bind_ok (readStorage_ok hx), bind_ok (m := freshId) rfl]
      rcases hi : (Γ x).cfg.initFlag w.nextObj s with k | ⟨s', created⟩
      · exact LifeA.mono hw (Nat.le_succ _)
      · show Life ((do writeStorage x s'; if created then emit (.flagInit w.nextObj) else pure ()) _ : Res Unit × World V G).2
        unfold Config.initFlag at hi
        cases hm : (Γ x).cfg.manip with
        | separate =>
          simp only [hm, Except.ok.injEq, Prod.mk.injEq] at hi
          obtain ⟨rfl, rfl⟩ := hi
          refine Life.of (w := w) (x := x) (o := some _) rfl ?_
          rw [upd_id (by simp [hx, pidS]), upd_id (by simp [hx, fidS])]
          exact LifeA.mono hw (Nat.le_succ _)
        | memcpy sent =>
          simp only [hm] at hi
          split at hi
          · simp at hi
          next hn =>
          split at hi
          · simp at hi
          simp only [Except.ok.injEq, Prod.mk.injEq] at hi
          obtain ⟨rfl, rfl⟩ := hi
          refine Life.of (w := w) (x := x) (o := some _) rfl ?_
          rw [upd_id (f := fun x => pidS (w.mem x)) (by simp [hx, pidS])]
          simp only [not_or, Bool.not_eq_true, Option.isSome_eq_false_iff, Option.isNone_iff_eq_none] at hn
          exact LifeA.newF hw (by simp [hx, fidS, hn.2])
        | assign sv eq =>
          simp only [hm] at hi
          split at hi
          · simp at hi
          next hn =>
          split at hi
          · simp at hi
          simp only [Except.ok.injEq, Prod.mk.injEq] at hi
          obtain ⟨rfl, rfl⟩ := hi
          refine Life.of (w := w) (x := x) (o := some _) rfl ?_
          rw [upd_id (f := fun x => pidS (w.mem x)) (by simp [hx, pidS])]
          simp only [not_or, Bool.not_eq_true, Option.isSome_eq_false_iff, Option.isNone_iff_eq_none] at hn
          exact LifeA.newF hw (by simp [hx, fidS, hn.2])
        | custom p ev =>
          simp only [hm] at hi
          split at hi
          · simp at hi
          next hn =>
          split at hi
          · simp at hi
          simp only [Except.ok.injEq, Prod.mk.injEq] at hi
          obtain ⟨rfl, rfl⟩ := hi
          refine Life.of (w := w) (x := x) (o := some _) rfl ?_
          rw [upd_id (f := fun x => pidS (w.mem x)) (by simp [hx, pidS])]
          simp only [not_or, Bool.not_eq_true, Option.isSome_eq_false_iff, Option.isNone_iff_eq_none] at hn
          exact LifeA.newF hw (by simp [hx, fidS, hn.2])
  invalidate x _ := by
    intro w hw
    unfold invalidateEmptyFlag
    rcases hx : w.mem x with _ | s
    · rw [bind_abort (readStorage_none hx)]; exact hw
    · rw [bind_ok (readStorage_ok hx)]
      have key : Life ((match s.flag with
          | some f => do
            writeStorage x { s with flag := none, bytes := fill s.bytes (Γ x).cfg.loc.off (Γ x).cfg.loc.size (fun _ => none) }
            emit (.flagInval f.id)
          | none =>
            match s.payload, (Γ x).cfg.decomp with
            | some _, .inplace => destroyPayload (Γ x).cfg (Γ x).ops.dtor x
            | some _, _ => ubM .memberDestroyed
            | none, _ => ubM .noObject : M V G Unit) w).2 := by
        rcases hf : s.flag with _ | f
        · dsimp only
          rcases s.payload with _ | p
          · exact hw
          · cases (Γ x).cfg.decomp
            · exact hw
            · exact life_destroyPayload _ _ x w hw
            · exact hw
        · refine Life.of (w := w) (x := x) (o := some _) rfl ?_
          have h2 := LifeA.delF (x := x) hw (by simp [fidS, hx, hf]) (.inl rfl : _ ∨ Event.flagInval f.id = _)
          rw [upd_id (f := fun x => pidS (w.mem x)) (by simp [hx, pidS])]
          exact h2
      cases hm : (Γ x).cfg.manip with
      | separate =>
        refine Life.of (w := w) (x := x) (o := some _) rfl ?_
        rw [upd_id (by simp [hx, pidS]), upd_id (by simp [hx, fidS])]
        exact hw
      | memcpy sent => exact key
      | assign sv eq => exact key
      | custom p ev => exact key
  destroy x _ := life_destroyPayload _ _ x
  newPayload x v _ := by
    intro w hw
    unfold newPayload
    rcases hx : w.mem x with _ | s
    · rw [bind_abort (readStorage_none hx)]; exact hw
    · rw [bind_ok (readStorage_ok hx)]
      split
      · exact hw
      next hn =>
      refine Life.of (w := w) (x := x) (o := some _) rfl ?_
      rw [upd_id (f := fun x => fidS (w.mem x)) (by simp [hx, fidS])]
      simp only [not_or, Bool.not_eq_true, Option.isSome_eq_false_iff, Option.isNone_iff_eq_none] at hn
      exact LifeA.newP hw (by simp [hx, pidS, hn.1])
  setPayload x v _ := by
    intro w hw
    unfold setPayload
    rcases hx : w.mem x with _ | s
    · rw [bind_abort (readStorage_none hx)]; exact hw
    · rw [bind_ok (readStorage_ok hx)]
      rcases hp : s.payload with _ | p
      · exact hw
      · refine Life.of (w := w) (x := x) (o := some _) rfl ?_
        rw [upd_id (by simp [hx, pidS, hp]), upd_id (by simp [hx, fidS])]
        exact hw
  allocate x _ := by
    intro w hw
    unfold allocate
    rcases hx : w.mem x with _ | s
    · refine Life.of (w := w) (x := x) (o := some _) rfl ?_
      rw [upd_id (by simp [hx, pidS, Storage.raw]), upd_id (by simp [hx, fidS, Storage.raw])]
      exact hw
    · exact hw
  release x _ := by
    intro w hw
    unfold release
    rcases hx : w.mem x with _ | s
    · exact hw
    · refine Life.of (w := w) (x := x) (o := none) rfl ?_
      have key : LifeA (w.log ++ (match s.payload with | some p => [.payloadLeak p.id] | none => [])) w.nextObj
          (upd (fun x => pidS (w.mem x)) x none) (fun x => fidS (w.mem x)) := by
        rcases hp : s.payload with _ | p
        · rw [upd_id (f := fun x => pidS (w.mem x)) (by simp [hx, pidS, hp])]
          simpa using (show LifeA _ _ _ _ from hw)
        · exact LifeA.delP hw (by simp [hx, pidS, hp]) (.inr rfl)
      rcases hf : s.flag with _ | f
      · rw [upd_id (f := fun x => fidS (w.mem x)) (by simp [hx, fidS, hf])]
        simp only [hf, List.append_nil]
        exact key
      · simp only [hf]
        exact LifeA.delF (x := x) key (by simp [hx, fidS, hf]) (.inr rfl)

/-- Every run of every history keeps the invariant. -/
theorem life_run (Γ : Env V G) (h : List (Op V G)) (g : G) : Life (run Γ h (.init g)).2 :=
  (life_closed Γ).run h (fun _ _ _ _ => trivial) (fun _ _ _ _ => trivial) _ (life_init g)

theorem pidS_iff {w : World V G} {x id : Nat} : pidS (w.mem x) = some id ↔ HoldsPayload x id w := by
  unfold pidS HoldsPayload
  constructor
  · intro h
    rcases hx : w.mem x with _ | s <;> simp [hx] at h
    obtain ⟨p, hp, rfl⟩ := h
    exact ⟨s, p.val, rfl, hp⟩
  · rintro ⟨s, v, hs, hp⟩
    simp [hs, hp]

theorem fidS_iff {w : World V G} {x id : Nat} : fidS (w.mem x) = some id ↔ HoldsFlag x id w := by
  unfold fidS HoldsFlag
  constructor
  · intro h
    rcases hx : w.mem x with _ | s <;> simp [hx] at h
    obtain ⟨p, hp, rfl⟩ := h
    exact ⟨s, p.val, rfl, hp⟩
  · rintro ⟨s, v, hs, hp⟩
    simp [hs, hp]

end
end Verif.Model
