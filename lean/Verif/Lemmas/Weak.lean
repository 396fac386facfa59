import Verif.Spec.Weak
import Verif.Lemmas.Handover

/-! # Lemmas about weak memory -/

namespace Verif.Model
open Verif.Spec (Permitted WPermitted WDisciplined visible AllIdle RaceIn Apart Atomic)

section
variable {T V G α : Type} [DecidableEq T] {P : Type u}

/-- As `Ahead`, with the picture that each thread has of the memory. -/
structure WAhead (S : Weak T V G α) (A : Atomic T V G α) : Prop where
  idle : ∀ t, S.busy t = none → A.own t = S.own t ∧ A.results t = S.results t
  fits : ∀ t s, S.busy t = some s → Fits s.R s.W s.prog
  own : ∀ t s, S.busy t = some s → A.own t = (s.prog.exec ((S.own t).view (S.cache t))).2.own
  results : ∀ t s, S.busy t = some s → A.results t = S.results t ++ [(s.prog.exec ((S.own t).view (S.cache t))).1]
  mem : ∀ t s, S.busy t = some s → ∀ x, s.W x → A.mem x = (s.prog.exec ((S.own t).view (S.cache t))).2.mem x
  free : ∀ x, (∀ t s, S.busy t = some s → ¬s.W x) → A.mem x = S.mem x
  apart : ∀ t u s s', t ≠ u → S.busy t = some s → S.busy u = some s' → Apart s.R s.W s'.R s'.W

omit [DecidableEq T] in
theorem WAhead.start {S : Weak T V G α} (h : AllIdle S.toSharing) : WAhead S ⟨S.mem, S.own, S.results⟩ where
  idle _ _ := ⟨rfl, rfl⟩
  fits t s e := by rw [h t] at e; cases e
  own t s e := by rw [h t] at e; cases e
  results t s e := by rw [h t] at e; cases e
  mem t s e := by rw [h t] at e; cases e
  free _ _ := rfl
  apart t u s s' _ e := by rw [h t] at e; cases e

variable {S : Weak T V G α} {A : Atomic T V G α} {Within : (Nat → Prop) → (Nat → Prop) → P → Prop} {code : P → Steps.M V G α}
  {whole : P → M V G α}

theorem WAhead.enter (h : WAhead S A) (hc : ∀ p, toM (code p) = whole p) (hf : ∀ {R W p}, Within R W p → Fits R W (code p)) {t : T} {p : P}
    {R W : Nat → Prop} (hp : Permitted Within S.toSharing (.enter t p R W)) :
    WAhead (S.turn code (.turn (.enter t p R W))) (A.turn whole (.enter t p R W)) := by
  obtain ⟨ht, hw, ha⟩ := hp
  have hfit := hf hw
  have hm : ∀ x, R x ∨ W x → A.mem x = S.mem x := fun x hx => h.free x fun u s hs hW => by
    rcases hx with hx | hx
    · exact ((ha u s hs x).2 hW).1 hx
    · exact ((ha u s hs x).2 hW).2 hx
  have ho := (h.idle t ht).1
  obtain ⟨l1, l2, l3⟩ := exec_local hfit (o := S.own t) hm
  have hrun : whole p ((A.own t).view A.mem) = (code p).exec ((S.own t).view A.mem) := by rw [← hc, ho]; rfl
  have hA : A.turn whole (.enter t p R W) = ⟨(whole p ((A.own t).view A.mem)).2.mem, upd1 A.own t (whole p ((A.own t).view A.mem)).2.own,
      upd1 A.results t (A.results t ++ [(whole p ((A.own t).view A.mem)).1])⟩ := rfl
  rw [hrun] at hA
  rw [hA]
  have hb : ∀ u s, u ≠ t → (S.turn code (.turn (.enter t p R W))).busy u = some s → S.busy u = some s := fun u s hu hs => by
    simpa [Weak.turn, upd1, hu] using hs
  have hbt : (S.turn code (.turn (.enter t p R W))).busy t = some ⟨code p, R, W⟩ := by simp [Weak.turn]
  refine ⟨fun u hu => ?_, fun u s hs => ?_, fun u s hs => ?_, fun u s hs => ?_, fun u s hs x hx => ?_, fun x hx => ?_, fun u v s s' huv hs hs' => ?_⟩
  · have hne : u ≠ t := by rintro rfl; rw [hbt] at hu; cases hu
    have hu' : S.busy u = none := by simpa [Weak.turn, upd1, hne] using hu
    simp only [upd1_other _ _ hne]
    exact h.idle u hu'
  · by_cases hu : u = t
    · subst hu; rw [hbt] at hs; cases hs; exact hfit
    · exact h.fits u s (hb u s hu hs)
  · by_cases hu : u = t
    · subst hu; rw [hbt] at hs; cases hs; simp only [Weak.turn, upd1_same]; exact l2
    · simp only [Weak.turn, upd1_other _ _ hu]; exact h.own u s (hb u s hu hs)
  · by_cases hu : u = t
    · subst hu; rw [hbt] at hs; cases hs; simp only [Weak.turn, upd1_same]; rw [(h.idle u ht).2, l1]
    · simp only [Weak.turn, upd1_other _ _ hu]; exact h.results u s (hb u s hu hs)
  · by_cases hu : u = t
    · subst hu; rw [hbt] at hs; cases hs; simp only [Weak.turn, upd1_same]; exact l3 x (.inr hx)
    · simp only [Weak.turn, upd1_other _ _ hu]
      refine (hfit.keeps ?_ _).trans (h.mem u s (hb u s hu hs) x hx)
      exact ((ha u s (hb u s hu hs) x).2 hx).2
  · refine (hfit.keeps (hx t _ hbt) _).trans (h.free x fun u s hs => ?_)
    by_cases hu : u = t
    · subst hu; rw [ht] at hs; cases hs
    · exact hx u s (by simpa [Weak.turn, upd1, hu] using hs)
  · by_cases hu : u = t
    · subst hu; rw [hbt] at hs; cases hs
      exact ha v s' (hb v s' (Ne.symm huv) hs')
    · by_cases hv : v = t
      · subst hv; rw [hbt] at hs'; cases hs'
        exact fun x => (ha u s (hb u s hu hs) x).symm
      · exact h.apart u v s s' huv (hb u s hu hs) (hb v s' hv hs')

theorem WAhead.step (h : WAhead S A) (t : T) : WAhead (S.turn code (.turn (.step t))) A := by
  rcases ht : S.busy t with _ | s
  · have : S.turn code (.turn (.step t)) = S := by simp only [Weak.turn, ht]
    rw [this]; exact h
  have hfit := h.fits t s ht
  obtain ⟨-, -, -, -, k2⟩ := step_local hfit (o := S.own t) (m := S.cache t) (m' := S.cache t) fun _ _ => rfl
  have hS : S.turn code (.turn (.step t)) = { S with
      cache := upd1 S.cache t (s.prog.step ((S.own t).view (S.cache t))).2.mem
      own := upd1 S.own t (s.prog.step ((S.own t).view (S.cache t))).2.own
      busy := upd1 S.busy t (some { s with prog := (s.prog.step ((S.own t).view (S.cache t))).1 }) } := by simp only [Weak.turn, ht]
  have hex := exec_step s.prog ((S.own t).view (S.cache t))
  generalize s.prog.step ((S.own t).view (S.cache t)) = n at *
  obtain ⟨q, w⟩ := n
  rw [hS]
  have hb : ∀ u s', u ≠ t → upd1 S.busy t (some { s with prog := q }) u = some s' → S.busy u = some s' := fun u s' hu hs => by
    rwa [upd1_other _ _ hu] at hs
  refine ⟨fun u hu => ?_, fun u s' hs => ?_, fun u s' hs => ?_, fun u s' hs => ?_, fun u s' hs x hx => ?_, fun x hx => ?_, fun u v s₁ s₂ huv hs hs' => ?_⟩
  · have hne : u ≠ t := by rintro rfl; simp at hu
    simp only [upd1_other _ _ hne] at hu ⊢
    exact h.idle u hu
  · by_cases hu : u = t
    · subst hu; simp only [upd1_same, Option.some.injEq] at hs; subst hs; exact k2
    · exact h.fits u s' (hb u s' hu hs)
  · by_cases hu : u = t
    · subst hu; simp only [upd1_same, Option.some.injEq] at hs; subst hs
      simp only [upd1_same, view_own]
      rw [hex]; exact h.own u s ht
    · simp only [upd1_other _ _ hu]; exact h.own u s' (hb u s' hu hs)
  · by_cases hu : u = t
    · subst hu; simp only [upd1_same, Option.some.injEq] at hs; subst hs
      simp only [upd1_same, view_own]
      rw [hex]; exact h.results u s ht
    · simp only [upd1_other _ _ hu]; exact h.results u s' (hb u s' hu hs)
  · by_cases hu : u = t
    · subst hu; simp only [upd1_same, Option.some.injEq] at hs; subst hs
      simp only [upd1_same, view_own]
      rw [hex]; exact h.mem u s ht x hx
    · simp only [upd1_other _ _ hu]; exact h.mem u s' (hb u s' hu hs) x hx
  · refine h.free x fun u s' hs => ?_
    by_cases hu : u = t
    · subst hu; rw [ht] at hs; cases hs; exact hx u { s with prog := q } (by simp)
    · exact hx u s' (by simpa [upd1, hu] using hs)
  · have get : ∀ u s', upd1 S.busy t (some { s with prog := q }) u = some s' → ∃ s₀, S.busy u = some s₀ ∧ s₀.R = s'.R ∧ s₀.W = s'.W := fun u s' hs => by
      by_cases hu : u = t
      · subst hu; simp only [upd1_same, Option.some.injEq] at hs; subst hs; exact ⟨s, ht, rfl, rfl⟩
      · exact ⟨s', hb u s' hu hs, rfl, rfl⟩
    obtain ⟨a, ha, ha1, ha2⟩ := get u s₁ hs
    obtain ⟨b, hb', hb1, hb2⟩ := get v s₂ hs'
    rw [← ha1, ← ha2, ← hb1, ← hb2]
    exact h.apart u v a b huv ha hb'

theorem WAhead.leave (h : WAhead S A) {t : T} (hp : ∀ s, S.busy t = some s → ∀ x, s.W x → S.mem x = S.cache t x) :
    WAhead (S.turn code (.turn (.leave t))) A := by
  by_cases hd : ∃ r R W, S.busy t = some ⟨.done r, R, W⟩
  · obtain ⟨r, R, W, ht⟩ := hd
    have hS : S.turn code (.turn (.leave t)) = { S with busy := upd1 S.busy t none, results := upd1 S.results t (S.results t ++ [r]) } := by
      simp only [Weak.turn, ht]
    rw [hS]
    have hb : ∀ {u s}, upd1 S.busy t none u = some s → u ≠ t ∧ S.busy u = some s := fun {u s} hs => by
      by_cases hu : u = t
      · subst hu; simp at hs
      · exact ⟨hu, by rwa [upd1_other _ _ hu] at hs⟩
    refine ⟨fun u hu => ?_, fun u s hs => h.fits u s (hb hs).2, fun u s hs => h.own u s (hb hs).2, fun u s hs => ?_,
      fun u s hs => h.mem u s (hb hs).2, fun x hx => ?_, fun u v s s' huv hs hs' => h.apart u v s s' huv (hb hs).2 (hb hs').2⟩
    · by_cases hut : u = t
      · subst hut
        simp only [upd1_same]
        exact ⟨h.own u _ ht, h.results u _ ht⟩
      · simp only [upd1_other _ _ hut] at hu ⊢
        exact h.idle u hu
    · simp only [upd1_other _ _ (hb hs).1]
      exact h.results u s (hb hs).2
    · by_cases hW : W x
      · exact (h.mem t _ ht x hW).trans (hp _ ht x hW).symm
      · refine h.free x fun u s hs => ?_
        by_cases hu : u = t
        · subst hu; rw [ht] at hs; cases hs; exact hW
        · exact hx u s (by simpa [upd1, hu] using hs)
  · have : S.turn code (.turn (.leave t)) = S := by
      simp only [Weak.turn]
      split
      · next r R W ht => exact absurd ⟨r, R, W, ht⟩ hd
      · rfl
    rw [this]; exact h

theorem WAhead.talk (h : WAhead S A) {t u : T} {f : G → G → G} (hp : Permitted Within S.toSharing (.talk t u f)) :
    WAhead (S.turn code (.turn (.talk t u f))) (A.turn whole (.talk t u f)) := by
  obtain ⟨ht, hu⟩ := hp
  have hA : A.turn whole (.talk t u f) = { A with own := upd1 A.own t ((A.own t).hear f (A.own u).user) } := rfl
  rw [hA, (h.idle t ht).1, (h.idle u hu).1]
  have hne : ∀ v s, S.busy v = some s → v ≠ t := by rintro v s hs rfl; rw [ht] at hs; cases hs
  refine ⟨fun v hv => ?_, h.fits, fun v s hs => ?_, fun v s hs => ?_, fun v s hs => ?_, h.free, h.apart⟩
  · refine ⟨?_, (h.idle v hv).2⟩
    by_cases hvt : v = t
    · subst hvt; simp [Weak.turn]
    · simp only [Weak.turn, upd1_other _ _ hvt]
      exact (h.idle v hv).1
  · simp only [Weak.turn, upd1_other _ _ (hne v s hs)]
    exact h.own v s hs
  · simp only [Weak.turn, upd1_other _ _ (hne v s hs)]
    exact h.results v s hs
  · simp only [Weak.turn, upd1_other _ _ (hne v s hs)]
    exact h.mem v s hs

theorem WAhead.publish (h : WAhead S A) {t : T} {x : Nat} (hp : ∃ s, S.busy t = some s ∧ s.W x) : WAhead (S.turn code (.publish t x)) A := by
  obtain ⟨s, hs, hW⟩ := hp
  refine ⟨h.idle, h.fits, h.own, h.results, h.mem, fun z hz => ?_, h.apart⟩
  have hne : z ≠ x := by rintro rfl; exact hz t s hs hW
  simp only [Weak.turn, upd1_other _ _ hne]
  exact h.free z hz

theorem WAhead.stale (h : WAhead S A) {t : T} {x : Nat} {c : Option (Storage V)} (hp : ∀ s, S.busy t = some s → ¬s.R x ∧ ¬s.W x) :
    WAhead (S.turn code (.stale t x c)) A := by
  have key : ∀ u s, S.busy u = some s → ∀ z, s.R z ∨ s.W z → upd1 S.cache t (upd1 (S.cache t) x c) u z = S.cache u z := fun u s hs z hz => by
    by_cases hu : u = t
    · subst hu
      rw [upd1_same, upd1_other]
      rintro rfl
      exact hz.elim (hp s hs).1 (hp s hs).2
    · rw [upd1_other _ _ hu]
  refine ⟨h.idle, h.fits, fun u s hs => ?_, fun u s hs => ?_, fun u s hs z hz => ?_, h.free, h.apart⟩
  · exact (h.own u s hs).trans (exec_local (h.fits u s hs) (key u s hs)).2.1.symm
  · refine (h.results u s hs).trans ?_
    have e := (exec_local (h.fits u s hs) (o := S.own u) (key u s hs)).1
    show _ = S.results u ++ [(s.prog.exec ((S.own u).view (upd1 S.cache t (upd1 (S.cache t) x c) u))).1]
    rw [e]
  · exact (h.mem u s hs z hz).trans ((exec_local (h.fits u s hs) (key u s hs)).2.2 z (.inr hz)).symm

theorem WAhead.turns (h : WAhead S A) (hc : ∀ p, toM (code p) = whole p) (hf : ∀ {R W p}, Within R W p → Fits R W (code p))
    (es : List (WTurn T V G P)) (hd : WDisciplined Within code S es) : WAhead (S.turns code es) (A.turns whole (visible es)) := by
  induction es generalizing S A with
  | nil => exact h
  | cons e es ih =>
    obtain ⟨hp, hd⟩ := hd
    match e, hp, hd with
    | .turn (.enter t p R W), hp, hd => exact ih (h.enter hc hf hp) hd
    | .turn (.step t), _, hd => exact ih (h.step t) hd
    | .turn (.leave t), hp, hd => exact ih (h.leave hp) hd
    | .turn (.talk t u f), hp, hd => exact ih (h.talk (Within := Within) hp) hd
    | .publish t x, hp, hd => exact ih (h.publish hp) hd
    | .stale t x c, hp, hd => exact ih (h.stale hp) hd

omit [DecidableEq T] in
theorem WAhead.no_race (h : WAhead S A) : ¬RaceIn S.toSharing := by
  rintro ⟨t, u, s, s', x, htu, hs, hs', hw, hr⟩
  have hW : s.W x := by
    have hf := h.fits t s hs
    revert hf hw
    rcases s with ⟨q, R, W⟩
    cases q <;> simp [Steps.M.writes, Fits]
    rintro rfl a _; exact a
  have ha := (h.apart t u s s' htu hs hs' x).1 hW
  have hf := h.fits u s' hs'
  revert hf hr ha
  rcases s' with ⟨q, R, W⟩
  cases q <;> simp [Steps.M.writes, Steps.M.reads, Fits]
  · rintro rfl a b (c | c) <;> simp_all
  · rintro rfl a b c; simp_all

/-- The threads cannot tell the weak memory from a memory that all of them see. -/
structure Same (S : Weak T V G α) (Q : Sharing T V G α) : Prop where
  own : Q.own = S.own
  busy : Q.busy = S.busy
  results : Q.results = S.results
  cache : ∀ t s, S.busy t = some s → ∀ x, s.R x ∨ s.W x → S.cache t x = Q.mem x
  free : ∀ x, (∀ t s, S.busy t = some s → ¬s.W x) → S.mem x = Q.mem x

variable {Q : Sharing T V G α}

theorem Same.enter (h : Same S Q) {t : T} {p : P} {R W : Nat → Prop} (hp : Permitted Within S.toSharing (.enter t p R W)) :
    Same (S.turn code (.turn (.enter t p R W))) (Q.turn code (.enter t p R W)) := by
  obtain ⟨ht, hw, ha⟩ := hp
  refine ⟨h.own, by simp only [Weak.turn, Sharing.turn, h.busy], h.results, fun u s hs x hx => ?_, fun x hx => ?_⟩
  · by_cases hu : u = t
    · subst hu
      simp only [Weak.turn, upd1_same, Option.some.injEq] at hs
      subst hs
      simp only [Weak.turn, Sharing.turn, upd1_same]
      refine h.free x fun v s' hs' hW => ?_
      rcases hx with hx | hx
      · exact ((ha v s' hs' x).2 hW).1 hx
      · exact ((ha v s' hs' x).2 hW).2 hx
    · simp only [Weak.turn, upd1_other _ _ hu] at hs
      simp only [Weak.turn, Sharing.turn, upd1_other _ _ hu]
      exact h.cache u s hs x hx
  · refine h.free x fun u s hs => ?_
    by_cases hu : u = t
    · subst hu; rw [ht] at hs; cases hs
    · exact hx u s (by simpa [Weak.turn, upd1, hu] using hs)

theorem Same.step (h : Same S Q) (hA : WAhead S A) (t : T) : Same (S.turn code (.turn (.step t))) (Q.turn code (.step t)) := by
  rcases ht : S.busy t with _ | s
  · have e1 : S.turn code (.turn (.step t)) = S := by simp only [Weak.turn, ht]
    have e2 : Q.turn code (.step t) = Q := by simp only [Sharing.turn, h.busy, ht]
    rw [e1, e2]; exact h
  have hfit := hA.fits t s ht
  obtain ⟨k1, k2, k3, -, -⟩ := step_local hfit (o := S.own t) (m := S.cache t) (m' := Q.mem) (h.cache t s ht)
  obtain ⟨-, -, -, k4, -⟩ := step_local hfit (o := S.own t) (m := Q.mem) (m' := Q.mem) fun _ _ => rfl
  have hS : S.turn code (.turn (.step t)) = { S with
      cache := upd1 S.cache t (s.prog.step ((S.own t).view (S.cache t))).2.mem
      own := upd1 S.own t (s.prog.step ((S.own t).view (S.cache t))).2.own
      busy := upd1 S.busy t (some { s with prog := (s.prog.step ((S.own t).view (S.cache t))).1 }) } := by simp only [Weak.turn, ht]
  have hQ : Q.turn code (.step t) = { Q with
      mem := (s.prog.step ((S.own t).view Q.mem)).2.mem
      own := upd1 S.own t (s.prog.step ((S.own t).view Q.mem)).2.own
      busy := upd1 S.busy t (some { s with prog := (s.prog.step ((S.own t).view Q.mem)).1 }) } := by
    simp only [Sharing.turn, h.busy, h.own, ht]
  rw [hS, hQ]
  refine ⟨by simp only [k2], by simp only [k1], h.results, fun u s' hs x hx => ?_, fun x hx => ?_⟩
  · by_cases hu : u = t
    · subst hu; simp only [upd1_same, Option.some.injEq] at hs; subst hs
      simp only [upd1_same]
      exact k3 x hx
    · simp only [upd1_other _ _ hu] at hs ⊢
      refine (h.cache u s' hs x hx).trans (k4 x fun hW => ?_).symm
      rcases hx with hx | hx
      · exact ((hA.apart t u s s' (Ne.symm hu) ht hs x).1 hW).1 hx
      · exact ((hA.apart t u s s' (Ne.symm hu) ht hs x).1 hW).2 hx
  · have hxt : ¬s.W x := hx t { s with prog := (s.prog.step ((S.own t).view (S.cache t))).1 } (upd1_same _ _ _)
    refine (h.free x fun u s' hs => ?_).trans (k4 x hxt).symm
    by_cases hu : u = t
    · subst hu; rw [ht] at hs; cases hs; exact hxt
    · exact hx u s' (by simpa [upd1, hu] using hs)

theorem Same.leave (h : Same S Q) {t : T} (hp : ∀ s, S.busy t = some s → ∀ x, s.W x → S.mem x = S.cache t x) :
    Same (S.turn code (.turn (.leave t))) (Q.turn code (.leave t)) := by
  by_cases hd : ∃ r R W, S.busy t = some ⟨.done r, R, W⟩
  · obtain ⟨r, R, W, ht⟩ := hd
    have hS : S.turn code (.turn (.leave t)) = { S with busy := upd1 S.busy t none, results := upd1 S.results t (S.results t ++ [r]) } := by
      simp only [Weak.turn, ht]
    have hQ : Q.turn code (.leave t) = { Q with busy := upd1 S.busy t none, results := upd1 S.results t (S.results t ++ [r]) } := by
      simp only [Sharing.turn, h.busy, h.results, ht]
    rw [hS, hQ]
    have hb : ∀ {u s}, upd1 S.busy t none u = some s → S.busy u = some s := fun {u s} hs => by
      by_cases hu : u = t
      · subst hu; simp at hs
      · rwa [upd1_other _ _ hu] at hs
    refine ⟨h.own, rfl, rfl, fun u s hs => h.cache u s (hb hs), fun x hx => ?_⟩
    by_cases hW : W x
    · exact (hp _ ht x hW).trans (h.cache t _ ht x (.inr hW))
    · refine h.free x fun u s hs => ?_
      by_cases hu : u = t
      · subst hu; rw [ht] at hs; cases hs; exact hW
      · exact hx u s (by simpa [upd1, hu] using hs)
  · have e1 : S.turn code (.turn (.leave t)) = S := by
      simp only [Weak.turn]
      split
      · next r R W ht => exact absurd ⟨r, R, W, ht⟩ hd
      · rfl
    have e2 : Q.turn code (.leave t) = Q := by
      simp only [Sharing.turn, h.busy]
      split
      · next r R W ht => exact absurd ⟨r, R, W, ht⟩ hd
      · rfl
    rw [e1, e2]; exact h

theorem Same.talk (h : Same S Q) (t u : T) (f : G → G → G) : Same (S.turn code (.turn (.talk t u f))) (Q.turn code (.talk t u f)) :=
  ⟨by simp only [Weak.turn, Sharing.turn, h.own], h.busy, h.results, h.cache, h.free⟩

theorem Same.publish (h : Same S Q) {t : T} {x : Nat} (hp : ∃ s, S.busy t = some s ∧ s.W x) : Same (S.turn code (.publish t x)) Q := by
  obtain ⟨s, hs, hW⟩ := hp
  refine ⟨h.own, h.busy, h.results, h.cache, fun z hz => ?_⟩
  have hne : z ≠ x := by rintro rfl; exact hz t s hs hW
  simp only [Weak.turn, upd1_other _ _ hne]
  exact h.free z hz

theorem Same.stale (h : Same S Q) {t : T} {x : Nat} {c : Option (Storage V)} (hp : ∀ s, S.busy t = some s → ¬s.R x ∧ ¬s.W x) :
    Same (S.turn code (.stale t x c)) Q := by
  refine ⟨h.own, h.busy, h.results, fun u s hs z hz => ?_, h.free⟩
  by_cases hu : u = t
  · subst hu
    have hne : z ≠ x := by rintro rfl; exact hz.elim (hp s hs).1 (hp s hs).2
    simp only [Weak.turn, upd1_same, upd1_other _ _ hne]
    exact h.cache u s hs z hz
  · simp only [Weak.turn, upd1_other _ _ hu]
    exact h.cache u s hs z hz

theorem Same.turns (h : Same S Q) (hA : WAhead S A) (hc : ∀ p, toM (code p) = whole p) (hf : ∀ {R W p}, Within R W p → Fits R W (code p))
    (es : List (WTurn T V G P)) (hd : WDisciplined Within code S es) :
    Same (S.turns code es) (Q.turns code (visible es)) ∧ Spec.Disciplined Within code Q (visible es) := by
  induction es generalizing S A Q with
  | nil => exact ⟨h, trivial⟩
  | cons e es ih =>
    obtain ⟨hp, hd⟩ := hd
    match e, hp, hd with
    | .turn (.enter t p R W), hp, hd =>
      obtain ⟨a, b⟩ := ih (h.enter hp) (hA.enter hc hf hp) hd
      refine ⟨a, ?_, b⟩
      show Q.busy t = none ∧ _ ∧ ∀ u s, Q.busy u = some s → _
      rw [h.busy]
      exact hp
    | .turn (.step t), _, hd =>
      obtain ⟨a, b⟩ := ih (h.step hA t) (hA.step t) hd
      exact ⟨a, trivial, b⟩
    | .turn (.leave t), hp, hd =>
      obtain ⟨a, b⟩ := ih (h.leave hp) (hA.leave hp) hd
      exact ⟨a, trivial, b⟩
    | .turn (.talk t u f), hp, hd =>
      obtain ⟨a, b⟩ := ih (h.talk t u f) (hA.talk (Within := Within) (whole := whole) hp) hd
      refine ⟨a, ?_, b⟩
      show Q.busy t = none ∧ Q.busy u = none
      rw [h.busy]
      exact hp
    | .publish t x, hp, hd => exact ih (h.publish hp) (hA.publish hp) hd
    | .stale t x c, hp, hd => exact ih (h.stale hp) (hA.stale hp) hd

end
end Verif.Model
