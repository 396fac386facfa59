import Verif.Spec.Handover
import Verif.Lemmas.Threads
import Verif.Lemmas.History

/-! # Lemmas about optionals that are handed over -/

namespace Verif.Model
open Verif.Spec (Permitted Disciplined AllIdle RaceIn Apart Atomic SSharing LegalTurns)

section
variable {V G α : Type} {R W : Nat → Prop}

/-- A program depends on its footprint only. -/
theorem exec_local {p : Steps.M V G α} (hp : Fits R W p) {o : Own G} {m m' : Nat → Option (Storage V)}
    (h : ∀ x, R x ∨ W x → m x = m' x) :
    (p.exec (o.view m)).1 = (p.exec (o.view m')).1 ∧ (p.exec (o.view m)).2.own = (p.exec (o.view m')).2.own ∧
    ∀ x, R x ∨ W x → (p.exec (o.view m)).2.mem x = (p.exec (o.view m')).2.mem x := by
  induction p generalizing o m m' with
  | done r => exact ⟨rfl, rfl, h⟩
  | read x k ih =>
    have e : m x = m' x := h x hp.1
    show ((k (m x)).exec (o.view m)).1 = ((k (m' x)).exec (o.view m')).1 ∧ ((k (m x)).exec (o.view m)).2.own = ((k (m' x)).exec (o.view m')).2.own ∧
      ∀ z, R z ∨ W z → ((k (m x)).exec (o.view m)).2.mem z = ((k (m' x)).exec (o.view m')).2.mem z
    rw [← e]
    exact ih _ (hp.2 _) h
  | write x c k ih =>
    exact ih hp.2 (o := o) (m := fun z => if z = x then c else m z) (m' := fun z => if z = x then c else m' z) fun z hz => by
      show (if z = x then c else m z) = if z = x then c else m' z
      rw [h z hz]
  | fresh k ih => exact ih _ (hp _) (o := ⟨o.nextObj + 1, o.log, o.user⟩) h
  | event e k ih => exact ih hp (o := ⟨o.nextObj, o.log ++ [e], o.user⟩) h
  | user f k ih => exact ih _ (hp _) (o := ⟨o.nextObj, o.log, f o.user⟩) h

end

section
variable {T V G α : Type} [DecidableEq T] {P : Type u}

@[simp] theorem upd1_same {β : Type} (f : T → β) (t : T) (b : β) : upd1 f t b t = b := by simp [upd1]
theorem upd1_other {β : Type} (f : T → β) {t u : T} (b : β) (h : u ≠ t) : upd1 f t b u = f u := by simp [upd1, h]

/-- How the state of the machine and that of the atomic machine are related: the atomic machine is where the sections would lead if
each of them ran to its end now. -/
structure Ahead (S : Sharing T V G α) (A : Atomic T V G α) : Prop where
  idle : ∀ t, S.busy t = none → A.own t = S.own t ∧ A.results t = S.results t
  fits : ∀ t s, S.busy t = some s → Fits s.R s.W s.prog
  own : ∀ t s, S.busy t = some s → A.own t = (s.prog.exec ((S.own t).view S.mem)).2.own
  results : ∀ t s, S.busy t = some s → A.results t = S.results t ++ [(s.prog.exec ((S.own t).view S.mem)).1]
  mem : ∀ t s, S.busy t = some s → ∀ x, s.W x → A.mem x = (s.prog.exec ((S.own t).view S.mem)).2.mem x
  free : ∀ x, (∀ t s, S.busy t = some s → ¬s.W x) → A.mem x = S.mem x
  apart : ∀ t u s s', t ≠ u → S.busy t = some s → S.busy u = some s' → Apart s.R s.W s'.R s'.W

omit [DecidableEq T] in
theorem Ahead.start {S : Sharing T V G α} (h : AllIdle S) : Ahead S ⟨S.mem, S.own, S.results⟩ where
  idle _ _ := ⟨rfl, rfl⟩
  fits t s e := by rw [h t] at e; cases e
  own t s e := by rw [h t] at e; cases e
  results t s e := by rw [h t] at e; cases e
  mem t s e := by rw [h t] at e; cases e
  free _ _ := rfl
  apart t u s s' _ e := by rw [h t] at e; cases e

variable {S : Sharing T V G α} {A : Atomic T V G α} {Within : (Nat → Prop) → (Nat → Prop) → P → Prop} {code : P → Steps.M V G α}
  {whole : P → M V G α}

theorem Ahead.enter (h : Ahead S A) (hc : ∀ p, toM (code p) = whole p) (hf : ∀ {R W p}, Within R W p → Fits R W (code p)) {t : T} {p : P}
    {R W : Nat → Prop} (hp : Permitted Within S (.enter t p R W)) : Ahead (S.turn code (.enter t p R W)) (A.turn whole (.enter t p R W)) := by
  obtain ⟨ht, hw, ha⟩ := hp
  have hfit := hf hw
  -- the atomic machine runs the program on the same footprint
  have hm : ∀ x, R x ∨ W x → A.mem x = S.mem x := fun x hx => h.free x fun u s hs hW => by
    rcases hx with hx | hx
    · exact ((ha u s hs x).2 hW).1 hx
    · exact ((ha u s hs x).2 hW).2 hx
  have ho := (h.idle t ht).1
  obtain ⟨l1, l2, l3⟩ := exec_local hfit (o := S.own t) hm
  have hrun : whole p ((A.own t).view A.mem) = (code p).exec ((S.own t).view A.mem) := by rw [← hc, ho]; rfl
  have hA : A.turn whole (.enter t p R W) = ⟨(whole p ((A.own t).view A.mem)).2.mem, upd1 A.own t (whole p ((A.own t).view A.mem)).2.own,
      upd1 A.results t (A.results t ++ [(whole p ((A.own t).view A.mem)).1])⟩ := rfl
  rw [hrun] at hA
  rw [hA]
  have hb : ∀ u s, u ≠ t → (S.turn code (.enter t p R W)).busy u = some s → S.busy u = some s := fun u s hu hs => by
    simpa [Sharing.turn, upd1, hu] using hs
  have hbt : (S.turn code (.enter t p R W)).busy t = some ⟨code p, R, W⟩ := by simp [Sharing.turn]
  refine ⟨fun u hu => ?_, fun u s hs => ?_, fun u s hs => ?_, fun u s hs => ?_, fun u s hs x hx => ?_, fun x hx => ?_, fun u v s s' huv hs hs' => ?_⟩
  · have hne : u ≠ t := by rintro rfl; rw [hbt] at hu; cases hu
    have hu' : S.busy u = none := by simpa [Sharing.turn, upd1, hne] using hu
    simp only [upd1_other _ _ hne]
    exact h.idle u hu'
  · by_cases hu : u = t
    · subst hu; rw [hbt] at hs; cases hs; exact hfit
    · exact h.fits u s (hb u s hu hs)
  · by_cases hu : u = t
    · subst hu; rw [hbt] at hs; cases hs; simp only [upd1_same]; exact l2
    · simp only [upd1_other _ _ hu]; exact h.own u s (hb u s hu hs)
  · by_cases hu : u = t
    · subst hu; rw [hbt] at hs; cases hs; simp only [upd1_same]; rw [(h.idle u ht).2, l1]; rfl
    · simp only [upd1_other _ _ hu]; exact h.results u s (hb u s hu hs)
  · by_cases hu : u = t
    · subst hu; rw [hbt] at hs; cases hs; exact l3 x (.inr hx)
    · refine (hfit.keeps ?_ _).trans (h.mem u s (hb u s hu hs) x hx)
      exact ((ha u s (hb u s hu hs) x).2 hx).2
  · refine (hfit.keeps (hx t _ hbt) _).trans (h.free x fun u s hs => ?_)
    by_cases hu : u = t
    · subst hu; rw [ht] at hs; cases hs
    · exact hx u s (by simpa [Sharing.turn, upd1, hu] using hs)
  · by_cases hu : u = t
    · subst hu; rw [hbt] at hs; cases hs
      exact ha v s' (hb v s' (Ne.symm huv) hs')
    · by_cases hv : v = t
      · subst hv; rw [hbt] at hs'; cases hs'
        exact fun x => (ha u s (hb u s hu hs) x).symm
      · exact h.apart u v s s' huv (hb u s hu hs) (hb v s' hv hs')

theorem Ahead.step (h : Ahead S A) (t : T) : Ahead (S.turn code (.step t)) A := by
  rcases ht : S.busy t with _ | s
  · have : S.turn code (.step t) = S := by simp only [Sharing.turn, ht]
    rw [this]; exact h
  have hfit := h.fits t s ht
  obtain ⟨-, -, -, k1, k2⟩ := step_local hfit (o := S.own t) (m := S.mem) (m' := S.mem) fun _ _ => rfl
  have hS : S.turn code (.step t) = { S with
      mem := (s.prog.step ((S.own t).view S.mem)).2.mem
      own := upd1 S.own t (s.prog.step ((S.own t).view S.mem)).2.own
      busy := upd1 S.busy t (some { s with prog := (s.prog.step ((S.own t).view S.mem)).1 }) } := by simp only [Sharing.turn, ht]
  have hex := exec_step s.prog ((S.own t).view S.mem)
  generalize s.prog.step ((S.own t).view S.mem) = n at *
  obtain ⟨q, w⟩ := n
  rw [hS]
  have hb : ∀ u s', u ≠ t → upd1 S.busy t (some { s with prog := q }) u = some s' → S.busy u = some s' := fun u s' hu hs => by
    rwa [upd1_other _ _ hu] at hs
  -- the other sections do not notice
  have ho : ∀ u s', u ≠ t → S.busy u = some s' → ∀ x, s'.R x ∨ s'.W x → w.mem x = S.mem x := fun u s' hu hs x hx => by
    refine k1 x fun hW => ?_
    rcases hx with hx | hx
    · exact ((h.apart t u s s' (Ne.symm hu) ht hs x).1 hW).1 hx
    · exact ((h.apart t u s s' (Ne.symm hu) ht hs x).1 hW).2 hx
  refine ⟨fun u hu => ?_, fun u s' hs => ?_, fun u s' hs => ?_, fun u s' hs => ?_, fun u s' hs x hx => ?_, fun x hx => ?_, fun u v s₁ s₂ huv hs hs' => ?_⟩
  · have hne : u ≠ t := by rintro rfl; simp at hu
    simp only [upd1_other _ _ hne] at hu ⊢
    exact h.idle u hu
  · by_cases hu : u = t
    · subst hu; simp only [upd1_same, Option.some.injEq] at hs; subst hs; exact k2
    · exact h.fits u s' (hb u s' hu hs)
  · by_cases hu : u = t
    · subst hu; simp only [upd1_same, Option.some.injEq] at hs; subst hs
      simp only [upd1_same, view_own]
      rw [hex]; exact h.own u s ht
    · have hs := hb u s' hu hs
      simp only [upd1_other _ _ hu]
      rw [(exec_local (h.fits u s' hs) (ho u s' hu hs)).2.1]
      exact h.own u s' hs
  · by_cases hu : u = t
    · subst hu; simp only [upd1_same, Option.some.injEq] at hs; subst hs
      simp only [upd1_same, view_own]
      rw [hex]; exact h.results u s ht
    · have hs := hb u s' hu hs
      simp only [upd1_other _ _ hu]
      rw [(exec_local (h.fits u s' hs) (ho u s' hu hs)).1]
      exact h.results u s' hs
  · by_cases hu : u = t
    · subst hu; simp only [upd1_same, Option.some.injEq] at hs; subst hs
      simp only [upd1_same, view_own]
      rw [hex]; exact h.mem u s ht x hx
    · have hs := hb u s' hu hs
      simp only [upd1_other _ _ hu]
      rw [(exec_local (h.fits u s' hs) (ho u s' hu hs)).2.2 x (.inr hx)]
      exact h.mem u s' hs x hx
  · have hxt : ¬s.W x := hx t { s with prog := q } (by simp)
    refine (h.free x fun u s' hs => ?_).trans (k1 x hxt).symm
    by_cases hu : u = t
    · subst hu; rw [ht] at hs; cases hs; exact hxt
    · exact hx u s' (by simpa [upd1, hu] using hs)
  · have get : ∀ u s', upd1 S.busy t (some { s with prog := q }) u = some s' → ∃ s₀, S.busy u = some s₀ ∧ s₀.R = s'.R ∧ s₀.W = s'.W := fun u s' hs => by
      by_cases hu : u = t
      · subst hu; simp only [upd1_same, Option.some.injEq] at hs; subst hs; exact ⟨s, ht, rfl, rfl⟩
      · exact ⟨s', hb u s' hu hs, rfl, rfl⟩
    obtain ⟨a, ha, ha1, ha2⟩ := get u s₁ hs
    obtain ⟨b, hb', hb1, hb2⟩ := get v s₂ hs'
    rw [← ha1, ← ha2, ← hb1, ← hb2]
    exact h.apart u v a b huv ha hb'

theorem Ahead.leave (h : Ahead S A) (t : T) : Ahead (S.turn code (.leave t)) A := by
  by_cases hd : ∃ r R W, S.busy t = some ⟨.done r, R, W⟩
  · obtain ⟨r, R, W, ht⟩ := hd
    have hS : S.turn code (.leave t) = { S with busy := upd1 S.busy t none, results := upd1 S.results t (S.results t ++ [r]) } := by
      simp only [Sharing.turn, ht]
    rw [hS]
    have hb : ∀ {u s}, upd1 S.busy t none u = some s → u ≠ t ∧ S.busy u = some s := fun {u s} hs => by
      by_cases hu : u = t
      · subst hu; simp at hs
      · exact ⟨hu, by rwa [upd1_other _ _ hu] at hs⟩
    refine ⟨fun u hu => ?_, fun u s hs => h.fits u s (hb hs).2, fun u s hs => h.own u s (hb hs).2, fun u s hs => ?_,
      fun u s hs => h.mem u s (hb hs).2, fun x hx => ?_, fun u v s s' huv hs hs' => h.apart u v s s' huv (hb hs).2 (hb hs').2⟩
    · by_cases hut : u = t
      · subst hut
        simp only [upd1_same]
        exact ⟨h.own u _ ht, h.results u _ ht⟩
      · simp only [upd1_other _ _ hut] at hu ⊢
        exact h.idle u hu
    · simp only [upd1_other _ _ (hb hs).1]
      exact h.results u s (hb hs).2
    · by_cases hW : W x
      · exact h.mem t _ ht x hW
      · refine h.free x fun u s hs => ?_
        by_cases hu : u = t
        · subst hu; rw [ht] at hs; cases hs; exact hW
        · exact hx u s (by simpa [upd1, hu] using hs)
  · have : S.turn code (.leave t) = S := by
      simp only [Sharing.turn]
      split
      · next r R W ht => exact absurd ⟨r, R, W, ht⟩ hd
      · rfl
    rw [this]; exact h

theorem Ahead.talk (h : Ahead S A) {t u : T} {f : G → G → G} (hp : Permitted Within S (.talk t u f)) :
    Ahead (S.turn code (.talk t u f)) (A.turn whole (.talk t u f)) := by
  obtain ⟨ht, hu⟩ := hp
  have hA : A.turn whole (.talk t u f) = { A with own := upd1 A.own t ((A.own t).hear f (A.own u).user) } := rfl
  rw [hA, (h.idle t ht).1, (h.idle u hu).1]
  have hne : ∀ v s, S.busy v = some s → v ≠ t := by rintro v s hs rfl; rw [ht] at hs; cases hs
  refine ⟨fun v hv => ?_, h.fits, fun v s hs => ?_, fun v s hs => ?_, fun v s hs => ?_, h.free, h.apart⟩
  · refine ⟨?_, (h.idle v hv).2⟩
    by_cases hvt : v = t
    · subst hvt; simp [Sharing.turn]
    · simp only [Sharing.turn, upd1_other _ _ hvt]
      exact (h.idle v hv).1
  · simp only [Sharing.turn, upd1_other _ _ (hne v s hs)]
    exact h.own v s hs
  · simp only [Sharing.turn, upd1_other _ _ (hne v s hs)]
    exact h.results v s hs
  · simp only [Sharing.turn, upd1_other _ _ (hne v s hs)]
    exact h.mem v s hs

theorem Ahead.turn (h : Ahead S A) (hc : ∀ p, toM (code p) = whole p) (hf : ∀ {R W p}, Within R W p → Fits R W (code p)) {e : Turn T G P}
    (hp : Permitted Within S e) : Ahead (S.turn code e) (A.turn whole e) := by
  cases e with
  | enter t p R W => exact h.enter hc hf hp
  | step t => exact h.step t
  | leave t => exact h.leave t
  | talk t u f => exact h.talk hp

theorem Ahead.turns (h : Ahead S A) (hc : ∀ p, toM (code p) = whole p) (hf : ∀ {R W p}, Within R W p → Fits R W (code p))
    (es : List (Turn T G P)) (hd : Disciplined Within code S es) : Ahead (S.turns code es) (A.turns whole es) := by
  induction es generalizing S A with
  | nil => exact h
  | cons e es ih => exact ih (h.turn hc hf hd.1) hd.2

/-- A section has an end: nothing in it waits. -/
theorem ends (code : P → Steps.M V G α) (t : T) (q : Steps.M V G α) : ∀ (S : Sharing T V G α) (R W : Nat → Prop), S.busy t = some ⟨q, R, W⟩ →
    ∃ n r, (S.turns code (List.replicate n (.step t))).busy t = some ⟨.done r, R, W⟩ := by
  have key : ∀ (S : Sharing T V G α) (R W : Nat → Prop) (q : Steps.M V G α), S.busy t = some ⟨q, R, W⟩ →
      (S.turn code (.step t)).busy t = some ⟨(q.step ((S.own t).view S.mem)).1, R, W⟩ := fun S R W q h => by
    simp only [Sharing.turn, h, upd1_same]
  have next : ∀ (S : Sharing T V G α) (R W : Nat → Prop), (∃ n r, ((S.turn code (.step t)).turns code (List.replicate n (.step t))).busy t = some ⟨.done r, R, W⟩) →
      ∃ n r, (S.turns code (List.replicate n (.step t))).busy t = some ⟨.done r, R, W⟩ := fun S R W ⟨n, r, h⟩ => ⟨n + 1, r, h⟩
  induction q with
  | done r => exact fun S R W h => ⟨0, r, h⟩
  | read x k ih => exact fun S R W h => next S R W (ih _ _ R W (key S R W _ h))
  | write x c k ih => exact fun S R W h => next S R W (ih _ R W (key S R W _ h))
  | fresh k ih => exact fun S R W h => next S R W (ih _ _ R W (key S R W _ h))
  | event e k ih => exact fun S R W h => next S R W (ih _ R W (key S R W _ h))
  | user f k ih => exact fun S R W h => next S R W (ih _ _ R W (key S R W _ h))

omit [DecidableEq T] in
theorem Ahead.no_race (h : Ahead S A) : ¬RaceIn S := by
  rintro ⟨t, u, s, s', x, htu, hs, hs', hw, hr⟩
  have hW : s.W x := by
    have hf := h.fits t s hs
    revert hf hw
    rcases s with ⟨q, R, W⟩
    cases q <;> simp [Steps.M.writes, Fits]
    rintro rfl a _; exact a
  have ha := (h.apart t u s s' htu hs hs' x).1 hW
  have hf := h.fits u s' hs'
  revert hf hr ha
  rcases s' with ⟨q, R, W⟩
  cases q <;> simp [Steps.M.writes, Steps.M.reads, Fits]
  · rintro rfl a b (c | c) <;> simp_all
  · rintro rfl a b c; simp_all

end

/-! ## With `std::optional` -/

section
variable {T V G : Type} [DecidableEq T] {Γ : Env V G}

/-- The atomic machine shows what `std::optional` has. -/
structure Mirrors (Γ : Env V G) (A : Atomic T V G (List (Res (Obs V)))) (s : SSharing T V G) : Prop where
  world : ∀ t, RW Γ none ((A.own t).view A.mem) ⟨s.vars, s.user t, []⟩
  results : ∀ t, A.results t = (s.results t).map fun rs => .ok (rs.map SResToRes)

theorem specRun_defined {ops : Nat → Ops V G} (h : List (Op V G)) : ∀ (sw : Spec.SWorld V G) rs sw', Spec.specRun ops h sw = some (rs, sw') →
    ∀ r ∈ rs, r ≠ .undef := by
  induction h with
  | nil =>
    intro sw rs sw' hr
    simp only [Spec.specRun, Option.some.injEq, Prod.mk.injEq] at hr
    simp [← hr.1]
  | cons op rest ih =>
    intro sw rs sw' hr
    simp only [Spec.specRun] at hr
    rcases hs : Spec.specOp ops op sw with ⟨a | e | _, sw₁⟩ <;> simp only [hs] at hr
    · rcases hr' : Spec.specRun ops rest sw₁ with _ | ⟨rs', sw₂⟩ <;> simp only [hr'] at hr
      · cases hr
      · simp only [Option.some.injEq, Prod.mk.injEq] at hr
        obtain ⟨rfl, rfl⟩ := hr
        have := ih sw₁ rs' _ hr'
        simp_all
    · rcases hr' : Spec.specRun ops rest sw₁ with _ | ⟨rs', sw₂⟩ <;> simp only [hr'] at hr
      · cases hr
      · simp only [Option.some.injEq, Prod.mk.injEq] at hr
        obtain ⟨rfl, rfl⟩ := hr
        have := ih sw₁ rs' _ hr'
        simp_all
    · cases hr

theorem Mirrors.turns (hΓ : EnvWF Γ) {s s' : SSharing T V G} {es : List (Turn T G (List (Op V G)))} (hL : LegalTurns Γ s es s') :
    ∀ {A : Atomic T V G (List (Res (Obs V)))}, Mirrors Γ A s → Mirrors Γ (A.turns (fun h => execProg Γ (ofHistory h [])) es) s' := by
  induction hL with
  | nil => exact id
  | step t rest ih => exact ih
  | leave t rest ih => exact ih
  | talk t u f rest ih =>
    intro A hA
    refine ih ⟨fun v => ?_, hA.results⟩
    have hv := hA.world v
    have eu : (A.own u).user = _ := (hA.world u).user
    have et : (A.own t).user = _ := (hA.world t).user
    by_cases hvt : v = t
    · subst hvt
      simp only [Atomic.turn, if_pos]
      exact ⟨hv.rel, by show f (A.own v).user (A.own u).user = _; rw [eu, et], hv.noLeak⟩
    · simp only [Atomic.turn, if_neg hvt]
      exact hv
  | @enter s s' es h rs sw t R W ok run free steps rest ih =>
    intro A hA
    obtain ⟨h1, h2⟩ := run_sim hΓ ok (hA.world t) run free steps
    have hn : ∀ r ∈ (Model.run Γ h ((A.own t).view A.mem)).1, ∀ a, r ≠ .abort a := by
      rw [h1]
      intro r hr a
      obtain ⟨q, hq, rfl⟩ := List.mem_map.mp hr
      have := specRun_defined h _ _ _ run q hq
      cases q with
      | ok b => exact nofun
      | throw e => exact nofun
      | undef => exact absurd rfl this
    have hrun := ofHistory_run (Γ := Γ) h [] _ hn
    have hT : A.turn (fun h => execProg Γ (ofHistory h [])) (.enter t h R W) =
        ⟨(Model.run Γ h ((A.own t).view A.mem)).2.mem,
          fun u => if u = t then (Model.run Γ h ((A.own t).view A.mem)).2.own else A.own u,
          fun u => if u = t then A.results t ++ [.ok (Model.run Γ h ((A.own t).view A.mem)).1] else A.results u⟩ := by
      have hrun' : execProg Γ (ofHistory h []) ⟨A.mem, (A.own t).nextObj, (A.own t).log, (A.own t).user⟩ = _ := hrun
      simp only [Atomic.turn, hrun']
      rfl
    show Mirrors Γ ((A.turn _ _).turns _ es) s'
    rw [hT]
    refine ih ⟨fun u => ?_, fun u => ?_⟩
    · by_cases hu : u = t
      · subst hu
        simp only [if_pos, view_own]
        exact ⟨h2.rel, h2.user, h2.noLeak⟩
      · simp only [if_neg hu]
        exact ⟨h2.rel, (hA.world u).user, (hA.world u).noLeak⟩
    · by_cases hu : u = t
      · subst hu
        simp only [if_pos, List.map_append, List.map_cons, List.map_nil, hA.results u, h1]
      · simp only [if_neg hu]
        exact hA.results u

end
end Verif.Model
