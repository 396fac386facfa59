import Verif.Lemmas.Identity
import Verif.Examples

/-!
# C69: references to the contained value stay valid until `std::optional` ends its lifetime

`HoldsPayload x i w`: the contained value of `x` is the object `i`; it stays at its place in the storage of `x` as long as it exists.
-/

namespace Verif.Props
open Verif Verif.Model Verif.Examples
open Verif.Spec (SM SWorld SRes Ends Survives)

variable {V G : Type} {Γ : Env V G} {w : World V G}

/-- C69. Every legal call, completed or left by an exception, keeps the object contained in `x`, except for those that end its lifetime
in `std::optional`. Those do end it. -/
theorem C69_step (hΓ : EnvWF Γ) (hw : Reach Γ w) {sw : SWorld V G} (hs : Sees Γ w sw) {op : Op V G} (hop : OpOK Γ op)
    (hu : (Spec.specOp (fun x => (Γ x).ops) op sw).1 ≠ .undef)
    (ht : NoReserved Γ (Spec.specOp (fun x => (Γ x).ops) op sw).2.trace)
    (hst : StepOK op (Spec.specOp (fun x => (Γ x).ops) op sw).1) {x i : Nat} (hx : HoldsPayload x i w) :
    HoldsPayload x i (execOp Γ op w).2 ↔ ¬ Ends sw.vars (Spec.specOp (fun x => (Γ x).ops) op sw).1.threw x op :=
  ⟨fun h he => hw.ended hΓ hs hop hu ht hst hx he h, fun hn => hw.keeps hΓ hs hop hu ht hst hx hn⟩

/-- C69. Whatever is called, legal or not: an object is never found in another optional than before, and never comes back. -/
theorem C69_never_migrates (Γ : Env V G) (h : List (Op V G)) (w : World V G) {x i : Nat} (hi : i < w.nextObj)
    (hx : HoldsPayload x i (run Γ h w).2) : HoldsPayload x i w := by
  have hh : Home w (run Γ h w).2 := (home_closed Γ).run h (fun _ _ _ _ => trivial) (fun _ _ _ _ => trivial) w
  rcases hh.2 x i (pidS_iff.2 hx) with h | h
  · exact pidS_iff.1 h
  · omega

/-- C69. Whole histories: after any legal continuation, the object that was contained in `x` at first still is if and only if none of
the calls ended its lifetime in `std::optional`. In this case a reference to it reads the value which `std::optional` contains then.
Otherwise, it was destroyed exactly once and is nowhere. -/
theorem C69_history (hΓ : EnvWF Γ) (hw : Reach Γ w) {sw sw' : SWorld V G} (hs : Sees Γ w sw) {h : List (Op V G)} {rs}
    (hop : ∀ op ∈ h, OpOK Γ op) (hr : Spec.specRun (fun x => (Γ x).ops) h sw = some (rs, sw')) (ht : NoReserved Γ sw'.trace)
    (hst : ∀ p ∈ h.zip rs, StepOK p.1 p.2) {x i : Nat} (hx : HoldsPayload x i w) :
    (Survives (fun x => (Γ x).ops) x h sw →
      ∃ s v, (run Γ h w).2.mem x = some s ∧ s.payload = some ⟨i, v⟩ ∧ sw'.vars x = some (some v)) ∧
    (¬ Survives (fun x => (Γ x).ops) x h sw →
      (∀ z, ¬ HoldsPayload z i (run Γ h w).2) ∧ destroyed (run Γ h w).2.log i = 1) := by
  induction h generalizing w sw rs with
  | nil =>
    simp only [Spec.specRun, Option.some.injEq, Prod.mk.injEq] at hr
    obtain ⟨s, v, h1, h2, h3⟩ := hw.engaged hΓ hs hx
    exact ⟨fun _ => ⟨s, v, h1, h2, hr.2 ▸ h3⟩, fun hn => absurd trivial hn⟩
  | cons op rest ih =>
    obtain ⟨hu, rs', rfl, hr2⟩ := specRun_cons hr
    obtain ⟨l, hl⟩ := specRun_mono hr2
    have ht1 : NoReserved Γ (Spec.specOp (fun x => (Γ x).ops) op sw).2.trace := fun p hp => ht p (by rw [hl]; simp [hp])
    have hst1 := hst (op, _) (List.mem_cons_self ..)
    have hop1 := hop op (by simp)
    obtain ⟨w₁, h1, hw1, hs1⟩ := hw.step hΓ hs hop1 hu ht1 hst1
    have hstep := C69_step hΓ hw hs hop1 hu ht1 hst1 hx
    have hhome := execOp_home Γ op w
    rw [h1] at hstep hhome
    have hrun : (run Γ (op :: rest) w).2 = (run Γ rest w₁).2 := by
      simp only [run, h1]
      rcases hq : (Spec.specOp (fun x => (Γ x).ops) op sw).1 with a | e | _
      · rfl
      · rfl
      · exact absurd hq hu
    have hst' : ∀ p ∈ rest.zip rs', StepOK p.1 p.2 := fun p hp => hst p (by simp [hp])
    have hop' : ∀ o ∈ rest, OpOK Γ o := fun o ho => hop o (by simp [ho])
    rw [hrun]
    by_cases he : Ends sw.vars (Spec.specOp (fun x => (Γ x).ops) op sw).1.threw x op
    · refine ⟨fun hk => absurd he hk.1, fun _ => ?_⟩
      have hgone : ¬ HoldsPayload x i w₁ := fun h => hstep.1 h he
      have hi : i < w₁.nextObj := Nat.lt_of_lt_of_le (Nat.lt_of_not_le (hw.fresh_ids hx)) hhome.1
      have hno : ∀ z, ¬ HoldsPayload z i (run Γ rest w₁).2 := fun z hz => by
        have h2 := C69_never_migrates Γ rest w₁ hi hz
        have h3 := hw.stays h1 hx h2
        exact hgone (h3 ▸ h2)
      refine ⟨hno, ?_⟩
      have hd := (hw.call_destroys' hΓ h1 hw1 hx hgone).2
      have hw2 := (Reach.run hΓ hw1 hs1 hop' hr2 ht hst').1
      refine hw2.destroyed_once hΓ ?_ hno
      have hc := (hw.created_of_holds hx).1
      have hp1 := execOp_log_prefix Γ op w
      rw [h1] at hp1
      have hp2 := run_log_prefix Γ rest w₁
      have hc2 := created_mono (hp1.trans hp2) i
      have hl2 := hw2.life
      have hcs := counts_of_status i (run Γ rest w₁).2.log (hl2.ok i)
      generalize status (run Γ rest w₁).2.log i = s at hcs
      cases s <;> simp only [LS.counts, Prod.mk.injEq] at hcs <;> omega
    · have hx1 : HoldsPayload x i w₁ := hstep.2 he
      obtain ⟨k1, k2⟩ := ih hw1 hs1 hop' hr2 hst' hx1
      exact ⟨fun hk => k1 hk.2, fun hn => k2 fun hk => hn ⟨he, hk⟩⟩

/-! ### The claims at work -/

private theorem exSees : Sees exEnv exWorld ⟨exSpec.2.vars, [], []⟩ := ex_legal.sees exEnv_wf

private theorem ex20_object : HoldsPayload 20 1 exWorld := ⟨_, _, rfl, rfl⟩
private theorem ex22_object : HoldsPayload 22 4 exWorld := ⟨_, _, rfl, rfl⟩
private theorem ex24_object : HoldsPayload 24 7 exWorld := ⟨_, _, rfl, rfl⟩

private theorem exNoReserved {l : List (Nat × BitVec 8)} (h : l.all (fun p => decide (20 ≤ p.1) && decide (p.1 < 30) && decide (p.2 ≠ 42#8)) = true) :
    ∀ p ∈ l, (exEnv p.1).cfg.Storable p.2 := by
  intro p hp
  have := List.all_eq_true.1 h p hp
  simp only [Bool.and_eq_true, decide_eq_true_eq] at this
  exact ex_storable this.2 p.1 this.1

/-- Moving from an optional keeps its object, so does moving to it. -/
example : HoldsPayload 20 1 (execOp exEnv (.assignMove 22 20) exWorld).2 ∧ HoldsPayload 22 4 (execOp exEnv (.assignMove 22 20) exWorld).2 :=
  have h {x i} := @C69_step _ _ exEnv exWorld exEnv_wf ex_reach _ exSees (.assignMove 22 20) rfl (by decide) (exNoReserved (by decide)) trivial x i
  ⟨(h ex20_object).2 (by rintro ⟨h, _⟩; exact absurd h (by decide)), (h ex22_object).2 (by rintro ⟨_, h⟩; exact absurd h (by decide))⟩

/-- Swapping with an empty optional ends the lifetime, except if the value cannot be moved. -/
example : ¬ HoldsPayload 20 1 (execOp exEnv (.swap 20 21) exWorld).2 ∧ HoldsPayload 24 7 (execOp exEnv (.swap 24 21) exWorld).2 :=
  ⟨fun hk => (C69_step exEnv_wf ex_reach exSees (op := .swap 20 21) rfl (by decide) (exNoReserved (by decide)) trivial ex20_object).1 hk
      ⟨by decide, .inl ⟨rfl, by decide⟩⟩,
    (C69_step exEnv_wf ex_reach exSees (op := .swap 24 21) rfl (by decide) (exNoReserved (by decide)) trivial ex24_object).2
      (by rintro ⟨h, _⟩; exact absurd h (by decide))⟩

private def exLater : List (Op (BitVec 8) (List String)) :=
  [.modify 20 fun v g => (none, v + 1, g), .swap 20 24, .assignCopy 20 22, .assignMove 24 20, .valueOr true 20 fun g => (.ok 0#8, g)]

/-- A reference to the value of 20 survives a change through it, a swap with another value, a failing copy assignment and two moves from
the optional, and then reads 0, as the value was moved out. -/
example : ∃ s, (run exEnv exLater exWorld).2.mem 20 = some s ∧ s.payload = some ⟨1, 0#8⟩ := by
  have hr : Spec.specRun (fun x => (exEnv x).ops) exLater ⟨exSpec.2.vars, [], []⟩ = some (_, _) := rfl
  obtain ⟨s, v, h1, h2, h3⟩ := (C69_history exEnv_wf ex_reach exSees (h := exLater) (x := 20) (i := 1)
    (by intro op hp; simp only [exLater, List.mem_cons, List.not_mem_nil, or_false] at hp
        rcases hp with rfl | rfl | rfl | rfl | rfl <;> first | exact trivial | exact rfl) hr (exNoReserved (by decide))
    (by rintro ⟨op, r⟩ hp; have := (List.of_mem_zip hp).1; simp only [exLater, List.mem_cons, List.not_mem_nil, or_false] at this
        rcases this with rfl | rfl | rfl | rfl | rfl <;> trivial)
    ex20_object).1 (by
      refine ⟨id, ?_, ?_, ?_, id, trivial⟩
      · rintro ⟨-, ⟨-, h⟩ | ⟨h, -⟩⟩ <;> exact absurd h (by decide)
      · rintro ⟨-, h⟩; exact absurd h (by decide)
      · rintro ⟨h, -⟩; exact absurd h (by decide))
  have h4 : some (some v) = some (some 0#8) := h3.symm.trans (by decide)
  simp only [Option.some.injEq] at h4
  exact ⟨s, h1, h4 ▸ h2⟩

/-- Without the hypotheses: also a call with undefined behaviour does not make an object appear elsewhere. -/
example : ¬ HoldsPayload 21 1 (run exEnv [.deref 21, .swap 20 21] exWorld).2 := fun h =>
  absurd (C69_never_migrates exEnv [.deref 21, .swap 20 21] exWorld (i := 1) (by decide) h) (by
    rintro ⟨s, v, h1, h2⟩; cases h1; cases h2)

end Verif.Props
