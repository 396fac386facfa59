import Verif.Lemmas.History
import Verif.Examples

/-! # C01, C02: behaviour over whole histories -/

namespace Verif.Props
open Verif Verif.Model Verif.Spec

variable {V G : Type} {Γ : Env V G}

/-- C01. Every legal history (type-checks, has a meaning for `std::optional`, stores no reserved value; `StepOK`: see C17) has, call by call,
the outcomes that `std::optional` prescribes; user code ends in the same state; every variable is dead, empty or holds
exactly the value that it would have with `std::optional`. -/
theorem C01_drop_in (hΓ : EnvWF Γ) {g : G} {h : List (Op V G)} {rs sw} (hL : Legal Γ g h rs sw) :
    (run Γ h (.init g)).1 = rs.map SResToRes ∧ Sees Γ (run Γ h (.init g)).2 sw := by
  obtain ⟨hop, hr, ht, hst⟩ := hL
  obtain ⟨h1, h2⟩ := run_sim hΓ hop (R_init g) hr ht hst
  exact ⟨h1, h2.sees hΓ⟩

/-- C01, separate flag: no value is reserved, so every history that type-checks and has a meaning for `std::optional`
behaves as prescribed. -/
theorem C01_drop_in_separate (hΓ : EnvWF Γ) (hsep : ∀ x, (Γ x).cfg.manip = .separate) {g : G} {h : List (Op V G)} {rs sw}
    (hop : ∀ op ∈ h, OpOK Γ op) (hr : specRun (fun x => (Γ x).ops) h (.init g) = some (rs, sw))
    (hst : ∀ p ∈ h.zip rs, StepOK p.1 p.2) :
    (run Γ h (.init g)).1 = rs.map SResToRes ∧ Sees Γ (run Γ h (.init g)).2 sw :=
  C01_drop_in hΓ ⟨hop, hr, fun p _ => by simp [Config.Storable, hsep], hst⟩

/-- C02. No legal history aborts: no undefined behaviour, no failing assertion, no `std::terminate`. -/
theorem C02_no_abort (hΓ : EnvWF Γ) {g : G} {h : List (Op V G)} {rs sw} (hL : Legal Γ g h rs sw) :
    (run Γ h (.init g)).1.length = h.length ∧ ∀ r ∈ (run Γ h (.init g)).1, ∀ a, r ≠ .abort a := by
  have hdef : ∀ (h : List (Op V G)) (sw₀ : SWorld V G) rs sw,
      specRun (fun x => (Γ x).ops) h sw₀ = some (rs, sw) → rs.length = h.length ∧ ∀ r ∈ rs, r ≠ .undef := by
    intro h
    induction h with
    | nil => intro sw₀ rs sw hr; simp only [specRun, Option.some.injEq, Prod.mk.injEq] at hr; simp [← hr.1]
    | cons op rest ih =>
      intro sw₀ rs sw hr
      simp only [specRun] at hr
      rcases hs : specOp (fun x => (Γ x).ops) op sw₀ with ⟨a | e | _, sw₁⟩ <;> simp only [hs] at hr
      · rcases hr' : specRun (fun x => (Γ x).ops) rest sw₁ with _ | ⟨rs', sw₂⟩ <;> simp only [hr'] at hr
        · simp at hr
        · simp only [Option.some.injEq, Prod.mk.injEq] at hr
          obtain ⟨h1, h2⟩ := ih _ _ _ hr'
          rw [← hr.1]
          exact ⟨by simp [h1], by intro r hm; rcases List.mem_cons.1 hm with rfl | hm; simp; exact h2 r hm⟩
      · rcases hr' : specRun (fun x => (Γ x).ops) rest sw₁ with _ | ⟨rs', sw₂⟩ <;> simp only [hr'] at hr
        · simp at hr
        · simp only [Option.some.injEq, Prod.mk.injEq] at hr
          obtain ⟨h1, h2⟩ := ih _ _ _ hr'
          rw [← hr.1]
          exact ⟨by simp [h1], by intro r hm; rcases List.mem_cons.1 hm with rfl | hm; simp; exact h2 r hm⟩
      · simp at hr
  obtain ⟨h1, h2⟩ := hdef _ _ _ _ hL.2.1
  rw [(C01_drop_in hΓ hL).1]
  refine ⟨by simp [h1], ?_⟩
  intro r hr a
  obtain ⟨r', hr', rfl⟩ := List.mem_map.1 hr
  have := h2 r' hr'
  cases r' <;> simp_all [SResToRes]

/-- C01, one call at a time. In every reachable world `w`, which the caller sees as the `std::optional` state `sw`, every
further call that type-checks, has a meaning for `std::optional` and stores no reserved value behaves as prescribed and
leads to a reachable world again. -/
theorem C01_step (hΓ : EnvWF Γ) {w : World V G} {sw : SWorld V G} (hw : Reach Γ w) (hs : Sees Γ w sw) {op : Op V G}
    (hop : OpOK Γ op) (hu : (specOp (fun x => (Γ x).ops) op sw).1 ≠ .undef)
    (ht : NoReserved Γ (specOp (fun x => (Γ x).ops) op sw).2.trace)
    (hst : StepOK op (specOp (fun x => (Γ x).ops) op sw).1) :
    ∃ w', execOp Γ op w = (SResToRes (specOp (fun x => (Γ x).ops) op sw).1, w') ∧ Reach Γ w' ∧
      Sees Γ w' (specOp (fun x => (Γ x).ops) op sw).2 :=
  hw.step hΓ hs hop hu ht hst

/-- Every reachable world is seen by the caller as some `std::optional` state: each variable is dead, empty, or holds
exactly one value. -/
theorem C01_sees (hΓ : EnvWF Γ) {w : World V G} (hw : Reach Γ w) : ∃ sw : SWorld V G, Sees Γ w sw ∧ sw.trace = [] := by
  obtain ⟨sw, hR, _⟩ := hw.rel hΓ
  exact ⟨{ sw with trace := [] }, R.sees hΓ (sw := { sw with trace := [] }) hR, rfl⟩

/-- C02. Asserts do not matter for legal histories: with and without `NDEBUG` all calls have the same outcomes. -/
theorem C02_ndebug_irrelevant {Γ' : Env V G} (hΓ : EnvWF Γ) (hΓ' : EnvWF Γ')
    (hsame : ∀ x, (Γ' x).ops = (Γ x).ops ∧ ∃ b, (Γ' x).cfg = { (Γ x).cfg with ndebug := b }) {g : G} {h : List (Op V G)} {rs sw}
    (hL : Legal Γ g h rs sw) (hL' : ∀ op ∈ h, OpOK Γ' op) :
    (run Γ' h (.init g)).1 = (run Γ h (.init g)).1 ∧ (run Γ' h (.init g)).2.user = (run Γ h (.init g)).2.user := by
  have hL2 : Legal Γ' g h rs sw := by
    refine ⟨hL', ?_, ?_, ?_⟩
    · have : (fun x => (Γ' x).ops) = (fun x => (Γ x).ops) := funext fun x => (hsame x).1
      rw [this]; exact hL.2.1
    · intro p hp
      obtain ⟨b, hb⟩ := (hsame p.1).2
      have := hL.2.2.1 p hp
      unfold Config.Storable at this ⊢
      rw [hb]
      exact this
    · intro p hp
      have := hL.2.2.2 p hp
      unfold StepOK at this ⊢
      split at this <;> simp_all
  obtain ⟨a1, a2⟩ := C01_drop_in hΓ hL
  obtain ⟨b1, b2⟩ := C01_drop_in hΓ' hL2
  exact ⟨by rw [a1, b1], by rw [a2.1, b2.1]⟩

/-! ### Non-vacuity: a history with copies, moves, a throwing constructor, swap and destruction on five different
configurations meets the hypotheses. -/

open Examples

def sampleHistory : List (Op (BitVec 8) (List String)) :=
  [.ctorDefault 20, .ctorInPlace 21 (lit 5#8), .assignCopy 20 21, .emplace 20 boom, .value 20, .swap 20 21,
   .ctorMove 22 20, .hasValue 20, .ctorInPlace 10 (lit 13#8), .ctorCopy 11 10, .assignMove 20 22,
   .transform false 20 0 (fun v g => (.ok (v + 1), v, g ++ ["f"])), .deref 0, .dtor 20, .dtor 21]

/-- What `std::optional` makes of it. -/
def sampleSpec : List (SRes (Obs (BitVec 8))) × SWorld (BitVec 8) (List String) :=
  (specRun (fun x => (exEnv x).ops) sampleHistory (.init [])).getD ([], .init [])

theorem sample_ok (b : Bool) : ∀ op ∈ sampleHistory, OpOK (env _ throwingOps b) op := by
  intro op hop
  simp only [sampleHistory, List.mem_cons, List.not_mem_nil, or_false] at hop
  rcases hop with rfl | rfl | rfl | rfl | rfl | rfl | rfl | rfl | rfl | rfl | rfl | rfl | rfl | rfl | rfl <;>
    first | exact trivial | exact lit_lawful _ | exact boom_lawful | rfl

theorem sample_legal : Legal exEnv [] sampleHistory sampleSpec.1 sampleSpec.2 := by
  refine ⟨sample_ok false, rfl, ?_, ?_⟩
  · intro p hp
    change p ∈ [(21, 5#8), (20, 5#8), (21, 0#8), (20, 5#8), (20, 0#8), (22, 5#8), (10, 13#8), (20, 5#8), (22, 0#8),
      (20, 5#8), (0, 6#8)] at hp
    simp only [List.mem_cons, List.not_mem_nil, or_false] at hp
    rcases hp with rfl | rfl | rfl | rfl | rfl | rfl | rfl | rfl | rfl | rfl | rfl <;>
      simp [Config.Storable, env, sentCfg, patCfg, sepCfg, Config.loc, byteRepr]
  · rintro ⟨op, r⟩ hp
    have hop := (List.of_mem_zip hp).1
    simp only [sampleHistory, List.mem_cons, List.not_mem_nil, or_false] at hop
    rcases hop with rfl | rfl | rfl | rfl | rfl | rfl | rfl | rfl | rfl | rfl | rfl | rfl | rfl | rfl | rfl <;>
      first | exact trivial | (intro h; exact absurd h (by decide))

/-- `C01_drop_in` for it: which calls throw, what is read, and in which order user code ran. -/
example : (run exEnv sampleHistory (.init [])).1 =
      [.ok .unit, .ok .unit, .ok .unit, .throw (.user 1), .throw .badOptionalAccess, .ok .unit, .ok .unit,
       .ok (.bool true), .ok .unit, .throw (.user 13), .ok .unit, .ok .unit, .ok (.val 6#8), .ok .unit, .ok .unit] ∧
    (run exEnv sampleHistory (.init [])).2.user =
      ["copy", "dtor", "move", "dtor", "move", "copy!", "move=", "f", "dtor"] ∧
    Holds exEnv 0 6#8 (run exEnv sampleHistory (.init [])).2 ∧ Absent 20 (run exEnv sampleHistory (.init [])).2 :=
  have h := C01_drop_in exEnv_wf sample_legal
  ⟨h.1.trans rfl, h.2.1.trans rfl, ((h.2.2 0).2.2 6#8).2 rfl, (h.2.2 20).1.2 rfl⟩

/-- `C02_no_abort` for it. -/
example : ∀ r ∈ (run exEnv sampleHistory (.init [])).1, ∀ a, r ≠ .abort a := (C02_no_abort exEnv_wf sample_legal).2

/-- `C02_ndebug_irrelevant` for it, with the build that has no asserts. -/
example : (run (env _ throwingOps true) sampleHistory (.init [])).1 = (run exEnv sampleHistory (.init [])).1 := by
  refine (C02_ndebug_irrelevant exEnv_wf (env_wf throwingOps_lawful true) (fun x => ⟨rfl, true, ?_⟩) sample_legal
    (sample_ok true)).1
  simp only [env]
  repeat' split
  all_goals rfl

/-- `C01_drop_in_separate`: the value 42 and the pattern 0xfe are ordinary values if all optionals have a separate flag. -/
example : (run (fun _ => ⟨sepCfg false, loggingOps⟩) [.ctorInPlace 0 (lit 42#8), .ctorCopy 1 0, .emplace 0 (lit 0xfe#8),
      .deref 0, .value 1] (.init [])).1 =
    [.ok .unit, .ok .unit, .ok (.val 0xfe#8), .ok (.val 0xfe#8), .ok (.val 42#8)] := by
  refine (C01_drop_in_separate ⟨fun _ => sepCfg_wf _, fun _ => loggingOps_lawful⟩ (fun _ => rfl) (rs := _) (sw := _) ?_
    rfl ?_).1.trans rfl
  · intro op hop
    simp only [List.mem_cons, List.not_mem_nil, or_false] at hop
    rcases hop with rfl | rfl | rfl | rfl | rfl <;> first | exact trivial | exact lit_lawful _ | rfl
  · rintro ⟨op, r⟩ hp
    have hop := (List.of_mem_zip hp).1
    simp only [List.mem_cons, List.not_mem_nil, or_false] at hop
    rcases hop with rfl | rfl | rfl | rfl | rfl <;> trivial

/-- `C01_step` in the world of `Examples.lean`: the copy assignment of an engaged optional to an empty one. -/
example : ∃ w', execOp exEnv (.assignCopy 21 20) exWorld = (.ok .unit, w') ∧ Reach exEnv w' ∧ Holds exEnv 21 5#8 w' := by
  obtain ⟨w', h1, h2, h3⟩ := C01_step exEnv_wf ex_reach (C01_drop_in exEnv_wf ex_legal).2 (op := .assignCopy 21 20)
    rfl (by intro h; cases h) (by
      intro p hp
      change p ∈ [(20, 5#8), (22, 13#8), (24, 99#8), (10, 9#8), (0, 42#8), (21, 5#8)] at hp
      simp only [List.mem_cons, List.not_mem_nil, or_false] at hp
      rcases hp with rfl | rfl | rfl | rfl | rfl | rfl <;>
        simp [Config.Storable, env, sentCfg, patCfg, sepCfg, Config.loc, byteRepr]) trivial
  exact ⟨w', h1, h2, ((h3.2 21).2.2 5#8).2 rfl⟩

/-- `C01_sees` for it. -/
example : ∃ sw, Sees exEnv exWorld sw ∧ sw.trace = [] := C01_sees exEnv_wf ex_reach

end Verif.Props
