import Verif.Lemmas.AnyReentrant
import Verif.Props.Manipulator
import Verif.Props.Reentrant

/-!
# C64 for re-entrant programs

The payload's special members and the callables call the library themselves, while the manipulators are arbitrary code.
-/

namespace Verif.Props
open Verif Verif.Model Verif.Examples
open Verif.Spec (SWorld SRes specProg)
open Verif.Spec.Manipulator (Act Call Phase IsEmpty AnswersEmpty AnswersFull phases)

section
variable {V G α : Type} {Γ : Any.Env V G}

/-- C64. The claims of `C64_drop_in`, `C64_order` and `C64_no_abort` for programs whose user code may call the library at any time and
to any depth, on all optionals but the busy ones: the prescribed outcome, the prescribed optionals, no abort (so `is_empty` is never
called on raw memory), and all calls of the manipulators' functions in the documented order, with no raw optional left. (The executions
that are left out are those of C62.) -/
theorem C64_reentrant (hm : ∀ x, AnswersEmpty (Γ x).cfg.test) (ho : ∀ x, (Γ x).ops.Lawful) (p : Prog V G α) (hp : Any.ProgOK Γ p)
    (g : G) {r : SRes α} {sw : SWorld V G}
    (hs : specProg (fun x => (Γ x).ops) ⟨true, fun x => !(Γ x).cfg.ndebug⟩ [] p (.init g) = (r, sw)) (hu : r ≠ .undef)
    (hv : ∀ q ∈ sw.trace, AnswersFull (Γ q.1).cfg.test q.2) :
    (Any.runProg Γ p (.init g)).1 = SResToRes r ∧ (∀ a, (Any.runProg Γ p (.init g)).1 ≠ .abort a) ∧
      Any.Sees Γ (Any.runProg Γ p (.init g)).2 sw ∧
      phases (Any.runProg Γ p (.init g)).2.calls = some fun x => expected (sw.vars x) := by
  obtain ⟨w', hw', hR⟩ := (Any.sim_prog ⟨hm, ho⟩ rfl p hp []).sim (.init g) (.init g) (Any.R_init g) (by simp) (by rw [hs]; exact hu)
    (by rw [hs]; exact hv)
  rw [hs] at hR hw'
  rw [hw'.eq]
  refine ⟨by cases r <;> first | rfl | exact absurd rfl hu, fun a => (by cases r <;> first | exact absurd rfl hu | exact nofun),
    hR.sees ⟨hm, ho⟩, ?_⟩
  rw [hR.order]
  congr 1
  funext x
  rcases hx : sw.vars x with _ | (_ | v)
  · exact hR.absent hx
  · exact hR.emp hx
  · exact (hR.full hx).1
end

section
variable {V G α : Type} {Γ : Env V G}

private theorem progOK_abstracted (p : Prog V G α) (hp : ProgOK Γ p) : Any.ProgOK (abstracted Γ) p := by
  induction p with
  | ret r => trivial
  | user f k ih => exact fun g => ih g (hp g)
  | call op k ih =>
    refine ⟨?_, fun r => ih r (hp.2 r)⟩
    have := hp.1
    cases op <;> simp_all [Any.OpOK, OpOK, abstracted]
  | construct x nt ctor k ihc ih => exact ⟨ihc hp.1, fun r => ih r (hp.2 r)⟩
  | transfer rv x y ctor k ihc ih => exact ⟨ihc hp.1, fun r => ih r (hp.2 r)⟩
  | destroy x dtor k ihd ih => exact ⟨fun v => ihd v (hp.1 v), fun r => ih r (hp.2 r)⟩
  | reset x dtor k ihd ih => exact ⟨fun v => ihd v (hp.1 v), fun r => ih r (hp.2 r)⟩
  | assign x nt asg ctor k iha ihc ih => exact ⟨iha hp.1, ihc hp.2.1, fun r => ih r (hp.2.2 r)⟩
  | assignFrom rv x y asg ctor dtor k iha ihc ihd ih =>
    exact ⟨iha hp.1, ihc hp.2.1, fun v => ihd v (hp.2.2.1 v), fun r => ih r (hp.2.2.2 r)⟩
  | emplace x nt dtor ctor k ihd ihc ih => exact ⟨fun v => ihd v (hp.1 v), ihc hp.2.1, fun r => ih r (hp.2.2 r)⟩
  | swap x y swp ctor dtor k ihs ihc ihd ih =>
    exact ⟨by simp [abstracted, hp.1], ihs hp.2.1, fun y => ihc y (hp.2.2.1 y), fun v => ihd v (hp.2.2.2.1 v), fun r => ih r (hp.2.2.2.2 r)⟩
  | valueOr x ctor conv k ihc ihv ih => exact ⟨ihc hp.1, ihv hp.2.1, fun r => ih r (hp.2.2 r)⟩
  | andThen x dst f ctor k ihf ihc ih => exact ⟨ihf hp.1, fun y => ihc y (hp.2.1 y), fun r => ih r (hp.2.2 r)⟩
  | transform nt x dst f k ihf ih => exact ⟨ihf hp.1, fun r => ih r (hp.2 r)⟩
  | orElse rv x dst f ctor k ihf ihc ih => exact ⟨ihf hp.1, fun y => ihc y (hp.2.1 y), fun r => ih r (hp.2.2 r)⟩
  | compare q x y cmp k ihc ih => exact ⟨fun a b => ihc a b (hp.1 a b), fun r => ih r (hp.2 r)⟩
  | inspect q x f k ihf ih => exact ⟨fun v => ihf v (hp.1 v), fun r => ih r (hp.2 r)⟩

/-- C64. Also for such programs both machines agree if the manipulators are those of `Model/Flag`. -/
theorem C64_reentrant_agrees (hΓ : EnvWF Γ) (p : Prog V G α) (hp : ProgOK Γ p) (g : G) {r : SRes α} {sw : SWorld V G}
    (hs : specProg (fun x => (Γ x).ops) (exclusions Γ) [] p (.init g) = (r, sw)) (hu : r ≠ .undef) (ht : NoReserved Γ sw.trace) :
    (Any.runProg (abstracted Γ) p (.init g)).1 = (runProg Γ p (.init g)).1 ∧
    (Any.runProg (abstracted Γ) p (.init g)).2.user = (runProg Γ p (.init g)).2.user ∧
    ∀ x, (Any.Absent x (Any.runProg (abstracted Γ) p (.init g)).2 ↔ Absent x (runProg Γ p (.init g)).2) ∧
      (Any.IsEmpty (abstracted Γ) x (Any.runProg (abstracted Γ) p (.init g)).2 ↔ Model.IsEmpty Γ x (runProg Γ p (.init g)).2) ∧
      ∀ v, Any.Holds (abstracted Γ) x v (Any.runProg (abstracted Γ) p (.init g)).2 ↔ Holds Γ x v (runProg Γ p (.init g)).2 := by
  obtain ⟨h1, hs', _⟩ := C62_reentrant_partial hΓ p hp g hs hu ht
  obtain ⟨a1, _, a2, _⟩ := C64_reentrant (Γ := abstracted Γ) (fun x => (C64_own (hΓ.cfg x)).1) hΓ.ops p (progOK_abstracted p hp) g hs hu
    (fun q hq => (C64_own (hΓ.cfg q.1)).2 _ (ht q hq))
  refine ⟨a1.trans h1.symm, a2.1.trans hs'.1.symm, fun x => ⟨?_, ?_, fun v => ?_⟩⟩
  · exact (a2.2 x).1.trans (hs'.2 x).1.symm
  · exact (a2.2 x).2.1.trans (hs'.2 x).2.1.symm
  · exact ((a2.2 x).2.2 v).trans ((hs'.2 x).2.2 v).symm
end

/-! ### Non-vacuity -/

private abbrev P (α : Type) := Prog (BitVec 8) (List String) α

private def say {α : Type} (s : String) (k : P α) : P α := .user (· ++ [s]) fun _ => k

private def done : P Unit := .ret (.ok ())

/-- The payload's destructor, which puts the value into optional 1. -/
private def leaveNote (v : BitVec 8) : P Unit :=
  say "dtor" (.emplace 1 true (fun _ => say "dtor of 1" done) (.ret (.ok v)) fun _ => done)

/-- The payload constructor of optional 20 constructs and destroys a local optional 11 and then throws; at the second attempt it
assigns to optional 1. Then `emplace` destroys the payload, whose destructor leaves a note, and throws. -/
private def nested : P Unit :=
  .call (.ctorDefault 1) fun _ =>
  .construct 20 false (.construct 11 true (.ret (.ok 8#8)) fun _ => .destroy 11 leaveNote fun _ => .ret (.error (.user 4))) fun _ =>
  .construct 20 false (.assign 1 true done (.ret (.ok 70#8)) fun _ => .ret (.ok 2#8)) fun _ =>
  .transform false 20 25 (.reset 20 leaveNote fun _ => .ret (.ok 9#8)) fun _ =>
  .swap 20 25 done (fun _ => .ret (.ok 9#8)) leaveNote fun _ =>
  .emplace 20 false leaveNote (.reset 1 (fun _ => say "gone" done) fun _ => .ret (.error (.user 6))) fun r =>
  .ret (match r with | .ok _ => .ok () | .error e => .error e)

private theorem nested_ok : Any.ProgOK tableEnv nested := by
  simp [nested, leaveNote, say, done, Any.ProgOK, Any.OpOK, tableEnv]

private def nestedSpec := specProg (fun x => (tableEnv x).ops) ⟨true, fun x => !(tableEnv x).cfg.ndebug⟩ [] nested (.init [])

example := C64_reentrant (fun _ => C64_table.1) (fun _ => throwingOps_lawful) nested nested_ok [] (r := nestedSpec.1) (sw := nestedSpec.2)
  (Prod.eta nestedSpec).symm (by decide +kernel) (fun q _ => C64_table.2 q.2)

example : nestedSpec.1 = .throw (.user 6) ∧ nestedSpec.2.vars 20 = some none ∧ nestedSpec.2.vars 1 = some none ∧
    nestedSpec.2.vars 11 = none := by decide +kernel

private def nestedOwn := specProg (fun x => (env _ throwingOps false x).ops) (exclusions (env _ throwingOps false)) [] nested (.init [])

private theorem nestedOwn_trace : nestedOwn.2.trace =
    [(11, 8#8), (1, 8#8), (20, 2#8), (1, 2#8), (25, 9#8), (20, 9#8), (1, 9#8), (1, 9#8)] := by decide +kernel

example := C64_reentrant_agrees (env_wf throwingOps_lawful false) nested
  (by simp [nested, leaveNote, say, done, ProgOK, OpOK, env]) [] (r := nestedOwn.1) (sw := nestedOwn.2) (Prod.eta nestedOwn).symm
  (by decide +kernel) (by
    rw [nestedOwn_trace]
    simp only [NoReserved, List.mem_cons, List.not_mem_nil, or_false, forall_eq_or_imp, forall_eq]
    simp [Config.Storable, Config.loc, byteRepr, env, sepCfg, sentCfg, patCfg])

end Verif.Props
