import Verif.Spec.Exercise
import Verif.Props.Refinement
import Verif.Props.Manipulator
import Verif.Props.EndToEnd

/-!
# C65: the repository's own test passes for every payload type, every way of storing the empty state, and all test values
-/

namespace Verif.Props
open Verif Verif.Model Verif.Examples
open Verif.Spec (SWorld SRes specRun specOp Regular Step exercise)
variable {V G : Type}

/-- The same with functions for the effects, so that it can be used for rewriting. -/
private theorem Regular.eqs {o : Ops V G} {moved : V → V} (h : Regular o moved) :
    ∃ (e1 e2 : V → G → G) (e3 e4 e5 : V → V → G → G),
      (∀ v g, o.copyCtor v g = (.ok v, e1 v g)) ∧ (∀ v g, o.moveCtor v g = (.ok v, moved v, e2 v g)) ∧
      (∀ d s g, o.copyAssign d s g = (none, s, e3 d s g)) ∧ (∀ d s g, o.moveAssign d s g = (none, s, moved s, e4 d s g)) ∧
      (∀ a b g, o.swap a b g = (none, b, a, e5 a b g)) := by
  refine ⟨fun v g => (o.copyCtor v g).2, fun v g => (o.moveCtor v g).2.2, fun d s g => (o.copyAssign d s g).2.2,
    fun d s g => (o.moveAssign d s g).2.2.2, fun a b g => (o.swap a b g).2.2.2, ?_, ?_, ?_, ?_, ?_⟩
  · exact fun v g => Prod.ext (h.copyCtor v g) rfl
  · exact fun v g => Prod.ext (h.moveCtor v g).1 (Prod.ext (h.moveCtor v g).2 rfl)
  · exact fun d s g => Prod.ext (h.copyAssign d s g).1 (Prod.ext (h.copyAssign d s g).2 rfl)
  · exact fun d s g => Prod.ext (h.moveAssign d s g).1 (Prod.ext (h.moveAssign d s g).2.1 (Prod.ext (h.moveAssign d s g).2.2 rfl))
  · exact fun a b g => Prod.ext (h.swap a b g).1 (Prod.ext (h.swap a b g).2.1 (Prod.ext (h.swap a b g).2.2 rfl))

/-- `std::optional` passes the tests, and only the values `v1`, `v2`, `c` and what moves leave of them are ever stored. -/
theorem spec_passes {o : Ops V G} {moved : V → V} (h : Regular o moved) (v1 v2 c : V) (nt scalar : Bool) (eff : G → G) (g : G) :
    ∀ t ∈ exercise v1 v2 c moved nt scalar eff,
      ∃ sw, specRun (fun _ => o) (t.2.map (·.1)) (.init g) = some (t.2.map (·.2), sw) ∧
        (∀ p ∈ sw.trace, p.2 ∈ [v1, v2, c, moved v1, moved v2]) := by
  obtain ⟨e1, e2, e3, e4, e5, h1, h2, h3, h4, h5⟩ := Regular.eqs h
  intro t ht
  simp only [exercise, List.mem_cons, List.not_mem_nil, or_false] at ht
  rcases ht with rfl | rfl | rfl | rfl | rfl | rfl | rfl | rfl | rfl | rfl | rfl | rfl | rfl | rfl | rfl | rfl | rfl | rfl | rfl | rfl |
    rfl | rfl | rfl | rfl | rfl | rfl | rfl | rfl | rfl | rfl | rfl | rfl | rfl | rfl | rfl | rfl | rfl | rfl | rfl | rfl | rfl |
    rfl | rfl | rfl | rfl | rfl | rfl | rfl <;> cases scalar <;>
  simp [specRun, specOp, Spec.mkEmpty, Spec.mk, Spec.call, Spec.has, Spec.isVal, Spec.noVal, Spec.done, Spec.stdSwap, Spec.testArg,
    Spec.testAssign, Spec.ctorDefault, Spec.ctorInPlace, Spec.ctorCopy, Spec.ctorMove, Spec.dtor,
    Spec.reset, Spec.assignVal, Spec.assignViaTemp, Spec.assignCopy, Spec.assignMove, Spec.emplace, Spec.swap, Spec.hasValue,
    Spec.deref, Spec.value, Spec.valueOr, Spec.modify, Spec.andThen, Spec.transform, Spec.orElse, Spec.init, Spec.argVal,
    Spec.payloadAssign, Spec.destroyVal, Spec.fresh, Spec.get, Spec.getVal, Spec.put, Spec.setEmpty, Spec.remove, Spec.check,
    Spec.user, Spec.throw, Spec.onThrow, SWorld.init, AArg.toArg, bind, Spec.SM.bind, Spec.SM.pure, h1, h2, h3, h4, h5] <;> grind

/-- A step that `OpOK` and `StepOK` accept if all optionals have the same type. -/
private def StepFine (p : Step V G) : Prop :=
  match p.1 with
  | .ctorInPlace _ a | .emplace _ a | .assignScalar _ _ a => ArgLawful a
  | .assignVal _ a => AArgLawful a
  | .transform _ _ _ _ => p.2 = .ok .unit
  | _ => True

private theorem all_fine (v1 v2 c : V) (moved : V → V) (nt scalar : Bool) (eff : G → G) :
    ∀ t ∈ exercise v1 v2 c moved nt scalar eff, ∀ p ∈ t.2, StepFine p := by
  intro t ht
  simp only [exercise, List.mem_cons, List.not_mem_nil, or_false] at ht
  rcases ht with rfl | rfl | rfl | rfl | rfl | rfl | rfl | rfl | rfl | rfl | rfl | rfl | rfl | rfl | rfl | rfl | rfl | rfl | rfl | rfl |
    rfl | rfl | rfl | rfl | rfl | rfl | rfl | rfl | rfl | rfl | rfl | rfl | rfl | rfl | rfl | rfl | rfl | rfl | rfl | rfl | rfl |
    rfl | rfl | rfl | rfl | rfl | rfl | rfl <;> cases scalar <;>
  simp [StepFine, Spec.mkEmpty, Spec.mk, Spec.call, Spec.has, Spec.isVal, Spec.noVal, Spec.done, Spec.stdSwap, Spec.testArg, Spec.testAssign,
    ArgLawful, AArgLawful]

private theorem zip_self {α β : Type} (l : List (α × β)) : (l.map (·.1)).zip (l.map (·.2)) = l := by
  induction l with
  | nil => rfl
  | cons p l ih => simp [ih]

/-- C65. The tests of `ExerciseOptional` pass for every payload type whose copies equal the original, for every configuration, and for all
test values that (also after a move) are not reserved by the configuration. -/
theorem C65_exercise {T : Ty V G} (hc : T.cfg.WF) (hl : T.ops.Lawful) {moved : V → V} (hr : Regular T.ops moved) {v1 v2 c : V}
    (hv : ∀ v ∈ [v1, v2, c, moved v1, moved v2], T.cfg.Storable v) (nt scalar : Bool) (eff : G → G) (g : G) :
    ∀ t ∈ exercise v1 v2 c moved nt scalar eff, (run (fun _ => T) (t.2.map (·.1)) (.init g)).1 = t.2.map fun p => SResToRes p.2 := by
  intro t ht
  have hf := all_fine v1 v2 c moved nt scalar eff t ht
  obtain ⟨sw, h1, h2⟩ := spec_passes hr v1 v2 c nt scalar eff g t ht
  have hL : Legal (fun _ => T) g (t.2.map (·.1)) (t.2.map (·.2)) sw := by
    refine ⟨?_, h1, fun p hp => hv _ (h2 p hp), ?_⟩
    · intro op hop
      obtain ⟨p, hp, rfl⟩ := List.mem_map.1 hop
      have := hf p hp
      unfold StepFine at this
      unfold OpOK
      split <;> simp_all
    · rw [zip_self]
      intro p hp
      have := hf p hp
      unfold StepFine at this
      unfold StepOK
      split <;> simp_all
  rw [(C01_drop_in ⟨fun _ => hc, fun _ => hl⟩ hL).1, List.map_map]
  rfl

/-- C65. They also pass for every manipulator that fulfils the contract of C64. -/
theorem C65_exercise_any {T : Any.Ty V G} (hc : Spec.Manipulator.AnswersEmpty T.cfg.test) (hl : T.ops.Lawful) {moved : V → V}
    (hr : Regular T.ops moved) {v1 v2 c : V}
    (hv : ∀ v ∈ [v1, v2, c, moved v1, moved v2], Spec.Manipulator.AnswersFull T.cfg.test v) (nt scalar : Bool) (eff : G → G) (g : G) :
    ∀ t ∈ exercise v1 v2 c moved nt scalar eff,
      (Any.run (fun _ => T) (t.2.map (·.1)) (.init g)).1 = t.2.map fun p => SResToRes p.2 := by
  intro t ht
  have hf := all_fine v1 v2 c moved nt scalar eff t ht
  obtain ⟨sw, h1, h2⟩ := spec_passes hr v1 v2 c nt scalar eff g t ht
  rw [(C64_drop_in (Γ := fun _ => T) (fun _ => hc) (fun _ => hl) (rs := t.2.map (·.2)) ?_ h1 (fun p hp => hv _ (h2 p hp)) ?_).1,
    List.map_map]
  · rfl
  · intro op hop
    obtain ⟨p, hp, rfl⟩ := List.mem_map.1 hop
    have := hf p hp
    unfold StepFine at this
    unfold Any.OpOK
    split <;> simp_all
  · rw [zip_self]
    intro p hp
    have := hf p hp
    unfold StepFine at this
    unfold StepOK
    split <;> simp_all

/-- C65 in terms of the source text: for every optional type that the compiler accepts. -/
theorem C65_compiled {P : Model.Prog} {S : Sem V} (hS : S.Lawful P) {e : Entry} {i : Inst} (h : compile P e = .ok i) (hv : e.Valid S)
    (hi : i.Reflexive S) (nd : Bool) {o : Ops V G} (hl : o.Lawful) {moved : V → V} (hr : Regular o moved) {v1 v2 c : V}
    (hm : ∀ v ∈ [v1, v2, c, moved v1, moved v2], MayStore S i v) (nt scalar : Bool) (eff : G → G) (g : G) :
    ∀ t ∈ exercise v1 v2 c moved nt scalar eff,
      (run (fun _ => ⟨S.config i nd, o⟩) (t.2.map (·.1)) (.init g)).1 = t.2.map fun p => SResToRes p.2 :=
  C65_exercise (T := ⟨S.config i nd, o⟩) (C28_wf hS h hv hi nd) hl hr (fun v hv' => mayStore_storable hS h hv (hm v hv')) nt scalar eff g

/-! ### The hypotheses can be met -/

/-- A payload whose moves leave 0 behind. -/
private def zeroing : Ops (BitVec 8) (List String) :=
  { loggingOps with
    copyCtor := fun v g => (.ok v, g ++ ["copy"])
    copyAssign := fun _ s g => (none, s, g ++ ["copy="]) }

private theorem zeroing_regular : Regular zeroing fun _ => 0#8 :=
  ⟨fun _ _ => rfl, fun _ _ => ⟨rfl, rfl⟩, fun _ _ _ => ⟨rfl, rfl⟩, fun _ _ _ => ⟨rfl, rfl, rfl⟩, fun _ _ _ => ⟨rfl, rfl, rfl⟩⟩

private theorem zeroing_lawful : zeroing.Lawful :=
  ⟨fun _ v _ => ⟨v, rfl⟩, fun _ v _ => ⟨v, rfl⟩, fun _ _ _ _ => rfl, fun _ _ _ => rfl, fun _ _ _ _ => rfl, fun _ _ _ => rfl⟩

example := spec_passes zeroing_regular 5#8 6#8 7#8 true false id ["start"]

/-- `optional<signed char, 42>` with test values 5 and 6. -/
example := C65_exercise (T := ⟨sentCfg false, zeroing⟩) (sentCfg_wf false) zeroing_lawful zeroing_regular (v1 := 5#8) (v2 := 6#8) (c := 7#8)
  (by intro v hv; simp at hv; rcases hv with rfl | rfl | rfl | rfl <;> simp [Config.Storable, sentCfg, Config.loc]) true false id []

/-- A manipulator that keeps a table on the side. -/
example := C65_exercise_any (T := ⟨⟨tableTest, false⟩, zeroing⟩) C64_table.1 zeroing_lawful zeroing_regular (v1 := 5#8) (v2 := 6#8) (c := 7#8)
  (fun v _ => C64_table.2 v) false true id []

/-- `optional<int, -1>`. -/
example := C65_compiled (G := Unit) (exSem_lawful exSettings rfl) (e := exEntries 1) (i := exInsts 1) rfl trivial
  (by show exSem.eq _ _ _ = true; rfl) false (o := scalarOps) scalarOps_lawful (moved := id)
  ⟨fun _ _ => rfl, fun _ _ => ⟨rfl, rfl⟩, fun _ _ _ => ⟨rfl, rfl⟩, fun _ _ _ => ⟨rfl, rfl, rfl⟩, fun _ _ _ => ⟨rfl, rfl, rfl⟩⟩
  (v1 := fun _ => 5#64) (v2 := fun _ => 6#64) (c := fun _ => 7#64)
  (by intro v hv; simp at hv; rcases hv with rfl | rfl | rfl | rfl | rfl <;> (show exSem.eq _ _ _ = false) <;> rfl) true true id ()

/-- The test can fail: with the reserved value 0 for a moved-from payload `Constructor_MoveOfNonEmpty` does not pass. -/
example : let T : Ty (BitVec 8) (List String) := ⟨⟨1, byteRepr, .inplace, .assign 0#8 (· == ·), true⟩, zeroing⟩
    ∃ t ∈ exercise 5#8 6#8 7#8 (fun _ => 0#8) true false id,
      t.1 = "Constructor_MoveOfNonEmpty" ∧ (run (fun _ => T) (t.2.map (·.1)) (.init [])).1 ≠ t.2.map fun p => SResToRes p.2 :=
  ⟨_, .tail _ (.tail _ (.tail _ (.tail _ (.tail _ (.head _))))), rfl, by decide +kernel⟩

end Verif.Props
