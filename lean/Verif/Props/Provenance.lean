import Verif.Lemmas.Provenance
import Verif.Props.Readme

/-!
# C85: the library stores no value that user code did not make
-/

namespace Verif.Props
open Verif Verif.Model Verif.Spec
variable {V G : Type} {Γ : Env V G} {P : Nat → V → Prop} {g : G} {h : List (Op V G)} {rs : List (SRes (Obs V))} {sw : SWorld V G}

/-- C85. The values that `std::optional` stores in the course of a history, for all sets that user code keeps. -/
theorem C85_values {ops : Nat → Ops V G} (hk : ∀ op ∈ h, OpKeeps ops P op) (hr : specRun ops h (.init g) = some (rs, sw)) : AllIn P sw :=
  specRun_allIn hk ⟨by simp [SWorld.init], by simp [SWorld.init]⟩ hr

/-- C85. The condition "no reserved value is ever stored" (`Legal`) follows from conditions on each function of the user. -/
theorem C85_legal (hs : ∀ x v, P x v → (Γ x).cfg.Storable v) (hk : ∀ op ∈ h, OpKeeps (fun x => (Γ x).ops) P op) (hop : ∀ op ∈ h, OpOK Γ op)
    (hr : specRun (fun x => (Γ x).ops) h (.init g) = some (rs, sw)) (hst : ∀ p ∈ h.zip rs, StepOK p.1 p.2) : Legal Γ g h rs sw :=
  ⟨hop, hr, fun p hp => hs p.1 p.2 ((C85_values hk hr).2 p hp), hst⟩

/-- C85. Every history that has a meaning for `std::optional` has the results that it has with `std::optional`, if user code keeps sets without
reserved values. -/
theorem C85_drop_in (hΓ : EnvWF Γ) (hs : ∀ x v, P x v → (Γ x).cfg.Storable v) (hk : ∀ op ∈ h, OpKeeps (fun x => (Γ x).ops) P op)
    (hop : ∀ op ∈ h, OpOK Γ op) (hr : specRun (fun x => (Γ x).ops) h (.init g) = some (rs, sw)) (hst : ∀ p ∈ h.zip rs, StepOK p.1 p.2) :
    (run Γ h (.init g)).1 = rs.map SResToRes ∧ Sees Γ (run Γ h (.init g)).2 sw :=
  C01_drop_in hΓ (C85_legal hs hk hop hr hst)

/-- C85. And an optional contains only values of its set. (For any time: the part of the history up to then is a history as well.) -/
theorem C85_contains (hΓ : EnvWF Γ) (hs : ∀ x v, P x v → (Γ x).cfg.Storable v) (hk : ∀ op ∈ h, OpKeeps (fun x => (Γ x).ops) P op)
    (hop : ∀ op ∈ h, OpOK Γ op) (hr : specRun (fun x => (Γ x).ops) h (.init g) = some (rs, sw)) (hst : ∀ p ∈ h.zip rs, StepOK p.1 p.2)
    {x : Nat} {v : V} (hv : Holds Γ x v (run Γ h (.init g)).2) : P x v :=
  (C85_values hk hr).1 x v ((((C85_drop_in hΓ hs hk hop hr hst).2.2 x).2.2 v).1 hv)

/-- C85. The largest sets: user code makes no reserved value. -/
theorem C85_storable (hΓ : EnvWF Γ) (hk : ∀ op ∈ h, OpKeeps (fun x => (Γ x).ops) (fun x => (Γ x).cfg.Storable) op)
    (hop : ∀ op ∈ h, OpOK Γ op) (hr : specRun (fun x => (Γ x).ops) h (.init g) = some (rs, sw)) (hst : ∀ p ∈ h.zip rs, StepOK p.1 p.2) :
    (run Γ h (.init g)).1 = rs.map SResToRes ∧ Sees Γ (run Γ h (.init g)).2 sw :=
  C85_drop_in hΓ (fun _ _ h => h) hk hop hr hst

/-- C85. One set `D` for all optionals, which the payload types keep: it remains to look at the other functions of the user. -/
theorem C85_uniform (hΓ : EnvWF Γ) {D : V → Prop} (hs : ∀ x v, D v → (Γ x).cfg.Storable v) (hc : ∀ x, KeepsCopy (Γ x).ops D D)
    (hsw : ∀ x, KeepsSwap (Γ x).ops D D) (hu : ∀ op ∈ h, UserKeeps D op) (hop : ∀ op ∈ h, OpOK Γ op)
    (hr : specRun (fun x => (Γ x).ops) h (.init g) = some (rs, sw)) (hst : ∀ p ∈ h.zip rs, StepOK p.1 p.2) :
    (run Γ h (.init g)).1 = rs.map SResToRes ∧ Sees Γ (run Γ h (.init g)).2 sw :=
  C85_drop_in (P := fun _ => D) hΓ hs (fun op hop => (hu op hop).opKeeps hc hsw) hop hr hst

/-! ### An example: indices -/

/-- Two variables of type `optional<int, -1>`; the sets are the numbers below 100, and those that are not negative. -/
def indexEnv : Env (BitVec 32) Unit := fun _ => ⟨Readme.indexCfg false, Examples.scalarOps⟩
def indexSets : Nat → BitVec 32 → Prop := fun x v => if x = 0 then v.toNat < 100 else v.toNat < 2 ^ 31

/-- The statements of a program: set the first one, increment it modulo 100, assign it to the second one, empty it, look at it. -/
def indexOps : List (Op (BitVec 32) Unit) :=
  [.assignVal 0 (.ext (fun _ g => (none, 7, g)) true fun g => (.ok 7, g)), .modify 0 fun v g => (none, (v + 1) % 100, g),
   .assignVal 1 (.copyOf 0), .reset 0, .hasValue 0, .value 1]

theorem index_keeps : ∀ op ∈ indexOps, OpKeeps (fun x => (indexEnv x).ops) indexSets op := by
  intro op hop
  simp only [indexOps, List.mem_cons, List.not_mem_nil, or_false] at hop
  rcases hop with rfl | rfl | rfl | rfl | rfl | rfl
  · refine ⟨fun v g _ => ?_, fun g a ha => ?_⟩
    · show (7#32).toNat < 100; decide
    · cases ha; show (7#32).toNat < 100; decide
  · intro v g _
    show ((v + 1) % 100#32).toNat < 100
    rw [BitVec.toNat_umod]
    exact Nat.mod_lt _ (by decide)
  · have key : ∀ v, indexSets 0 v → indexSets 1 v := fun v hv => by
      have h0 : v.toNat < 100 := hv
      show v.toNat < 2 ^ 31
      omega
    exact ⟨fun v g a hv ha => by cases ha; exact key _ hv, fun _ s _ _ hs => key s hs, fun _ _ hv => hv⟩
  all_goals exact trivial

theorem index_storable : ∀ x v, indexSets x v → (indexEnv x).cfg.Storable v := by
  intro x v hv
  have h0 : v.toNat < 2 ^ 31 := by
    unfold indexSets at hv
    split at hv <;> omega
  show (v == -1) = false
  have : v ≠ -1 := by rintro rfl; revert h0; decide
  simpa using this

/-- However often the first index is incremented, and however these statements are combined to a program with a meaning, neither of the
variables becomes empty by accident. -/
example {h : List (Op (BitVec 32) Unit)} {rs sw} (hh : ∀ op ∈ h, op ∈ indexOps ∨ op = .ctorDefault 0 ∨ op = .ctorDefault 1)
    (hr : specRun (fun x => (indexEnv x).ops) h (.init ()) = some (rs, sw)) :
    (run indexEnv h (.init ())).1 = rs.map SResToRes ∧ Sees indexEnv (run indexEnv h (.init ())).2 sw := by
  have hi : ∀ op ∈ h, OpKeeps (fun x => (indexEnv x).ops) indexSets op ∧ OpOK indexEnv op ∧ ∀ r, StepOK op r := by
    intro op hop
    rcases hh op hop with h | rfl | rfl
    · refine ⟨index_keeps op h, ?_⟩
      simp only [indexOps, List.mem_cons, List.not_mem_nil, or_false] at h
      rcases h with rfl | rfl | rfl | rfl | rfl | rfl <;> exact ⟨by simp [OpOK, AArgLawful], fun _ => trivial⟩
    · exact ⟨trivial, trivial, fun _ => trivial⟩
    · exact ⟨trivial, trivial, fun _ => trivial⟩
  exact C85_drop_in (P := indexSets) ⟨fun _ => C76_index.wf _, fun _ => Examples.scalarOps_lawful⟩ index_storable (fun op hop => (hi op hop).1)
    (fun op hop => (hi op hop).2.1) hr fun p hp => (hi p.1 (List.of_mem_zip hp).1).2.2 p.2

/-- One of them, with its results. -/
example : (specRun (fun x => (indexEnv x).ops) (.ctorDefault 0 :: .ctorDefault 1 :: indexOps) (.init ())).map (·.1) =
    some [.ok .unit, .ok .unit, .ok .unit, .ok .unit, .ok .unit, .ok .unit, .ok (.bool false), .ok (.val 8)] := by decide +kernel

/-- The condition on user code is needed: without the modulo, an increment ends at the reserved value, and the second variable is empty
(without asserts). -/
example : ¬ OpKeeps (fun x => (indexEnv x).ops) (fun x => (indexEnv x).cfg.Storable) (.modify 0 fun v g => (none, v + 1, g)) ∧
    (run (fun _ => ⟨Readme.indexCfg true, Examples.scalarOps⟩) [.ctorInPlace 0 (.ext true fun g => (.ok (-2), g)),
      .modify 0 fun v g => (none, v + 1, g), .hasValue 0] (.init ())).1 = [.ok .unit, .ok .unit, .ok (.bool false)] := by
  refine ⟨fun h => ?_, by decide +kernel⟩
  have := h (-2) () (by show ((-2#32 : BitVec 32) == -1) = false; decide)
  exact absurd this (by show ¬ ((-2#32 + 1 : BitVec 32) == -1) = false; decide)

end Verif.Props
