import Verif.Lemmas.ProvenanceReentrant
import Verif.Props.Provenance
import Verif.Props.Reentrant

/-!
# C85, for user code that calls the library while the library is calling it
-/

namespace Verif.Props
open Verif Verif.Model Verif.Spec
variable {V G α : Type} {Γ : Env V G} {P : Nat → V → Prop} {Q : α → Prop} {g : G} {p : Verif.Prog V G α} {r : SRes α} {sw : SWorld V G}

/-- C85. The values that `std::optional` stores in the course of a program, for all sets that user code keeps; and the result of the program. -/
theorem C85_values_reentrant {ops : Nat → Ops V G} {lim : Re.Limits} (hk : p.Keeps ops P Q)
    (hs : specProg ops lim [] p (.init g) = (r, sw)) : AllIn P sw ∧ ∀ a, r = .ok a → Q a := by
  have h := Pres.specProg (lim := lim) p (B := []) hk (.init g) ⟨by simp [SWorld.init], by simp [SWorld.init]⟩
  rw [hs] at h
  exact h

/-- C85. No reserved value is ever stored. -/
theorem C85_legal_reentrant {ops : Nat → Ops V G} {lim : Re.Limits} (hst : ∀ x v, P x v → (Γ x).cfg.Storable v) (hk : p.Keeps ops P Q)
    (hs : specProg ops lim [] p (.init g) = (r, sw)) : NoReserved Γ sw.trace :=
  fun q hq => hst q.1 q.2 ((C85_values_reentrant hk hs).1.2 q hq)

/-- C85. Every program that has a meaning for `std::optional` has the results that it has with `std::optional`, if user code keeps sets without
reserved values; `exclusions` are the executions for which C62 is false. -/
theorem C85_drop_in_reentrant (hΓ : EnvWF Γ) (hst : ∀ x v, P x v → (Γ x).cfg.Storable v) (hk : p.Keeps (fun x => (Γ x).ops) P Q)
    (hp : ProgOK Γ p) (hs : specProg (fun x => (Γ x).ops) (exclusions Γ) [] p (.init g) = (r, sw)) (hu : r ≠ .undef) :
    (runProg Γ p (.init g)).1 = SResToRes r ∧ Sees Γ (runProg Γ p (.init g)).2 sw ∧
      ∀ id, leaked (runProg Γ p (.init g)).2.log id = 0 :=
  C62_reentrant_partial hΓ p hp g hs hu (C85_legal_reentrant hst hk hs)

/-- C85. An optional contains only values of its set, and the program returns only results with the property `Q`. -/
theorem C85_contains_reentrant (hΓ : EnvWF Γ) (hst : ∀ x v, P x v → (Γ x).cfg.Storable v) (hk : p.Keeps (fun x => (Γ x).ops) P Q)
    (hp : ProgOK Γ p) (hs : specProg (fun x => (Γ x).ops) (exclusions Γ) [] p (.init g) = (r, sw)) (hu : r ≠ .undef) :
    (∀ x v, Holds Γ x v (runProg Γ p (.init g)).2 → P x v) ∧ ∀ a, (runProg Γ p (.init g)).1 = .ok a → Q a := by
  obtain ⟨h1, h2, -⟩ := C85_drop_in_reentrant hΓ hst hk hp hs hu
  obtain ⟨h3, h4⟩ := C85_values_reentrant hk hs
  refine ⟨fun x v hv => h3.1 x v (((h2.2 x).2.2 v).1 hv), fun a ha => h4 a ?_⟩
  rw [h1] at ha
  cases r with
  | ok b => cases ha; rfl
  | throw e => cases ha
  | undef => exact absurd rfl hu

/-! ### An example: indices, handed over by a destructor -/

private abbrev I (α : Type) := Verif.Prog (BitVec 32) Unit α

/-- A destructor that puts the index that dies into the second variable, whose set is larger. -/
private def handOver (v : BitVec 32) : I Unit := .emplace 1 true (fun _ => .ret (.ok ())) (.ret (.ok v)) fun _ => .ret (.ok ())

/-- Any number of times: empty the first variable, whose payload hands itself over; refill it, with a constructor that reads the second
variable and takes the remainder; then look at the first one. -/
private def indexProg : Nat → I (BitVec 32)
  | 0 => .call (.value 0) fun r => .ret (match r with | .ok (.val v) => .ok v | .ok _ => .error (.user 1) | .error e => .error e)
  | n + 1 => .emplace 0 false handOver (.call (.value 1) fun r => .ret (match r with | .ok (.val v) => .ok ((v + 1) % 100) | _ => .error (.user 1)))
      fun _ => indexProg n

private theorem indexProg_keeps (n : Nat) : (indexProg n).Keeps (fun x => (indexEnv x).ops) indexSets fun v => v.toNat < 100 := by
  have key : ∀ v, indexSets 0 v → indexSets 1 v := fun v hv => by
    have h0 : v.toNat < 100 := hv
    show v.toNat < 2 ^ 31
    omega
  induction n with
  | zero =>
    refine ⟨trivial, fun r hr a ha => ?_⟩
    rcases r with e | (_ | _ | v) <;> cases ha
    exact hr a rfl
  | succ n ih =>
    refine ⟨fun v hv => ⟨fun _ _ _ _ => trivial, fun a ha => by cases ha; exact key _ hv, fun _ _ _ _ => trivial⟩,
      ⟨trivial, fun r _ a ha => ?_⟩, fun _ _ => ih⟩
    rcases r with e | (_ | _ | v) <;> cases ha
    show ((v + 1) % 100#32).toNat < 100
    rw [BitVec.toNat_umod]
    exact Nat.mod_lt _ (by decide)

/-- The program with the start of the two variables. -/
private def indexMain (n : Nat) : I (BitVec 32) :=
  .construct 0 true (.ret (.ok 98)) fun _ => .construct 1 true (.ret (.ok 98)) fun _ => indexProg n

private theorem indexMain_keeps (n : Nat) : (indexMain n).Keeps (fun x => (indexEnv x).ops) indexSets fun v => v.toNat < 100 := by
  refine ⟨fun a ha => ?_, fun _ => ⟨fun a ha => ?_, fun _ => indexProg_keeps n⟩⟩ <;> cases ha
  · show (98#32).toNat < 100; decide
  · show (98#32).toNat < 2 ^ 31; decide

private theorem indexProg_ok (n : Nat) : ProgOK indexEnv (indexProg n) := by
  induction n with
  | zero => exact ⟨trivial, fun _ => trivial⟩
  | succ n ih => exact ⟨fun v => ⟨fun _ => trivial, trivial, fun _ => trivial⟩, ⟨trivial, fun _ => trivial⟩, fun _ => ih⟩

/-- After any number of rounds the program ends, if it has a meaning, with an index below 100. -/
example (n : Nat) {r sw} (hs : specProg (fun x => (indexEnv x).ops) (exclusions indexEnv) [] (indexMain n) (.init ()) = (r, sw)) (hu : r ≠ .undef)
    (a : BitVec 32) (ha : (runProg indexEnv (indexMain n) (.init ())).1 = .ok a) : a.toNat < 100 :=
  (C85_contains_reentrant ⟨fun _ => C76_index.wf _, fun _ => Examples.scalarOps_lawful⟩ index_storable (indexMain_keeps n)
    ⟨trivial, fun _ => ⟨trivial, fun _ => indexProg_ok n⟩⟩ hs hu).2 a ha

/-- It has one, and the remainder matters. -/
example : (specProg (fun x => (indexEnv x).ops) (exclusions indexEnv) [] (indexMain 3) (.init ())).1 = .ok 1#32 := by decide +kernel

end Verif.Props
