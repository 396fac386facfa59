import Verif.Lemmas.CostReentrant
import Verif.Props.ThreadsReentrant

/-! # C79: bounds for programs whose user code calls the library -/

namespace Verif.Props
open Verif Verif.Model

section
variable {V G α : Type}

/-- C79. What a function of the library adds to the steps of the user code that it runs is constant, even if the user code itself calls
the library, to any depth and on the same optionals, and whatever happens to the memory between the steps: no precondition. -/
theorem C79_overhead (Γ : Env V G) (p : Prog V G α) {n : Nat} (hp : p.Costs Prog.overhead n) (ws : List (World V G)) (h : n ≤ ws.length) :
    ∃ r, (Steps.runProg Γ p).disturbed ws = .done r := by
  have := (Within.disturbed (Ends.runProg Γ p hp) ws).1
  rw [show n - ws.length = 0 by omega] at this
  exact this.zero

/-- C79. A program that makes at most `n` calls and computations, including those of its user code, ends within `71 * n` steps. -/
theorem C79_reentrant (Γ : Env V G) (p : Prog V G α) {n : Nat} (hp : p.Costs Prog.one n) (ws : List (World V G))
    (h : 71 * n ≤ ws.length) : ∃ r, (Steps.runProg Γ p).disturbed ws = .done r :=
  C79_overhead Γ p (costs_overhead p hp) ws h
end

section
variable {T V G α : Type} [DecidableEq T]

/-- C79. Wait-freedom with re-entrant programs: for all programs of the other threads, all starting states and all schedules; the threads
may have data races. -/
theorem C79_wait_free_reentrant (Γ : Env V G) (P : T → Prog V G α) (mem : Nat → Option (Storage V)) (own : T → Own G) (t : T) {n : Nat}
    (hn : (P t).Costs Prog.overhead n) (σ : List T) (hσ : n ≤ σ.count t) :
    ∃ r, ((startProgs Γ P mem own).after σ).prog t = .done r := by
  obtain ⟨v, hv⟩ := Within.waits (startProgs Γ P mem own) t (Ends.runProg Γ (P t) hn) σ
  rw [show n - σ.count t = 0 by omega] at hv
  exact hv.zero
end

/-! ### Concrete cases -/

section
open Verif.Examples

private abbrev P (α : Type) := Prog (BitVec 8) (List String) α

private def done : Except Exn Unit → P Unit := fun r => .ret r

/-- Both threads work on the optional 20: thread `true` fills it, with a constructor that empties 22, whose destructor looks at 20 again;
thread `false` copies it. -/
private def racy : Bool → P Unit
  | true => .emplace 20 false (fun _ => .ret (.ok ()))
      (.reset 22 (fun _ => .call (.hasValue 20) fun _ => .ret (.ok ())) fun _ => .ret (.ok 9#8)) fun _ => .ret (.ok ())
  | false => .transfer false 26 20 (.call (.deref 20) fun r => .ret (match r with | .ok (.val v) => .ok v | _ => .ok 0#8)) done

/-- 28 steps of `emplace`, 11 of `reset`, 1 of `has_value`. -/
private theorem racy_costs : (racy true).Costs Prog.overhead 40 :=
  ⟨by decide, 0, 12, 0, by decide, fun _ => ⟨Nat.le_refl 0, trivial⟩,
    ⟨by decide, 1, 0, by decide, fun _ => ⟨Nat.le_refl 1, fun _ => ⟨Nat.le_refl 0, trivial⟩⟩, fun _ => ⟨Nat.le_refl 0, trivial⟩⟩,
    fun _ => ⟨Nat.le_refl 0, trivial⟩⟩

/-- Three calls. -/
private theorem racy_calls : (racy true).Costs Prog.one 3 :=
  ⟨by decide, 0, 2, 0, by decide, fun _ => ⟨Nat.le_refl 0, trivial⟩,
    ⟨by decide, 1, 0, by decide, fun _ => ⟨Nat.le_refl 1, fun _ => ⟨Nat.le_refl 0, trivial⟩⟩, fun _ => ⟨Nat.le_refl 0, trivial⟩⟩,
    fun _ => ⟨Nat.le_refl 0, trivial⟩⟩

/-- In memory that disappears after the first steps. -/
example := C79_overhead exEnv (racy true) racy_costs (List.replicate 9 exWorld ++ List.replicate 31 (.init [])) (by simp)
example := C79_reentrant exEnv (racy true) racy_calls (List.replicate 213 exWorld) (Nat.le_refl 213)

example : ∃ σ, Race ((startProgs exEnv racy exWorld.mem fun _ => ⟨0, [], []⟩).after σ) :=
  ⟨List.replicate 7 false ++ List.replicate 4 true, true, false, 20, by decide, by decide +kernel, .inl (by decide +kernel)⟩

example (own : Bool → Own (List String)) (σ : List Bool) (hσ : 40 ≤ σ.count true) :
    ∃ r, ((startProgs exEnv racy exWorld.mem own).after σ).prog true = .done r :=
  C79_wait_free_reentrant exEnv racy _ own true racy_costs σ hσ

/-- A bound that is reached: comparing two optionals takes 6 steps and those of the comparison of the payloads, here one. -/
example : (∀ r, (Steps.runProg exEnv (.compare (.rel .lt) 20 20 (fun a b => .call (.hasValue 20) fun _ => .ret (.ok (a.ult b))) fun r => .ret r)).disturbed
      (List.replicate 6 exWorld) ≠ .done r) ∧
    (Steps.runProg exEnv (.compare (.rel .lt) 20 20 (fun a b => .call (.hasValue 20) fun _ => .ret (.ok (a.ult b))) fun r => .ret r)).disturbed
      (List.replicate 7 exWorld) = .done (.ok false) := ⟨nofun, rfl⟩

end
end Verif.Props
