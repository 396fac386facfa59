import Verif.Lemmas.Cost
import Verif.Props.Threads

/-! # C79: every call takes a bounded number of steps -/

namespace Verif.Props
open Verif Verif.Model

section
variable {V G α : Type}

/-- C79. Every call of the library ends after a constant number of steps, whatever the types, arguments and contents of the memory
are and whatever other threads do to the memory between the steps: no precondition. -/
theorem C79_bounded (Γ : Env V G) (c : LibCall V G α) (ws : List (World V G)) (h : c.budget.steps ≤ ws.length) :
    ∃ r, (Steps.execCall Γ c).disturbed ws = .done r := by
  have := (Within.disturbed (Within.execCall Γ c) ws).1
  rw [show c.budget.steps - ws.length = 0 by omega] at this
  exact this.zero

/-- C79. No call takes more than 104 steps. -/
theorem C79_constant (Γ : Env V G) (c : LibCall V G α) (ws : List (World V G)) (h : 104 ≤ ws.length) :
    ∃ r, (Steps.execCall Γ c).disturbed ws = .done r :=
  C79_bounded Γ c ws (Nat.le_trans c.budget_le.1 h)

/-- C79. The number of calls of user code is bounded, likewise without precondition. -/
theorem C79_user (Γ : Env V G) (c : LibCall V G α) (ws : List (World V G)) : (Steps.execCall Γ c).userRuns ws ≤ c.budget.user :=
  (Within.disturbed (Within.execCall Γ c) ws).2

/-- C79. `has_value`, `*`, `->`, `value`, default construction and comparisons with `std::nullopt` run no user code at all. -/
theorem C79_no_user (Γ : Env V G) (x : Nat) (op : Spec.RelOp) (ws : List (World V G)) :
    (Steps.execCall Γ (.op (.hasValue x))).userRuns ws = 0 ∧ (Steps.execCall Γ (.op (.deref x))).userRuns ws = 0 ∧
    (Steps.execCall Γ (.op (.value x))).userRuns ws = 0 ∧ (Steps.execCall Γ (.op (.ctorDefault x))).userRuns ws = 0 ∧
    (Steps.execCall Γ (.relNullopt x op)).userRuns ws = 0 ∧ (Steps.execCall Γ (.nulloptRel x op)).userRuns ws = 0 ∧
    (Steps.execCall Γ (.spaceshipNullopt x)).userRuns ws = 0 :=
  have h {β : Type} (c : LibCall V G β) (e : c.budget.user = 0) : (Steps.execCall Γ c).userRuns ws = 0 :=
    Nat.le_zero.mp (e ▸ C79_user Γ c ws)
  ⟨h _ rfl, h _ rfl, h _ rfl, h _ rfl, h _ rfl, h _ rfl, h _ rfl⟩
end

section
variable {T V G α : Type} [DecidableEq T]

/-- C79. Wait-freedom: a thread that makes at most `n` calls is finished after `104 * n` steps of its own. For all programs of the
other threads, all starting states and all schedules; the threads may have data races. -/
theorem C79_wait_free (Γ : Env V G) (P : T → TProg V G α) (mem : Nat → Option (Storage V)) (own : T → Own G) (t : T) {n : Nat}
    (hn : (P t).AtMost n) (σ : List T) (hσ : 104 * n ≤ σ.count t) : ∃ r, ((start Γ P mem own).after σ).prog t = .done r := by
  obtain ⟨u, h⟩ := Within.execProg Γ (P t) hn
  obtain ⟨v, hv⟩ := Within.waits (start Γ P mem own) t h σ
  rw [show 104 * n - σ.count t = 0 by omega] at hv
  exact hv.zero
end

/-! ### Concrete cases -/

section
open Verif.Examples

private abbrev G := List String

private abbrev ult : Spec.RelOp → UserCmp G (BitVec 8) (BitVec 8) Bool := fun _ a b g => (.ok (a.ult b), g ++ ["<"])

/-- Copying an optional with a value, in memory that changes between the steps: the payload disappears after the first steps. -/
example := C79_bounded exEnv (.op (.ctorCopy 25 20)) (List.replicate 9 exWorld ++ List.replicate 29 (.init [])) (by simp [LibCall.budget, Op.budget])
example := C79_constant exEnv (.freeSwap 20 24 25 .generic) (List.replicate 104 exWorld) (by simp)

/-- Some budgets are reached: `20 < 20` takes 7 steps, one of which is the comparison of the payloads. -/
example : (∀ r, (Steps.execCall exEnv (.rel 20 20 .lt ult)).disturbed (List.replicate 6 exWorld) ≠ .done r) ∧
    (Steps.execCall exEnv (.rel 20 20 .lt ult)).disturbed (List.replicate 7 exWorld) = .done (.ok false) ∧
    (Steps.execCall exEnv (.rel 20 20 .lt ult)).userRuns (List.replicate 7 exWorld) = 1 := ⟨nofun, rfl, rfl⟩

/-- `reset` of an optional with a value runs the destructor of the payload. -/
example : (Steps.execCall exEnv (.op (.reset 20))).userRuns (List.replicate 10 exWorld) = 1 := rfl

/-- Two threads with a data race. -/
private def racy : Bool → TProg (BitVec 8) G Unit
  | true => .call (.op (.reset 20)) fun _ => .call (.op (.emplace 20 (lit 3#8))) fun _ => .ret ()
  | false => .call (.op (.hasValue 20)) fun r => match r with
    | .ok (.bool true) => .call (.op (.deref 20)) fun _ => .ret ()
    | _ => .ret ()

private theorem racy_atMost (t : Bool) : (racy t).AtMost 2 := by
  cases t
  · refine ⟨by decide, fun r => ?_⟩
    dsimp only
    split
    · exact ⟨by decide, fun _ => trivial⟩
    · trivial
  · exact ⟨by decide, fun _ => ⟨by decide, fun _ => trivial⟩⟩

example (own : Bool → Own G) : ∃ σ, Race ((start exEnv racy exWorld.mem own).after σ) :=
  ⟨[true, true, true], true, false, 20, by decide, rfl, .inl rfl⟩

example (own : Bool → Own G) (σ : List Bool) (hσ : 208 ≤ σ.count false) : ∃ r, ((start exEnv racy exWorld.mem own).after σ).prog false = .done r :=
  C79_wait_free exEnv racy _ own false (racy_atMost false) σ hσ

/-- The bound on the number of calls is needed: without turns, a thread is not finished. -/
example (own : Bool → Own G) (n : Nat) (r : Res Unit) : ((start exEnv racy exWorld.mem own).after (List.replicate n true)).prog false ≠ .done r := by
  have : ((start exEnv racy exWorld.mem own).after (List.replicate n true)).prog false = (start exEnv racy exWorld.mem own).prog false := by
    generalize start exEnv racy exWorld.mem own = S
    induction n generalizing S with
    | zero => rfl
    | succ n ih => exact ih (S.step true)
  rw [this]
  nofun

end
end Verif.Props
