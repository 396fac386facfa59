import Verif.Model.Reentrant

/-!
# Reachable worlds

The states from which the theorems about single calls start: everything that legal calls and legal programs can leave behind.
-/

namespace Verif.Model
open Verif.Spec (SWorld specOp specProg)
variable {V G : Type}

/-- What C62 leaves out: see `Spec.Re.Limits`. Checks of the engagement at the end of assignments, copies and moves exist only in
builds with asserts. -/
def exclusions (Γ : Env V G) : Spec.Re.Limits := ⟨true, fun x => !(Γ x).cfg.ndebug⟩

/-- Legal calls and programs, one after the other, have led from program start to the world `w`, and for `std::optional` to the state
`sw`. Legal are those that type-check, that have a meaning for `std::optional`, that store no reserved value, and that are not
left out as `StepOK` (of calls) or `exclusions` (of programs) say. In a program, user code may call the library again at any time. Calls and
programs may end with an exception. -/
inductive ReachAs (Γ : Env V G) : World V G → SWorld V G → Prop
  | init (g : G) : ReachAs Γ (.init g) (.init g)
  | call {w sw sw' r} (op : Op V G) : ReachAs Γ w sw → OpOK Γ op → specOp (fun x => (Γ x).ops) op sw = (r, sw') → r ≠ .undef →
      NoReserved Γ sw'.trace → StepOK op r → ReachAs Γ (execOp Γ op w).2 sw'
  | program {w sw sw'} {α : Type} {r} (p : Prog V G α) : ReachAs Γ w sw → ProgOK Γ p →
      specProg (fun x => (Γ x).ops) (exclusions Γ) [] p sw = (r, sw') → r ≠ .undef → NoReserved Γ sw'.trace →
      ReachAs Γ (runProg Γ p w).2 sw'

/-- Worlds that the library can reach by legal calls and legal programs. -/
def Reach (Γ : Env V G) (w : World V G) : Prop := ∃ sw, ReachAs Γ w sw

end Verif.Model
