import Verif.Model.Handover
import Verif.Spec.Threads
import Verif.Spec.WellTyped
import Verif.Spec.History

/-!
# Handing over optionals: what is required, and what is promised
-/

namespace Verif.Spec
open Verif.Model
variable {T V G α : Type} {P : Type u}

/-! ## What is required -/

/-- Two sections may run at the same time: neither modifies what the other uses. -/
def Apart (R W R' W' : Nat → Prop) : Prop := ∀ x, (W x → ¬R' x ∧ ¬W' x) ∧ (W' x → ¬R x ∧ ¬W x)

/-- What may happen in state `S`: an idle thread may begin a section that keeps to its footprint and may run at the same time as all
running sections; threads communicate outside of sections. -/
def Permitted (Within : (Nat → Prop) → (Nat → Prop) → P → Prop) (S : Sharing T V G α) : Turn T G P → Prop
  | .enter t p R W => S.busy t = none ∧ Within R W p ∧ ∀ u s, S.busy u = some s → Apart R W s.R s.W
  | .step _ => True
  | .leave _ => True
  | .talk t u _ => S.busy t = none ∧ S.busy u = none

/-- Every turn is permitted when it happens. -/
def Disciplined [DecidableEq T] (Within : (Nat → Prop) → (Nat → Prop) → P → Prop) (code : P → Steps.M V G α) :
    Sharing T V G α → List (Turn T G P) → Prop
  | _, [] => True
  | S, e :: es => Permitted Within S e ∧ Disciplined Within code (S.turn code e) es

/-- No section is running. -/
def AllIdle (S : Sharing T V G α) : Prop := ∀ t, S.busy t = none

/-- [intro.races]: two sections are about to access the same optional, one of them for writing. -/
def RaceIn (S : Sharing T V G α) : Prop :=
  ∃ t u s s' x, t ≠ u ∧ S.busy t = some s ∧ S.busy u = some s' ∧ s.prog.writes = some x ∧ (s'.prog.reads = some x ∨ s'.prog.writes = some x)

/-! ## The machine in which sections are atomic -/

/-- Its state. -/
structure Atomic (T V G α : Type) where
  mem : Nat → Option (Storage V)
  own : T → Own G
  results : T → List (Res α)

/-- A section is executed in one go when it begins; `whole` says what its program does then. -/
def Atomic.turn [DecidableEq T] (whole : P → M V G α) (A : Atomic T V G α) : Turn T G P → Atomic T V G α
  | .enter t p _ _ =>
    let (r, w) := whole p ⟨A.mem, (A.own t).nextObj, (A.own t).log, (A.own t).user⟩
    { mem := w.mem
      own := fun u => if u = t then ⟨w.nextObj, w.log, w.user⟩ else A.own u
      results := fun u => if u = t then A.results t ++ [r] else A.results u }
  | .step _ => A
  | .leave _ => A
  | .talk t u f => { A with own := fun v => if v = t then { A.own t with user := f (A.own t).user (A.own u).user } else A.own v }

/-- The state after a list of turns. -/
def Atomic.turns [DecidableEq T] (whole : P → M V G α) (A : Atomic T V G α) : List (Turn T G P) → Atomic T V G α
  | [] => A
  | e :: es => (A.turn whole e).turns whole es

/-! ## The same with `std::optional` -/

/-- Optionals and user states of all threads, and the outcomes of the calls of each section. -/
structure SSharing (T V G : Type) where
  vars : Nat → Option (Option V)
  user : T → G
  results : T → List (List (SRes (Obs V)))

/-- The programs are histories; they are legal where they begin. -/
inductive LegalTurns [DecidableEq T] (Γ : Env V G) : SSharing T V G → List (Turn T G (List (Op V G))) → SSharing T V G → Prop where
  | nil (s : SSharing T V G) : LegalTurns Γ s [] s
  | enter {s s' : SSharing T V G} {es : List (Turn T G (List (Op V G)))} {h : List (Op V G)} {rs : List (SRes (Obs V))} {sw : SWorld V G} (t : T)
      (R W : Nat → Prop) (ok : ∀ op ∈ h, OpOK Γ op)
      (run : specRun (fun x => (Γ x).ops) h ⟨s.vars, s.user t, []⟩ = some (rs, sw)) (free : NoReserved Γ sw.trace)
      (steps : ∀ p ∈ h.zip rs, StepOK p.1 p.2)
      (rest : LegalTurns Γ ⟨sw.vars, fun u => if u = t then sw.user else s.user u,
        fun u => if u = t then s.results t ++ [rs] else s.results u⟩ es s') :
      LegalTurns Γ s (.enter t h R W :: es) s'
  | step {s s' : SSharing T V G} {es : List (Turn T G (List (Op V G)))} (t : T) (rest : LegalTurns Γ s es s') : LegalTurns Γ s (.step t :: es) s'
  | leave {s s' : SSharing T V G} {es : List (Turn T G (List (Op V G)))} (t : T) (rest : LegalTurns Γ s es s') : LegalTurns Γ s (.leave t :: es) s'
  | talk {s s' : SSharing T V G} {es : List (Turn T G (List (Op V G)))} (t u : T) (f : G → G → G)
      (rest : LegalTurns Γ { s with user := fun v => if v = t then f (s.user t) (s.user u) else s.user v } es s') :
      LegalTurns Γ s (.talk t u f :: es) s'

end Verif.Spec
