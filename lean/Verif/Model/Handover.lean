import Verif.Model.Threads

/-!
# Threads that hand over optionals

Unlike in `Model/Threads`, what a thread may use is not fixed: it executes *sections*, each with a footprint of its own, and between
sections threads communicate. The machine is that of `Model/Steps`, i.e. other threads can run between any two accesses to the memory.

Simplifications: as in `Model/Threads`; the means by which threads wait for each other (mutexes etc.) are not modelled, only the
order in which sections begin and end.
-/

namespace Verif.Model
variable {T V G α : Type}

/-- A section that a thread is executing. (calls of optional.h:1391-1855) -/
structure Running (V G α : Type) where
  /-- what is left to do -/
  prog : Steps.M V G α
  /-- the optionals that the section may read -/
  R : Nat → Prop
  /-- the optionals that the section may use in any way -/
  W : Nat → Prop

/-- The state of all threads and of the common memory. (the common memory is that of the `mStorage`, optional.h:1147) -/
structure Sharing (T V G α : Type) where
  mem : Nat → Option (Storage V)
  own : T → Own G
  /-- the section that a thread is executing, if any -/
  busy : T → Option (Running V G α)
  /-- the results of the sections that have ended -/
  results : T → List (Res α)

/-- What can happen; `P` is the type of the programs of sections. (calls of optional.h:1391-1855) -/
inductive Turn (T G : Type) (P : Type u) : Type u where
  /-- thread `t` begins a section with program `p` that may read the optionals in `R`, and use those in `W` in any way -/
  | enter (t : T) (p : P) (R W : Nat → Prop)
  /-- thread `t` executes the next step of its section -/
  | step (t : T)
  /-- the section of thread `t` ends, if nothing is left to do -/
  | leave (t : T)
  /-- thread `t` learns something from thread `u`, or computes something itself (`t = u`) -/
  | talk (t u : T) (f : G → G → G)

/-- Change the entry of thread `t`. (bookkeeping for calls of optional.h:1391-1855) -/
def upd1 {β : Type} [DecidableEq T] (f : T → β) (t : T) (b : β) : T → β := fun u => if u = t then b else f u

/-- The user state of thread `t` after a `talk`. (user code around calls of optional.h:1391-1855) -/
def Own.hear (o : Own G) (f : G → G → G) (g : G) : Own G := { o with user := f o.user g }

/-- What a turn does; `code` says which steps a program consists of. (calls of optional.h:1391-1855) -/
def Sharing.turn {P : Type u} [DecidableEq T] (code : P → Steps.M V G α) (S : Sharing T V G α) : Turn T G P → Sharing T V G α
  | .enter t p R W => { S with busy := upd1 S.busy t (some ⟨code p, R, W⟩) }
  | .step t =>
    match S.busy t with
    | some s =>
      let (q, w) := s.prog.step ((S.own t).view S.mem)
      { S with mem := w.mem, own := upd1 S.own t w.own, busy := upd1 S.busy t (some { s with prog := q }) }
    | none => S
  | .leave t =>
    match S.busy t with
    | some ⟨.done r, _, _⟩ => { S with busy := upd1 S.busy t none, results := upd1 S.results t (S.results t ++ [r]) }
    | _ => S
  | .talk t u f => { S with own := upd1 S.own t ((S.own t).hear f (S.own u).user) }

/-- The state after a list of turns. (calls of optional.h:1391-1855) -/
def Sharing.turns {P : Type u} [DecidableEq T] (code : P → Steps.M V G α) (S : Sharing T V G α) : List (Turn T G P) → Sharing T V G α
  | [] => S
  | e :: es => (S.turn code e).turns code es

end Verif.Model
