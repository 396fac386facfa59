import Verif.Model.Handover

/-!
# Threads with weak memory

As `Model/Handover`, but every thread has its own picture of the memory, and its steps work on this picture. What a thread writes is
published optional by optional at some time; a thread looks at what is published when it begins a section.
-/

namespace Verif.Model
variable {T V G α : Type}

/-- The state of all threads; `mem` is what has been published. (the memory is that of the `mStorage`, optional.h:1147) -/
structure Weak (T V G α : Type) extends Sharing T V G α where
  /-- the memory as the thread sees it -/
  cache : T → Nat → Option (Storage V)

/-- What can happen. (calls of optional.h:1391-1855) -/
inductive WTurn (T V G : Type) (P : Type u) : Type u where
  | turn (e : Turn T G P)
  /-- what thread `t` has written to the optional `x` becomes visible -/
  | publish (t : T) (x : Nat)
  /-- thread `t` sees `c` as the memory of the optional `x` from now on, whatever was written there -/
  | stale (t : T) (x : Nat) (c : Option (Storage V))

/-- What a turn does. (calls of optional.h:1391-1855) -/
def Weak.turn {P : Type u} [DecidableEq T] (code : P → Steps.M V G α) (S : Weak T V G α) : WTurn T V G P → Weak T V G α
  | .turn (.enter t p R W) => { S with busy := upd1 S.busy t (some ⟨code p, R, W⟩), cache := upd1 S.cache t S.mem }
  | .turn (.step t) =>
    match S.busy t with
    | some s =>
      let (q, w) := s.prog.step ((S.own t).view (S.cache t))
      { S with cache := upd1 S.cache t w.mem, own := upd1 S.own t w.own, busy := upd1 S.busy t (some { s with prog := q }) }
    | none => S
  | .turn (.leave t) =>
    match S.busy t with
    | some ⟨.done r, _, _⟩ => { S with busy := upd1 S.busy t none, results := upd1 S.results t (S.results t ++ [r]) }
    | _ => S
  | .turn (.talk t u f) => { S with own := upd1 S.own t ((S.own t).hear f (S.own u).user) }
  | .publish t x => { S with mem := upd1 S.mem x (S.cache t x) }
  | .stale t x c => { S with cache := upd1 S.cache t (upd1 (S.cache t) x c) }

/-- The state after a list of turns. (calls of optional.h:1391-1855) -/
def Weak.turns {P : Type u} [DecidableEq T] (code : P → Steps.M V G α) (S : Weak T V G α) : List (WTurn T V G P) → Weak T V G α
  | [] => S
  | e :: es => (S.turn code e).turns code es

end Verif.Model
