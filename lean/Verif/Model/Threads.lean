import Verif.Model.History
import Verif.Model.FreeSwap
import Verif.Model.Compare

/-!
# Threads

Several threads that call functions of the library on the same memory. The functions are those of `Model/Flag`, `Model/Storage`,
`Model/Optional`, `Model/FreeSwap` and `Model/Compare`, compiled for the machine in single steps (`Model/Steps`), such that other
threads can run between any two accesses to the memory.

Simplifications: an access concerns the whole storage of one optional; memory is sequentially consistent (sufficient, since
programs without data races cannot tell the difference); every thread has a user state of its own, i.e. the user's code is assumed
not to communicate between threads; object ids and the record of lifetimes, which exist in the model only, are kept per thread.
-/

namespace Verif.Model
open Verif.Spec (RelOp Cmp)

/-! ## Calls on const optionals that `Op` does not distinguish -/

section
variable {V G : Type} (Γ : Env V G)

twice
/-- `and_then(f) const &` and `const &&`, optional.h:1694-1704, 1720-1730: like `andThen`, but `f` gets a reference to const. The
returned optional is `dst`. -/
def andThenConst (x dst : Nat) (f : V → G → Except Exn (Option V) × G) : M V G Unit := do
  if ← hasValue Γ x then do
    let v ← deref Γ x
    let r ← userCall (f v)
    materialize Γ dst r
  else
    defaultCtor Γ dst

twice
/-- `transform(f) const &` and `const &&`, optional.h:1756-1773, 1796-1814: like `transform`, but `f` gets a reference to const. -/
def transformConst (nt : Bool) (x dst : Nat) (f : V → G → Except Exn V × G) : M V G Unit := do
  if ← hasValue Γ x then do
    assertHas Γ x true
    storageFunctionCtor Γ dst nt (do
      let v ← getPayload x
      userCall (f v))
  else
    defaultCtor Γ dst

end

/-! ## Calls of the library and programs made of them -/

/-- A call of a function of the library, with the type of its result. (optional.h:1391-1855, 2398-2805) -/
inductive LibCall (V G : Type) : Type → Type 1 where
  /-- the calls of `Op` -/
  | op (o : Op V G) : LibCall V G (Obs V)
  | andThenConst (x dst : Nat) (f : V → G → Except Exn (Option V) × G) : LibCall V G Unit
  | transformConst (nt : Bool) (x dst : Nat) (f : V → G → Except Exn V × G) : LibCall V G Unit
  /-- the free function `swap`, as selected; `tmp` is the temporary of the generic `std::swap` -/
  | freeSwap (x y tmp : Nat) (f : SwapFn) : LibCall V G Unit
  /-- comparison of two tiny optionals -/
  | rel (x y : Nat) (op : RelOp) (cmp : RelOp → UserCmp G V V Bool) : LibCall V G Bool
  | spaceship (x y : Nat) (cmp : UserCmp G V V Cmp) : LibCall V G Cmp
  /-- comparison with a `std::optional`, on either side -/
  | relStd {U : Type} (x : Nat) (o : Option U) (op : RelOp) (cmp : RelOp → UserCmp G V U Bool) : LibCall V G Bool
  | stdRel {U : Type} (x : Nat) (o : Option U) (op : RelOp) (cmp : RelOp → UserCmp G U V Bool) : LibCall V G Bool
  | spaceshipStd {U : Type} (x : Nat) (o : Option U) (cmp : UserCmp G V U Cmp) : LibCall V G Cmp
  /-- comparison with `std::nullopt` -/
  | relNullopt (x : Nat) (op : RelOp) : LibCall V G Bool
  | nulloptRel (x : Nat) (op : RelOp) : LibCall V G Bool
  | spaceshipNullopt (x : Nat) : LibCall V G Cmp
  /-- comparison with a value -/
  | relValue {U : Type} (x : Nat) (u : U) (op : RelOp) (cmp : RelOp → UserCmp G V U Bool) : LibCall V G Bool
  | valueRel {U : Type} (x : Nat) (u : U) (op : RelOp) (cmp : RelOp → UserCmp G U V Bool) : LibCall V G Bool
  | spaceshipValue {U : Type} (x : Nat) (u : U) (cmp : UserCmp G V U Cmp) : LibCall V G Cmp
  /-- `std::hash`, with results in `Nat` -/
  | hash (x : Nat) (h : V → G → Except Exn Nat × G) : LibCall V G Nat

twice
/-- The code that a call runs. (optional.h:1391-1855, 2398-2805) -/
def execCall {V G : Type} (Γ : Env V G) {α : Type} : LibCall V G α → M V G α
  | .op o => execOp Γ o
  | .andThenConst x dst f => andThenConst Γ x dst f
  | .transformConst nt x dst f => transformConst Γ nt x dst f
  | .freeSwap x y tmp f => freeSwap Γ x y tmp f
  | .rel x y ρ cmp => optRel (tinyOpt Γ x) (tinyOpt Γ y) ρ cmp
  | .spaceship x y cmp => optSpaceship (tinyOpt Γ x) (tinyOpt Γ y) cmp
  | .relStd x o ρ cmp => optRel (tinyOpt Γ x) (stdOpt o) ρ cmp
  | .stdRel x o ρ cmp => optRel (stdOpt o) (tinyOpt Γ x) ρ cmp
  | .spaceshipStd x o cmp => optSpaceship (tinyOpt Γ x) (stdOpt o) cmp
  | .relNullopt x ρ => relNullopt Γ x ρ
  | .nulloptRel x ρ => nulloptRel Γ x ρ
  | .spaceshipNullopt x => spaceshipNullopt Γ x
  | .relValue x u ρ cmp => relValue Γ x u ρ cmp
  | .valueRel x u ρ cmp => valueRel Γ x u ρ cmp
  | .spaceshipValue x u cmp => spaceshipValue Γ x u cmp
  | .hash x h => hashOf Γ x h

/-- Run and catch the exception, if any. (around calls of optional.h:1391-1855) -/
def attempt {V G α : Type} (m : M V G α) : M V G (Except Exn α) := fun w =>
  match m w with
  | (.ok a, w') => (.ok (.ok a), w')
  | (.throw e, w') => (.ok (.error e), w')
  | (.abort a, w') => (.abort a, w')

/-- Like `Model.attempt`. (around calls of optional.h:1391-1855) -/
def Steps.attempt {V G α : Type} (m : Steps.M V G α) : Steps.M V G (Except Exn α) :=
  m.andThen fun r =>
    match r with
    | .ok a => .done (.ok (.ok a))
    | .throw e => .done (.ok (.error e))
    | .abort a => .done (.abort a)

/-- Like `Model.attempt`. (around calls of optional.h:1391-1855) -/
def Any.attempt {V G α : Type} (m : Any.M V G α) : Any.M V G (Except Exn α) := fun w =>
  match m w with
  | (.ok a, w') => (.ok (.ok a), w')
  | (.throw e, w') => (.ok (.error e), w')
  | (.abort a, w') => (.abort a, w')

/-- What a thread does: calls of the library and its own computations, depending on previous results. Exceptions of the library
can be caught. (calls of optional.h:1391-1855) -/
inductive TProg (V G α : Type) : Type 1 where
  | ret (a : α)
  | call {β : Type} (c : LibCall V G β) (k : Except Exn β → TProg V G α)
  | own {β : Type} (f : G → β × G) (k : β → TProg V G α)

twice
/-- The code that a thread runs. (calls of optional.h:1391-1855) -/
def execProg {V G α : Type} (Γ : Env V G) : TProg V G α → M V G α
  | .ret a => pure a
  | .call c k => do
    let r ← attempt (execCall Γ c)
    execProg Γ (k r)
  | .own f k => do
    let b ← userPure f
    execProg Γ (k b)

/-! ## Interleaving -/

/-- What belongs to a single thread. (everything but `mStorage`, optional.h:1147) -/
structure Own (G : Type) where
  nextObj : Nat
  log : List Event
  user : G

/-- The world as seen by a thread. (everything but `mStorage`, optional.h:1147) -/
def Own.view {V G : Type} (o : Own G) (mem : Nat → Option (Storage V)) : World V G := ⟨mem, o.nextObj, o.log, o.user⟩

/-- The part of the world that belongs to the thread. (everything but `mStorage`, optional.h:1147) -/
def World.own {V G : Type} (w : World V G) : Own G := ⟨w.nextObj, w.log, w.user⟩

/-- The state of all threads (named by `T`) and of the common memory. (the common memory is that of the `mStorage`, optional.h:1147) -/
structure Threads (T V G α : Type) where
  mem : Nat → Option (Storage V)
  /-- what is left to do -/
  prog : T → Steps.M V G α
  own : T → Own G

/-- Thread `t` executes its next step. (of the functions of optional.h:915-1855) -/
def Threads.step {T V G α : Type} [DecidableEq T] (S : Threads T V G α) (t : T) : Threads T V G α :=
  let (p, w) := (S.prog t).step ((S.own t).view S.mem)
  ⟨w.mem, fun u => if u = t then p else S.prog u, fun u => if u = t then w.own else S.own u⟩

/-- The state after the threads in the schedule have been given their turns. (of the functions of optional.h:915-1855) -/
def Threads.after {T V G α : Type} [DecidableEq T] (S : Threads T V G α) : List T → Threads T V G α
  | [] => S
  | t :: rest => (S.step t).after rest

end Verif.Model
