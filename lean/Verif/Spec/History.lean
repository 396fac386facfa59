import Verif.Spec.StdOptional

/-!
# Histories: what a program can do with optionals

`Op` lists the calls of the public interface. `specOp` says what `std::optional` does, `specRun` runs a history. A throwing
operation is caught by the caller, the history goes on.
-/

namespace Verif

/-- Calls of the public interface. `x`, `y`, `dst` name optional objects. -/
inductive Op (V G : Type) where
  /-- `optional x;`, `optional x(std::nullopt);` -/
  | ctorDefault (x : Nat)
  /-- `optional x(std::in_place, args...)`, `optional x(arg)`, `auto x = make_optional(...)` -/
  | ctorInPlace (x : Nat) (a : Arg V G)
  /-- `optional x(y);` -/
  | ctorCopy (x y : Nat)
  /-- `optional x(std::move(y));` -/
  | ctorMove (x y : Nat)
  /-- `x` goes out of scope -/
  | dtor (x : Nat)
  | reset (x : Nat)
  /-- `x = std::nullopt;` -/
  | assignNullopt (x : Nat)
  /-- `x = arg;` through `operator=(U&&)` -/
  | assignVal (x : Nat) (a : AArg V G)
  /-- `x = arg;` for scalars, through a temporary `tmp` -/
  | assignScalar (x tmp : Nat) (a : Arg V G)
  /-- `x = y;` -/
  | assignCopy (x y : Nat)
  /-- `x = std::move(y);` -/
  | assignMove (x y : Nat)
  | emplace (x : Nat) (a : Arg V G)
  | swap (x y : Nat)
  | hasValue (x : Nat)
  /-- `*x`, `x->` -/
  | deref (x : Nat)
  | value (x : Nat)
  | valueOr (rv : Bool) (x : Nat) (d : G → Except Exn V × G)
  /-- user code writes through `*x`, `x->`, or `x.value()` -/
  | modify (x : Nat) (f : V → G → Option Exn × V × G)
  | andThen (x dst : Nat) (f : V → G → Except Exn (Option V) × V × G)
  /-- `nt`: whether the payload of the result is nothrow constructible from the results of `f` -/
  | transform (nt : Bool) (x dst : Nat) (f : V → G → Except Exn V × V × G)
  | orElse (rv : Bool) (x dst : Nat) (f : G → Except Exn (Option V) × G)

namespace Spec
variable {V G : Type}

/-- `ops x` are the payload operations of variable `x`. -/
def specOp (ops : Nat → Ops V G) : Op V G → SM V G (Obs V)
  | .ctorDefault x => do ctorDefault x; SM.pure .unit
  | .ctorInPlace x a => do ctorInPlace (ops x) x a; SM.pure .unit
  | .ctorCopy x y => do ctorCopy (ops x) x y; SM.pure .unit
  | .ctorMove x y => do ctorMove (ops x) x y; SM.pure .unit
  | .dtor x => do dtor (ops x) x; SM.pure .unit
  | .reset x => do reset (ops x) x; SM.pure .unit
  | .assignNullopt x => do reset (ops x) x; SM.pure .unit
  | .assignVal x a => do assignVal (ops x) x a; SM.pure .unit
  | .assignScalar x tmp a => do assignViaTemp (ops x) (ops tmp) x tmp a; SM.pure .unit
  | .assignCopy x y => do assignCopy (ops x) x y; SM.pure .unit
  | .assignMove x y => do assignMove (ops x) x y; SM.pure .unit
  | .emplace x a => do let v ← emplace (ops x) x a; SM.pure (.val v)
  | .swap x y => do swap (ops x) x y; SM.pure .unit
  | .hasValue x => do let b ← hasValue x; SM.pure (.bool b)
  | .deref x => do let v ← deref x; SM.pure (.val v)
  | .value x => do let v ← value x; SM.pure (.val v)
  | .valueOr rv x d => do let v ← valueOr (ops x) rv x d; SM.pure (.val v)
  | .modify x f => do modify x f; SM.pure .unit
  | .andThen x dst f => do andThen x dst f; SM.pure .unit
  | .transform _ x dst f => do transform x dst f; SM.pure .unit
  | .orElse rv x dst f => do orElse (ops x) rv x dst f; SM.pure .unit

/-- Run a history; `none` if some call violates its preconditions. -/
def specRun (ops : Nat → Ops V G) : List (Op V G) → SWorld V G → Option (List (SRes (Obs V)) × SWorld V G)
  | [], w => some ([], w)
  | op :: rest, w =>
    match specOp ops op w with
    | (.undef, _) => none
    | (r, w') =>
      match specRun ops rest w' with
      | some (rs, w'') => some (r :: rs, w'')
      | none => none

/-- Program start. -/
def SWorld.init (g : G) : SWorld V G := ⟨fun _ => none, g, []⟩

end Spec
end Verif
