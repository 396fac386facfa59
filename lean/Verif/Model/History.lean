import Verif.Model.Optional
import Verif.Spec.History

/-!
# Executing histories on the library model
-/

namespace Verif.Model
variable {V G : Type}

thrice
/-- One call of the public interface, executed by the library code. (the public functions in optional.h:1391-1855) -/
def execOp (Γ : Env V G) : Op V G → M V G (Obs V)
  | .ctorDefault x => do defaultCtor Γ x; pure .unit
  | .ctorInPlace x a => do inPlaceCtor Γ x a; pure .unit
  | .ctorCopy x y => do copyCtor Γ x y; pure .unit
  | .ctorMove x y => do moveCtor Γ x y; pure .unit
  | .dtor x => do dtor Γ x; pure .unit
  | .reset x => do reset Γ x; pure .unit
  | .assignNullopt x => do assignNullopt Γ x; pure .unit
  | .assignVal x a => do assignVal Γ x a; pure .unit
  | .assignScalar x tmp a => do assignScalar Γ x tmp a; pure .unit
  | .assignCopy x y => do copyAssign Γ x y; pure .unit
  | .assignMove x y => do moveAssign Γ x y; pure .unit
  | .emplace x a => do let v ← emplace Γ x a; pure (.val v)
  | .swap x y => do swap Γ x y; pure .unit
  | .hasValue x => do let b ← hasValue Γ x; pure (.bool b)
  | .deref x => do let v ← deref Γ x; pure (.val v)
  | .value x => do let v ← value Γ x; pure (.val v)
  | .valueOr rv x d => do let v ← valueOr Γ rv x d; pure (.val v)
  | .modify x f => do modify Γ x f; pure .unit
  | .andThen x dst f => do andThen Γ x dst f; pure .unit
  | .transform nt x dst f => do transform Γ nt x dst f; pure .unit
  | .orElse rv x dst f => do orElse Γ rv x dst f; pure .unit

alsoAny
/-- Run a history. Exceptions are caught by the caller and recorded; an abort ends the program. (sequences of calls of
optional.h:1391-1855) -/
def run (Γ : Env V G) : List (Op V G) → World V G → List (Res (Obs V)) × World V G
  | [], w => ([], w)
  | op :: rest, w =>
    match execOp Γ op w with
    | (.abort a, w') => ([.abort a], w')
    | (r, w') =>
      let (rs, w'') := run Γ rest w'
      (r :: rs, w'')

end Verif.Model
