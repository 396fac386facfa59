import Verif.Spec.History

/-!
# Which optionals a call may modify

Per call: its target, plus optionals whose payload is handed to user code as a modifiable or movable reference.
-/

namespace Verif
variable {V G : Type}

def Arg.writes : Arg V G → List Nat
  | .moveOf y => [y]
  | _ => []

def AArg.writes : AArg V G → List Nat
  | .moveOf y => [y]
  | _ => []

def Op.writes : Op V G → List Nat
  | .ctorDefault x => [x]
  | .ctorInPlace x a => x :: a.writes
  | .ctorCopy x _ => [x]
  | .ctorMove x y => [x, y]
  | .dtor x => [x]
  | .reset x => [x]
  | .assignNullopt x => [x]
  | .assignVal x a => x :: a.writes
  | .assignScalar x tmp a => x :: tmp :: a.writes
  | .assignCopy x _ => [x]
  | .assignMove x y => [x, y]
  | .emplace x a => x :: a.writes
  | .swap x y => [x, y]
  | .hasValue _ => []
  | .deref _ => []
  | .value _ => []
  | .valueOr rv x _ => if rv then [x] else []
  | .modify x _ => [x]
  | .andThen x dst _ => [x, dst]
  | .transform _ x dst _ => [x, dst]
  | .orElse rv x dst _ => if rv then [x, dst] else [dst]

/-- Optionals that a call brings into existence or destroys. -/
def Op.lifetimes : Op V G → List Nat
  | .ctorDefault x | .ctorInPlace x _ | .ctorCopy x _ | .ctorMove x _ | .dtor x => [x]
  | .assignScalar _ tmp _ => [tmp]
  | .andThen _ dst _ | .transform _ _ dst _ | .orElse _ _ dst _ => [dst]
  | _ => []

/-- Optionals that a call may engage or disengage. -/
def Op.remakes : Op V G → List Nat
  | .ctorDefault x | .ctorInPlace x _ | .ctorCopy x _ | .ctorMove x _ | .dtor x | .reset x | .assignNullopt x
  | .assignVal x _ | .assignCopy x _ | .assignMove x _ | .emplace x _ => [x]
  | .assignScalar x tmp _ => [x, tmp]
  | .swap x y => [x, y]
  | .andThen _ dst _ | .transform _ _ dst _ | .orElse _ _ dst _ => [dst]
  | .hasValue _ | .deref _ | .value _ | .valueOr .. | .modify .. => []

end Verif
