import Lean.Elab.Command

/-!
# Compiling the library code for several machines

The library code is written down once and compiled for up to three machines: `M` (`Model/Machine`), the machine in single steps
`Steps.M` (`Model/Steps`), and the machine with arbitrary flag manipulators `Any.M` (`Model/Any`). In the namespace of a machine,
every name that exists in this namespace refers to it; all other names mean the same for all machines.
-/

namespace Verif.Model
open Lean Elab Command

/-- Compile a command inside of the namespace `ns`. (for the commands `twice` and `thrice`; the functions themselves cite optional.h) -/
def elabInside (ns : Name) (d : Syntax) : CommandElabM Unit := do
  elabCommand (← `(namespace $(mkIdent ns)))
  elabCommand d
  elabCommand (← `(end $(mkIdent ns)))

/-- Compile a definition for `M` and, in the namespace `Steps`, for `Steps.M`. -/
elab "twice " d:command : command => do
  elabCommand d
  elabInside `Steps d

/-- Compile a definition for `M`, `Steps.M` and `Any.M`. -/
elab "thrice " d:command : command => do
  elabCommand d
  elabInside `Steps d
  elabInside `Any d

/-- Compile a definition or theorem as it is and, in the namespace `Any`, for `Any.M`. -/
elab "alsoAny " d:command : command => do
  elabCommand d
  elabInside `Any d

end Verif.Model
