import Verif.Spec.History

/-!
# When references to the contained value become invalid

Independent of the library: the calls of `std::optional` that end the lifetime of the contained value.
[optional.assign], [optional.swap], [optional.mod], [optional.dtor] say for each function whether it assigns to the contained value, or
destroys it. Pointers and references to the contained value stay valid until it is destroyed.
-/

namespace Verif.Spec
variable {V G : Type}

/-- The call `op` ends the lifetime of the value contained in `x`. `vars` is the state before the call (`some none`: an empty optional),
`threw` tells whether it left by an exception.
Destruction, `reset`, `= nullopt` and `emplace` always do. Assignment from an optional does if that optional is empty. `swap` does if the
other optional is empty, except if moving the value to there failed. All other calls do not. -/
def Ends (vars : Nat → Option (Option V)) (threw : Bool) (x : Nat) : Op V G → Prop
  | .dtor z | .reset z | .assignNullopt z | .emplace z _ => z = x
  | .assignCopy z y | .assignMove z y => z = x ∧ vars y = some none
  | .swap z y => threw = false ∧ ((z = x ∧ vars y = some none) ∨ (y = x ∧ vars z = some none))
  | _ => False

def SRes.threw {α : Type} : SRes α → Bool
  | .throw _ => true
  | _ => false

/-- The value contained in `x` is not destroyed by any call of the history that starts in the state `sw`. -/
def Survives (ops : Nat → Ops V G) (x : Nat) : List (Op V G) → SWorld V G → Prop
  | [], _ => True
  | op :: rest, sw => ¬ Ends sw.vars (specOp ops op sw).1.threw x op ∧ Survives ops x rest (specOp ops op sw).2

end Verif.Spec
