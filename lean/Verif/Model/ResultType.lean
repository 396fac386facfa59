import Verif.Spec.ResultType

/-!
# The expressions in the comparison operators

`Model/Compare.lean` has the comparison operators for payloads whose comparison yields a `bool`. Here it yields anything.
-/

namespace Verif.Model
open Verif.Spec Verif.Spec.Res

/-- The expressions between two optionals, optional.h:2437-2441, 2482-2486, 2527-2530, 2571-2574, 2615-2618, 2659-2662. -/
def betweenExpr : RelOp → E
  | .eq => .and (.flag fun l r => l == r) (.or (.flag fun l _ => !l) .cmp)
  | .ne => .or (.flag fun l r => l != r) (.and (.flag fun l _ => l) .cmp)
  | .lt => .and (.flag fun _ r => r) (.or (.flag fun l _ => !l) .cmp)
  | .le => .or (.flag fun l _ => !l) (.and (.flag fun _ r => r) .cmp)
  | .gt => .and (.flag fun l _ => l) (.or (.flag fun _ r => !r) .cmp)
  | .ge => .or (.flag fun _ r => !r) (.and (.flag fun l _ => l) .cmp)

/-- The expressions of an optional on the left and a value, optional.h:2465, 2510, 2554, 2598, 2642, 2686. -/
def withValueExpr : RelOp → E
  | .eq => .cond (.flag fun l _ => l) .cmp (.lit false)
  | .ne => .cond (.flag fun l _ => l) .cmp (.lit true)
  | .lt => .cond (.flag fun l _ => l) .cmp (.lit true)
  | .le => .cond (.flag fun l _ => l) .cmp (.lit true)
  | .gt => .cond (.flag fun l _ => l) .cmp (.lit false)
  | .ge => .cond (.flag fun l _ => l) .cmp (.lit false)

/-- The expressions of a value and an optional on the right, optional.h:2473, 2518, 2562, 2606, 2650, 2694. -/
def valueWithExpr : RelOp → E
  | .eq => .cond (.flag fun _ r => r) .cmp (.lit false)
  | .ne => .cond (.flag fun _ r => r) .cmp (.lit true)
  | .lt => .cond (.flag fun _ r => r) .cmp (.lit false)
  | .le => .cond (.flag fun _ r => r) .cmp (.lit false)
  | .gt => .cond (.flag fun _ r => r) .cmp (.lit true)
  | .ge => .cond (.flag fun _ r => r) .cmp (.lit true)

end Verif.Model
