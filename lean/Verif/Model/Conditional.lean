import Verif.Model.Quals
import Verif.Spec.Conditional

/-!
# `return has_value() ? ... : ...` in `value_or` and `or_else` (optional.h:1640, 1651-1652, 1825, 1835, 2258, 2268)

The types and value categories of the operands; which function is selected is in `Model/Quals`.
-/

namespace Verif.Model
open Verif.Spec.Cond

/-- `*this`, `std::move(*this)`, `GetPayload()`, `std::move(GetPayload())`: glvalues. (optional.h:1640, 1651, 1825, 1835, 2258, 2268) -/
def Qual.operand (q : Qual) : Expr := ⟨q.const, if q.rvalue then .xvalue else .lvalue⟩

/-- `std::forward<F>(f)()` for a function that returns `d`: a prvalue unless it returns a reference. (optional.h:1825, 1835, 2258, 2268)
-/
def QDecl.operand (d : QDecl) : Expr :=
  ⟨d.const, match d.ref with | .none => .prvalue | .lref => .lvalue | .rref => .xvalue⟩

/-- `static_cast<std::remove_cv_t<PayloadType>>(std::forward<U>(defaultValue))` (optional.h:1640, 1652). -/
def defaultOperand : Expr := ⟨false, .prvalue⟩

/-- `or_else(f)` (optional.h:1817-1837, 2250-2270) on an object `o`, where `f` returns `ret`: how the result is initialised if there is a value, and if
not. `c`: the constructors of the payload, which are also those of the optional (C38) and decide about the constraints (1819, 1829,
2252, 2262). -/
def orElseInit (w : Wording) (c : Ctors) (o : Qual) (ret : QDecl) : Option (Init × Init) :=
  (selectFn (orElseFns c.copy c.move) o).bind fun f => (f.2.type false f.1.const).bind fun q =>
    (returned w q.operand ret.operand).bind (compiles c)

/-- The static assertions in `value_or`: `is_copy_constructible_v` (optional.h:1634-1636) respectively `is_move_constructible_v` (1646-1648) of the payload
type; a const payload is "move constructible" if it can be copied. -/
def valueOrAsserts (c : Ctors) (pc : Bool) (s : Sig) : Bool := if s.const || pc then c.copy else c.move

/-- `value_or(d)` (optional.h:1630-1653) on an object `o`. `pc`: the payload type is const. -/
def valueOrInit (w : Wording) (c : Ctors) (pc : Bool) (o : Qual) : Option (Init × Init) :=
  (selectFn valueOrFns o).bind fun f => (f.2.type pc f.1.const).bind fun q =>
    if valueOrAsserts c pc f.1 then (returned w q.operand defaultOperand).bind (compiles c) else none

end Verif.Model
