/-!
# User-side vocabulary shared by the specification and the model

Nothing in this file describes the library: it describes the *payload type* and the user's callables, i.e. the inputs
over which every property quantifies.

* `V` is the type of payload values, `G` the global state of the user program (arbitrary; equality of the
  final `G` for all `Ops` means that user code is called in the same order with the same arguments).
* Simplification: user code does not use optionals (user code that does is the subject of C59 and C62), and payload
  destructors do not throw (the library calls them from `noexcept` functions, optional.h:1018).
* Simplification: copying does not modify its (const) source.
-/

namespace Verif

/-- Exceptions: user exceptions carry an arbitrary tag; `std::bad_optional_access`. -/
inductive Exn where
  | user (tag : Nat)
  | badOptionalAccess
deriving DecidableEq, Repr

/-- The special operations of a payload type.
`moveCtor`/`moveAssign`/`swap` also return what they leave behind in the moved-from/swapped operand, even when they
throw. `self…` are the aliasing variants (`x = x`, `x = std::move(x)`, `swap(x, x)`). -/
structure Ops (V G : Type) where
  copyCtor : V → G → Except Exn V × G
  /-- result, source afterwards -/
  moveCtor : V → G → Except Exn V × V × G
  /-- destination, source ↦ error, destination afterwards -/
  copyAssign : V → V → G → Option Exn × V × G
  /-- destination, source ↦ error, destination afterwards, source afterwards -/
  moveAssign : V → V → G → Option Exn × V × V × G
  selfCopyAssign : V → G → Option Exn × V × G
  selfMoveAssign : V → G → Option Exn × V × G
  swap : V → V → G → Option Exn × V × V × G
  selfSwap : V → G → Option Exn × V × G
  dtor : V → G → G
  /-- `std::is_nothrow_copy_constructible_v` -/
  nothrowCopyCtor : Bool
  /-- `std::is_nothrow_move_constructible_v` (false if there is no move constructor at all) -/
  nothrowMoveCtor : Bool
  /-- `std::is_nothrow_move_assignable_v` -/
  nothrowMoveAssign : Bool
  /-- `std::is_nothrow_swappable_v` -/
  nothrowSwap : Bool

/-- An operation declared `noexcept` does not throw (otherwise the program would have been terminated by the payload
type itself). -/
structure Ops.Lawful {V G : Type} (o : Ops V G) : Prop where
  copyCtor : o.nothrowCopyCtor = true → ∀ v g, ∃ v', (o.copyCtor v g).1 = .ok v'
  moveCtor : o.nothrowMoveCtor = true → ∀ v g, ∃ v', (o.moveCtor v g).1 = .ok v'
  moveAssign : o.nothrowMoveAssign = true → ∀ d s g, (o.moveAssign d s g).1 = none
  selfMoveAssign : o.nothrowMoveAssign = true → ∀ v g, (o.selfMoveAssign v g).1 = none
  swap : o.nothrowSwap = true → ∀ a b g, (o.swap a b g).1 = none
  selfSwap : o.nothrowSwap = true → ∀ v g, (o.selfSwap v g).1 = none

/-- Constructor arguments: either something unrelated to any optional (`ext`, an arbitrary user constructor call,
with its `std::is_nothrow_constructible_v`), or a reference to the payload of optional `y`, as lvalue (`*y`) or as
rvalue (`std::move(*y)`). -/
inductive Arg (V G : Type) where
  | ext (nothrow : Bool) (ctor : G → Except Exn V × G)
  | copyOf (y : Nat)
  | moveOf (y : Nat)

/-- Right hand sides of a value assignment `o = arg`. For `ext`, the payload's assignment from that argument and the
payload's construction from it are independent user functions. -/
inductive AArg (V G : Type) where
  | ext (assign : V → G → Option Exn × V × G) (nothrow : Bool) (ctor : G → Except Exn V × G)
  | copyOf (y : Nat)
  | moveOf (y : Nat)

/-- The construction that `o = arg` performs if `o` is empty. -/
def AArg.toArg {V G : Type} : AArg V G → Arg V G
  | .ext _ nt c => .ext nt c
  | .copyOf y => .copyOf y
  | .moveOf y => .moveOf y

/-- What a caller can see of a completed operation. -/
inductive Obs (V : Type) where
  | unit
  | bool (b : Bool)
  | val (v : V)
deriving DecidableEq, Repr

end Verif
