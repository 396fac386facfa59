/-!
# The conditional operator for operands of one class type

`b ? E1 : E2`, where both operands have the class type `T` or `const T` ([expr.cond]/4-7), as operand of `return` in a function with result type
`T`. `volatile` is left out.
-/

namespace Verif.Spec.Cond

inductive Cat where
  | lvalue | xvalue | prvalue
deriving DecidableEq, Repr

/-- An expression of type `T` or `const T`. -/
structure Expr where
  const : Bool
  cat : Cat
deriving DecidableEq, Repr

/-- [expr.cond]/4.1 demands that a reference "must bind directly to an lvalue" (C++17) respectively "to a glvalue" (C++20). -/
inductive Wording where
  | lvalue | glvalue
deriving DecidableEq, Repr

/-- How the result object of the function is initialised. -/
inductive Init where
  /-- the prvalue initialises it directly, [dcl.init]/17.6.1 -/
  | elided
  | copied
  | moved
  /-- a temporary is made of the prvalue, and the result is copied from it -/
  | tempCopied
  /-- a temporary is made of the prvalue, and the result is moved from it -/
  | tempMoved
deriving DecidableEq, Repr

/-- Initialisation from an expression, as in `return e;`. A const xvalue selects the copy constructor. -/
def Expr.init (e : Expr) : Init :=
  match e.cat with
  | .prvalue => .elided
  | .lvalue => .copied
  | .xvalue => if e.const then .copied else .moved

/-- The type of `e` is not more qualified than `const`. -/
def Expr.le (e : Expr) (const : Bool) : Bool := !e.const || const

/-- An lvalue reference to (const) `T` binds directly to `e`, [dcl.init.ref]. -/
def bindsL (w : Wording) (e : Expr) (const : Bool) : Bool :=
  e.le const && match e.cat with
    | .lvalue => true
    | .xvalue => w == .glvalue && const
    | .prvalue => false

/-- An rvalue reference to (const) `T` binds directly to `e`, [dcl.init.ref]. -/
def bindsR (e : Expr) (const : Bool) : Bool := e.le const && e.cat != .lvalue

inductive Target where
  | lref | rref | value
deriving DecidableEq, Repr

/-- [expr.cond]/4.1-4.3: the target of the implicit conversion of `e` to the type of `other`, if it can be formed. -/
def target (w : Wording) (e other : Expr) : Option Target :=
  let value := if e.le other.const then some Target.value else none
  match other.cat with
  | .lvalue => if bindsL w e other.const then some .lref else value
  | .xvalue => if bindsR e other.const then some .rref else value
  | .prvalue => value

/-- An operand after the conversion. -/
inductive Operand where
  /-- the operand, possibly through a reference: an expression of this type and category -/
  | expr (e : Expr)
  /-- a prvalue, whose object is initialised from the operand in this way -/
  | made (i : Init)
  /-- an xvalue that denotes a temporary object, made of a prvalue -/
  | temp (const : Bool)
deriving DecidableEq, Repr

def convert (e : Expr) (const : Bool) : Target → Operand
  | .lref => .expr ⟨const, .lvalue⟩
  | .rref => if e.cat = .prvalue then .temp const else .expr ⟨const, .xvalue⟩
  | .value => .made e.init

/-- [expr.cond]/4: if the types differ, one operand is converted to the type of the other one; it is ill-formed if both conversions can
be formed ([expr.cond]/4) or none ([expr.cond]/6). -/
def operands (w : Wording) (e₁ e₂ : Expr) : Option (Operand × Operand) :=
  if e₁.const = e₂.const then some (.expr e₁, .expr e₂)
  else match target w e₁ e₂, target w e₂ e₁ with
    | some t, none => some (convert e₁ e₂.const t, .expr e₂)
    | none, some t => some (.expr e₁, convert e₂ e₁.const t)
    | _, _ => none

/-- [expr.cond]/5-7: if both operands now are glvalues of the same category, the result is such a glvalue, and the object is initialised from
it; otherwise the result is a prvalue, and the object is initialised from the chosen operand. Both is the same. -/
def Operand.init : Operand → Init
  | .expr e => e.init
  | .made i => i
  | .temp const => if const then .tempCopied else .tempMoved

/-- How `return b ? E1 : E2;` initialises the result if `b` is true, and if it is false. -/
def returned (w : Wording) (e₁ e₂ : Expr) : Option (Init × Init) :=
  (operands w e₁ e₂).map fun o => (o.1.init, o.2.init)

/-- The constructors that a type has. -/
structure Ctors where
  copy : Bool
  move : Bool
deriving DecidableEq, Repr

def Init.possible (c : Ctors) : Init → Bool
  | .elided => true
  | .copied | .tempCopied => c.copy
  | .moved | .tempMoved => c.move

/-- A function needs the constructors of all its branches to compile. -/
def compiles (c : Ctors) (r : Init × Init) : Option (Init × Init) :=
  if r.1.possible c && r.2.possible c then some r else none

/-! ## What the standard prescribes -/

/-- [optional.monadic] `or_else`: for modifiable rvalues (`rv`), if the payload is `move_constructible`,
`if (*this) return std::move(*this); else return std::forward<F>(f)();`; otherwise, if it is `copy_constructible`,
`if (*this) return *this; else return std::forward<F>(f)();`. `ret`: the call of `f`. -/
def stdOrElse (c : Ctors) (rv : Bool) (ret : Expr) : Option (Init × Init) :=
  if rv then (if c.move then compiles c (.moved, ret.init) else none)
  else if c.copy then compiles c (.copied, ret.init) else none

/-- [optional.observe] `value_or` (C++17 to C++23): for modifiable rvalues (`rv`)
`return has_value() ? std::move(**this) : static_cast<T>(std::forward<U>(v));`, otherwise `return has_value() ? **this : static_cast<T>(...)`.
`pc`: `T` is const. The second operand has the type of the first one. The payload must be copy constructible respectively move
constructible, the latter from a const rvalue if `T` is const. -/
def stdValueOr (c : Ctors) (pc rv : Bool) : Option (Init × Init) :=
  if rv && !pc then compiles c (.moved, .elided) else compiles c (.copied, .elided)

end Verif.Spec.Cond
