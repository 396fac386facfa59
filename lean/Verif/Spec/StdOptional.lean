import Verif.Spec.Base

/-!
# Specification: `std::optional`

Written from the C++ standard's Effects clauses ([optional.ctor], [optional.assign], [optional.swap], [optional.observe],
[optional.monadic], [optional.mod]). A program state maps every variable to "does not exist" / "empty" / "holds v".
`undef` marks calls whose preconditions are violated (dereferencing an empty optional, using a dead variable, ...).

`trace` is a ghost: it lists every value that the payload of any variable ever takes (including the moved-from
values). It only serves to say "no reserved value is ever stored". Nothing here knows about flags, bytes or sentinels.
-/

namespace Verif.Spec

inductive SRes (α : Type) where
  | ok (a : α)
  | throw (e : Exn)
  | undef
deriving DecidableEq, Repr

structure SWorld (V G : Type) where
  vars : Nat → Option (Option V)
  user : G
  trace : List (Nat × V)

def SM (V G α : Type) : Type := SWorld V G → SRes α × SWorld V G

variable {V G α β : Type}

def SM.pure (a : α) : SM V G α := fun w => (.ok a, w)

def SM.bind (m : SM V G α) (f : α → SM V G β) : SM V G β := fun w =>
  match m w with
  | (.ok a, w') => f a w'
  | (.throw e, w') => (.throw e, w')
  | (.undef, w') => (.undef, w')

instance : Monad (SM V G) where
  pure := SM.pure
  bind := SM.bind

def undef : SM V G α := fun w => (.undef, w)
def throw (e : Exn) : SM V G α := fun w => (.throw e, w)

/-- Call user code that returns a value or throws. -/
def user (f : G → Except Exn α × G) : SM V G α := fun w =>
  match f w.user with
  | (.ok a, g) => (.ok a, { w with user := g })
  | (.error e, g) => (.throw e, { w with user := g })

/-- Variable `x` (which must exist) holds `v` from now on. -/
def put (x : Nat) (v : V) : SM V G Unit := fun w =>
  (.ok (), { w with vars := fun z => if z = x then some (some v) else w.vars z, trace := w.trace ++ [(x, v)] })

/-- Variable `x` is empty from now on. -/
def setEmpty (x : Nat) : SM V G Unit := fun w =>
  (.ok (), { w with vars := fun z => if z = x then some none else w.vars z })

/-- Variable `x` ceases to exist. -/
def remove (x : Nat) : SM V G Unit := fun w =>
  (.ok (), { w with vars := fun z => if z = x then none else w.vars z })

/-- State of an existing variable. -/
def get (x : Nat) : SM V G (Option V) := fun w =>
  match w.vars x with
  | some o => (.ok o, w)
  | none => (.undef, w)

/-- The contained value; precondition: there is one. -/
def getVal (x : Nat) : SM V G V := fun w =>
  match w.vars x with
  | some (some v) => (.ok v, w)
  | _ => (.undef, w)

/-- Precondition: variable `x` does not exist yet. -/
def fresh (x : Nat) : SM V G Unit := fun w =>
  match w.vars x with
  | none => (.ok (), w)
  | some _ => (.undef, w)

/-- Re-raise the error of an in-place user operation. -/
def check : Option Exn → SM V G Unit
  | none => SM.pure ()
  | some e => throw e

/-- The value with which a payload of type `ty` gets initialised from constructor arguments. -/
def argVal (o : Ops V G) : Arg V G → SM V G V
  | .ext _ c => user c
  | .copyOf y => do
    let v ← getVal y
    user (o.copyCtor v)
  | .moveOf y => fun w =>
    match w.vars y with
    | some (some v) =>
      let (r, v', g) := o.moveCtor v w.user
      let w' : SWorld V G := { vars := fun z => if z = y then some (some v') else w.vars z,
                               user := g, trace := w.trace ++ [(y, v')] }
      match r with
      | .ok a => (.ok a, w')
      | .error e => (.throw e, w')
    | _ => (.undef, w)

/-- Direct-initialise the payload of the existing, empty variable `x`. If the constructor throws, `x` stays empty. -/
def init (o : Ops V G) (x : Nat) (a : Arg V G) : SM V G Unit := do
  let v ← argVal o a
  put x v

/-- Destroy the contained value of `x`; `x` is empty afterwards. -/
def destroyVal (o : Ops V G) (x : Nat) : SM V G Unit := fun w =>
  match w.vars x with
  | some (some v) => (.ok (), { w with vars := fun z => if z = x then some none else w.vars z, user := o.dtor v w.user })
  | _ => (.undef, w)

/-! ### Constructors and destructor -/

/-- [optional.ctor] `optional()`, `optional(nullopt)`. -/
def ctorDefault (x : Nat) : SM V G Unit := do
  fresh x
  setEmpty x

/-- [optional.ctor] `optional(in_place, args...)`, `optional(U&&)`. If the constructor throws, no object results. -/
def ctorInPlace (o : Ops V G) (x : Nat) (a : Arg V G) : SM V G Unit := do
  fresh x
  let v ← argVal o a
  put x v

/-- [optional.ctor] copy constructor. -/
def ctorCopy (o : Ops V G) (x y : Nat) : SM V G Unit := do
  fresh x
  match ← get y with
  | none => setEmpty x
  | some _ => do
    let v ← argVal o (.copyOf y)
    put x v

/-- [optional.ctor] move constructor. `has_value()` of the source is unchanged. -/
def ctorMove (o : Ops V G) (x y : Nat) : SM V G Unit := do
  fresh x
  match ← get y with
  | none => setEmpty x
  | some _ => do
    let v ← argVal o (.moveOf y)
    put x v

/-- [optional.dtor]. -/
def dtor (o : Ops V G) (x : Nat) : SM V G Unit := do
  match ← get x with
  | none => remove x
  | some _ => do
    destroyVal o x
    remove x

/-! ### Modifiers -/

/-- [optional.mod] `reset()`, [optional.assign] `= nullopt`. -/
def reset (o : Ops V G) (x : Nat) : SM V G Unit := do
  match ← get x with
  | none => SM.pure ()
  | some _ => destroyVal o x

/-- Payload assignment `*x = arg` for engaged `x`. If the payload assignment throws, `x` stays engaged with whatever
the assignment left behind. -/
def payloadAssign (o : Ops V G) (x : Nat) : AArg V G → SM V G Unit
  | .ext f _ _ => do
    let v ← getVal x
    let (e, v') ← user (fun g => let (e, v', g') := f v g; (.ok (e, v'), g'))
    put x v'
    check e
  | .copyOf y => do
    let v ← getVal x
    let s ← getVal y
    let (e, v') ← user (fun g =>
      let (e, v', g') := if x = y then o.selfCopyAssign v g else o.copyAssign v s g
      (.ok (e, v'), g'))
    put x v'
    check e
  | .moveOf y => do
    let v ← getVal x
    let s ← getVal y
    if x = y then do
      let (e, v') ← user (fun g => let (e, v', g') := o.selfMoveAssign v g; (.ok (e, v'), g'))
      put x v'
      check e
    else do
      let (e, v', s') ← user (fun g => let (e, v', s', g') := o.moveAssign v s g; (.ok (e, v', s'), g'))
      put x v'
      put y s'
      check e

/-- [optional.assign] `o = value`: assign if engaged, otherwise direct-initialise. -/
def assignVal (o : Ops V G) (x : Nat) (a : AArg V G) : SM V G Unit := do
  match ← get x with
  | some _ => payloadAssign o x a
  | none => init o x a.toArg

/-- [optional.assign] copy assignment table. -/
def assignCopy (o : Ops V G) (x y : Nat) : SM V G Unit := do
  match ← get x, ← get y with
  | some _, some _ => payloadAssign o x (.copyOf y)
  | none, some _ => init o x (.copyOf y)
  | some _, none => destroyVal o x
  | none, none => SM.pure ()

/-- [optional.assign] move assignment table. `has_value()` of the source is unchanged. -/
def assignMove (o : Ops V G) (x y : Nat) : SM V G Unit := do
  match ← get x, ← get y with
  | some _, some _ => payloadAssign o x (.moveOf y)
  | none, some _ => init o x (.moveOf y)
  | some _, none => destroyVal o x
  | none, none => SM.pure ()

/-- [optional.assign] `emplace`: `*this = nullopt`, then initialise. -/
def emplace (o : Ops V G) (x : Nat) (a : Arg V G) : SM V G V := do
  reset o x
  init o x a
  getVal x

/-- Run `m`; if it throws, run `h` (which must not throw) and re-throw. -/
def onThrow (m : SM V G α) (h : SM V G Unit) : SM V G α := fun w =>
  match m w with
  | (.throw e, w') =>
    match h w' with
    | (.ok _, w'') => (.throw e, w'')
    | (_, w'') => (.undef, w'')
  | r => r

/-- [optional.assign] `o = v` where `T` is scalar and `decay_t<U>` is `T`: `operator=(U&&)` does not participate, so the
argument is converted to a temporary `optional<T>` (named `tmp`), which is move assigned and destroyed. -/
def assignViaTemp (o ot : Ops V G) (x tmp : Nat) (a : Arg V G) : SM V G Unit := do
  ctorInPlace ot tmp a
  onThrow (assignMove o x tmp) (dtor ot tmp)
  dtor ot tmp

/-- [optional.swap] table. -/
def swap (o : Ops V G) (x y : Nat) : SM V G Unit := do
  match ← get x, ← get y with
  | none, none => SM.pure ()
  | some _, none => do
    init o y (.moveOf x)
    destroyVal o x
  | none, some _ => do
    init o x (.moveOf y)
    destroyVal o y
  | some a, some b =>
    if x = y then do
      let (e, a') ← user (fun g => let (e, a', g') := o.selfSwap a g; (.ok (e, a'), g'))
      put x a'
      check e
    else do
      let (e, a', b') ← user (fun g => let (e, a', b', g') := o.swap a b g; (.ok (e, a', b'), g'))
      put x a'
      put y b'
      check e

/-! ### Observers -/

/-- [optional.observe] `has_value()`, `operator bool`. -/
def hasValue (x : Nat) : SM V G Bool := do
  match ← get x with
  | some _ => SM.pure true
  | none => SM.pure false

/-- [optional.observe] `*o`, `o->`; precondition: engaged. -/
def deref (x : Nat) : SM V G V := getVal x

/-- [optional.observe] `value()`. -/
def value (x : Nat) : SM V G V := do
  match ← get x with
  | some v => SM.pure v
  | none => throw .badOptionalAccess

/-- [optional.observe] `value_or(d) const &` (`rv = false`) and `value_or(d) &&` (`rv = true`); `d` is the conversion
of the default. -/
def valueOr (o : Ops V G) (rv : Bool) (x : Nat) (d : G → Except Exn V × G) : SM V G V := do
  match ← get x with
  | some _ => argVal o (if rv then .moveOf x else .copyOf x)
  | none => user d

/-- User code modifies the payload through a reference obtained from `*o`, `o->` or `value()`. -/
def modify (x : Nat) (f : V → G → Option Exn × V × G) : SM V G Unit := do
  let v ← getVal x
  let (e, v') ← user (fun g => let (e, v', g') := f v g; (.ok (e, v'), g'))
  put x v'
  check e

/-! ### Monadic operations. The callable receives a reference to the payload and may modify it. -/

/-- [optional.monadic] `and_then`: the result optional is the new variable `dst`. -/
def andThen (x dst : Nat) (f : V → G → Except Exn (Option V) × V × G) : SM V G Unit := do
  fresh dst
  match ← get x with
  | none => setEmpty dst
  | some v => do
    let (r, v') ← user (fun g => let (r, v', g') := f v g; (.ok (r, v'), g'))
    put x v'
    match r with
    | .error e => throw e
    | .ok none => setEmpty dst
    | .ok (some u) => put dst u

/-- [optional.monadic] `transform`: the payload of the result is direct-non-list-initialised with `f(**this)`; no copy,
no move; if `f` throws, there is no result. -/
def transform (x dst : Nat) (f : V → G → Except Exn V × V × G) : SM V G Unit := do
  fresh dst
  match ← get x with
  | none => setEmpty dst
  | some v => do
    let (r, v') ← user (fun g => let (r, v', g') := f v g; (.ok (r, v'), g'))
    put x v'
    match r with
    | .error e => throw e
    | .ok u => put dst u

/-- [optional.monadic] `or_else` (`rv`: called on an rvalue). -/
def orElse (o : Ops V G) (rv : Bool) (x dst : Nat) (f : G → Except Exn (Option V) × G) : SM V G Unit := do
  fresh dst
  match ← get x with
  | some _ => do
    let v ← argVal o (if rv then .moveOf x else .copyOf x)
    put dst v
  | none => do
    match ← user f with
    | none => setEmpty dst
    | some u => put dst u

end Verif.Spec
