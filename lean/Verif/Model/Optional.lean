import Verif.Model.Storage

/-!
# Special members (optional.h:1168-1382) and `TinyOptionalImpl` / `optional` (1391-1838, 2195-2309)
-/

namespace Verif.Model

section
variable {V G : Type} (Γ : Env V G)

thrice
/-- `assert(this->has_value() == rhs.has_value())`, optional.h:1193, 1247, 1305, 1362. -/
def assertSame (x y : Nat) : M V G Unit :=
  assertM (Γ x).cfg.ndebug (do
    let a ← hasValue Γ x
    let b ← hasValue Γ y
    pure (a == b))

thrice
/-- Copy constructor (optional.h:1236-1248) and move constructor (1179-1194), which are the same code up to `std::move`.
`Base()` has completed when the body throws, so unwinding runs `~StorageBase`. -/
def copyOrMoveCtor (nt : Bool) (arg : Arg V G) (x y : Nat) : M V G Unit :=
  noexceptIf nt (do
    storageDefaultCtor Γ x
    onThrow (do
      if ← hasValue Γ y then
        constructPayload Γ x arg
      else
        assertHas Γ x false
      assertSame Γ x y)
      (storageDtor Γ x))

thrice
/-- `CopyConstructionBase(CopyConstructionBase const &)`, optional.h:1236-1248. -/
def copyCtor (x y : Nat) : M V G Unit := copyOrMoveCtor Γ false (.copyOf y) x y

thrice
/-- `MoveConstructionBase(MoveConstructionBase &&)`, optional.h:1179-1194. -/
def moveCtor (x y : Nat) : M V G Unit := copyOrMoveCtor Γ (Γ x).ops.nothrowMoveCtor (.moveOf y) x y

thrice
/-- Copy assignment (optional.h:1353-1364) and move assignment (1293-1308), the same code up to `std::move`. -/
def copyOrMoveAssign (nt : Bool) (arg : AArg V G) (x y : Nat) : M V G Unit :=
  noexceptIf nt (do
    if ← hasValue Γ y then
      assignValue Γ x arg
    else
      reset Γ x
    assertSame Γ x y)

thrice
/-- `CopyAssignmentBase::operator=(CopyAssignmentBase const &)`, optional.h:1353-1364. -/
def copyAssign (x y : Nat) : M V G Unit := copyOrMoveAssign Γ false (.copyOf y) x y

thrice
/-- `MoveAssignmentBase::operator=(MoveAssignmentBase &&)`, optional.h:1293-1308. -/
def moveAssign (x y : Nat) : M V G Unit :=
  copyOrMoveAssign Γ ((Γ x).ops.nothrowMoveAssign && (Γ x).ops.nothrowMoveCtor) (.moveOf y) x y

thrice
/-- `TinyOptionalImpl()` and `TinyOptionalImpl(std::nullopt_t)`, optional.h:1441, 1449-1452. -/
def defaultCtor (x : Nat) : M V G Unit := storageDefaultCtor Γ x

thrice
/-- `TinyOptionalImpl(std::in_place_t, args...)` (optional.h:1455-1469), the converting constructors (1481-1496) and
`make_optional` (2279-2309, by guaranteed elision). -/
def inPlaceCtor (x : Nat) (a : Arg V G) : M V G Unit := storageInPlaceCtor Γ x a

thrice
/-- `~TinyOptionalImpl()`, optional.h:1446. -/
def dtor (x : Nat) : M V G Unit := storageDtor Γ x

thrice
/-- `operator=(std::nullopt_t)`, optional.h:1517-1521, 2233-2237. -/
def assignNullopt (x : Nat) : M V G Unit := noexceptIf true (reset Γ x)

thrice
/-- `operator=(U &&)`, optional.h:1524-1529, 2240-2247. -/
def assignVal (x : Nat) (a : AArg V G) : M V G Unit := assignValue Γ x a

thrice
/-- `o = v` where the payload is scalar and `decay_t<U>` is the payload type: `EnableConvertingAssignment`
(optional.h:1418-1425) removes `operator=(U&&)`, so a temporary optional `tmp` is built from `v` by the converting
constructor, move assigned, and destroyed (also if the assignment throws). -/
def assignScalar (x tmp : Nat) (a : Arg V G) : M V G Unit := do
  inPlaceCtor Γ tmp a
  onThrow (moveAssign Γ x tmp) (dtor Γ tmp)
  dtor Γ tmp

thrice
/-- `emplace(args...)`, optional.h:1532-1552. Returns the new payload. -/
def emplace (x : Nat) (a : Arg V G) : M V G V := do
  reset Γ x
  constructPayload Γ x a
  assertHas Γ x true
  getPayload x

thrice
/-- `operator*` / `operator->` (read access), optional.h:1561-1596. -/
def deref (x : Nat) : M V G V :=
  noexceptIf true (do
    assertHas Γ x true
    getPayload x)

thrice
/-- `value()`, optional.h:1599-1629. -/
def value (x : Nat) : M V G V := do
  if ← hasValue Γ x then getPayload x
  else throwE .badOptionalAccess

thrice
/-- `value_or(d) const &` (optional.h:1632-1641) and `value_or(d) &&` (`rv`, 1643-1653). -/
def valueOr (rv : Bool) (x : Nat) (d : G → Except Exn V × G) : M V G V := do
  if ← hasValue Γ x then
    evalArg Γ (Γ x).ops (if rv then .moveOf x else .copyOf x)
  else
    userCall d

thrice
/-- User code working on the reference returned by `*o`, `o->` or `value()`. (optional.h:1560-1628) -/
def modify (x : Nat) (f : V → G → Option Exn × V × G) : M V G Unit := do
  let v ← deref Γ x
  let (e, v') ← userPure (fun g => let (e, v', g') := f v g; ((e, v'), g'))
  setPayload (Γ x).cfg x v'
  checkE e

thrice
/-- `swap(other)`, optional.h:1656-1678; free `swap` 1842-1855. -/
def swap (x y : Nat) : M V G Unit :=
  noexceptIf ((Γ x).ops.nothrowMoveCtor && (Γ x).ops.nothrowSwap) (do
    let thisHas ← hasValue Γ x
    let otherHas ← hasValue Γ y
    if thisHas == otherHas then do
      if thisHas then do
        let a ← getPayload x
        let b ← getPayload y
        if x = y then do
          let (e, a') ← userPure (fun g => let (e, a', g') := (Γ x).ops.selfSwap a g; ((e, a'), g'))
          setPayload (Γ x).cfg x a'
          checkE e
        else do
          let (e, a', b') ← userPure (fun g => let (e, a', b', g') := (Γ x).ops.swap a b g; ((e, a', b'), g'))
          setPayload (Γ x).cfg x a'
          setPayload (Γ y).cfg y b'
          checkE e
      else pure ()
    else do
      if thisHas then do
        constructPayload Γ y (.moveOf x)
        reset Γ x
      else do
        constructPayload Γ x (.moveOf y)
        reset Γ y)

thrice
/-- `std::invoke(f, **this)` (`std::move(**this)` for the rvalue overloads): the callable gets a reference to the payload
and may modify it or move from it. (optional.h:1687, 1700, 1713, 1726, 1097, 1102) -/
def invokeOn {α : Type} (x : Nat) (f : V → G → Except Exn α × V × G) : M V G α := do
  let v ← deref Γ x
  let (r, v') ← userPure (fun g => let (r, v', g') := f v g; ((r, v'), g'))
  setPayload (Γ x).cfg x v'
  match r with
  | .ok a => pure a
  | .error e => throwE e

thrice
/-- An optional of type `Γ dst` holding the given content comes into existence at `dst`: used for optionals that are
returned by user functions (they are constructed by user code, and the return is elided). (optional.h:1686-1691 and the other overloads)
-/
def materialize (dst : Nat) (o : Option V) : M V G Unit :=
  match o with
  | none => defaultCtor Γ dst
  | some u => inPlaceCtor Γ dst (.ext true (fun g => (.ok u, g)))

thrice
/-- `and_then(f)`, optional.h:1681-1731. The returned optional is `dst`. -/
def andThen (x dst : Nat) (f : V → G → Except Exn (Option V) × V × G) : M V G Unit := do
  if ← hasValue Γ x then do
    let r ← invokeOn Γ x f
    materialize Γ dst r
  else
    defaultCtor Γ dst

/-- `is_nothrow_constructible_v<U, R>` for the result type `R = invoke_result_t<F, ..>` of the callable and the payload type
`U = remove_cv_t<R>` of the result of `transform` (optional.h:1736, 1085, 1095): a constructor is looked for that takes an rvalue of
type `R`. For `R = U` it is the move constructor; for a class type `R = U const` (`isConst`) it is the copy constructor, which takes
`U const &`. Simplification: no constructors for `U const &&` or `volatile`. -/
def resultNothrow (o : Ops V G) (isConst : Bool) : Bool := if isConst then o.nothrowCopyCtor else o.nothrowMoveCtor

thrice
/-- `transform(f)`, optional.h:1733-1814. The returned `tiny::optional<U>` is `dst`. `**this` (the argument of the
constructor) is evaluated before the constructor runs; `f` is called inside it. `nt` is
`is_nothrow_constructible_v<U, invoke_result_t<F, ..>>`, see `resultNothrow`. -/
def transform (nt : Bool) (x dst : Nat) (f : V → G → Except Exn V × V × G) : M V G Unit := do
  if ← hasValue Γ x then do
    assertHas Γ x true                                              -- operator* inside `**this`
    storageFunctionCtor Γ dst nt (do
      let v ← getPayload x
      let (r, v') ← userPure (fun g => let (r, v', g') := f v g; ((r, v'), g'))
      setPayload (Γ x).cfg x v'
      match r with
      | .ok a => pure a
      | .error e => throwE e)
  else
    defaultCtor Γ dst

thrice
/-- `or_else(f) const &` and `or_else(f) &&` (`rv`), optional.h:1817-1837, 2250-2270. `f` returns by value; references: C62, C71. -/
def orElse (rv : Bool) (x dst : Nat) (f : G → Except Exn (Option V) × G) : M V G Unit := do
  if ← hasValue Γ x then
    (if rv then moveCtor Γ dst x else copyCtor Γ dst x)
  else do
    let r ← userCall f
    materialize Γ dst r

end

end Verif.Model
