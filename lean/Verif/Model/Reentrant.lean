import Verif.Model.Threads
import Verif.Spec.WellTyped
import Verif.Spec.Reentrant
import Verif.Model.Compare
import Verif.Model.Any

/-!
# The library functions with user code that calls the library again

The functions of `Model/Storage.lean` and `Model/Optional.lean` that call user code, with the user code as a program of the machine
instead of a function on the user state. Everything else is unchanged; the theorems `C62_same_…` state that the original functions are
the special case of user code that only uses its arguments and the user state.

Simplification: as in the rest of the model, a destructor is given the value of the payload.
-/

namespace Verif.Model
section
variable {V G : Type} (Γ : Env V G)

thrice
/-- Copy constructor (optional.h:1236-1248) and move constructor (1179-1194). `nt` is the exception specification of the function,
`ntC` that of the payload's constructor. The destructor that unwinding runs finds the optional empty. -/
def Re.copyOrMoveCtor (nt ntC : Bool) (ctor : M V G V) (x y : Nat) : M V G Unit :=
  noexceptIf nt (do
    storageDefaultCtor Γ x
    onThrow (do
      if ← hasValue Γ y then
        constructWith Γ x ntC ctor
      else
        assertHas Γ x false
      assertSame Γ x y)
      (storageDtor Γ x))

thrice
/-- Copy constructor (optional.h:1236-1248), or move constructor (1179-1194) if `rv`. -/
def Re.transfer (rv : Bool) (x y : Nat) (ctor : M V G V) : M V G Unit :=
  if rv then copyOrMoveCtor Γ (Γ x).ops.nothrowMoveCtor (Γ x).ops.nothrowMoveCtor ctor x y
  else copyOrMoveCtor Γ false (Γ x).ops.nothrowCopyCtor ctor x y

thrice
/-- The end of the payload's lifetime, when its destructor has returned. (in `DestroyPayload()`, optional.h:1018-1021) -/
def Re.endPayload (x : Nat) : M V G Unit := destroyPayload (Γ x).cfg (fun _ g => g) x

thrice
/-- `DestroyPayload()`, optional.h:1018-1021 (noexcept). The payload's lifetime ends when its destructor returns. -/
def Re.destroyPayload (x : Nat) (dtor : V → M V G Unit) : M V G Unit :=
  noexceptIf true (do
    let v ← getPayload x
    dtor v
    endPayload Γ x)

thrice
/-- `reset()`, optional.h:1136-1143. -/
def Re.reset (x : Nat) (dtor : V → M V G Unit) : M V G Unit :=
  noexceptIf true (do
    if ← hasValue Γ x then do
      destroyPayload Γ x dtor
      initEmptyFlag (Γ x).cfg x
      assertHas Γ x false
    else pure ())

thrice
/-- `~StorageBase()`, optional.h:978-983, and the release of the memory. -/
def Re.storageDtor (x : Nat) (dtor : V → M V G Unit) : M V G Unit :=
  noexceptIf true (do
    if ← hasValue Γ x then destroyPayload Γ x dtor else pure ()
    release x)

thrice
/-- `StorageBase(std::in_place_t, args...)`, optional.h:961-967; with `nt` the nothrow move constructibility also
`StorageBase(DirectInitializationFromFunctionTag, func, arg)`, 969-975. `mk` initialises the payload (1062, 1067, 1096, 1101). -/
def Re.storageCtor (x : Nat) (nt : Bool) (mk : M V G V) : M V G Unit := do
  allocate x
  onThrow (do
    initEmptyFlag (Γ x).cfg x
    constructWith Γ x nt mk)
    (release x)

thrice
/-- `AssignValue(v)`, optional.h:1117-1133. -/
def Re.assignValue (x : Nat) (nt : Bool) (asg : M V G Unit) (ctor : M V G V) : M V G Unit := do
  if ← hasValue Γ x then
    asg
  else
    constructWith Γ x nt ctor
  assertHas Γ x true

thrice
/-- Copy assignment (optional.h:1353-1364) and move assignment (1293-1308). -/
def Re.copyOrMoveAssign (nt ntC : Bool) (asg : M V G Unit) (ctor : M V G V) (dtor : V → M V G Unit) (x y : Nat) : M V G Unit :=
  noexceptIf nt (do
    if ← hasValue Γ y then
      assignValue Γ x ntC asg ctor
    else
      reset Γ x dtor
    assertSame Γ x y)

thrice
/-- Copy assignment (optional.h:1353-1364), or move assignment (1293-1308) if `rv`. -/
def Re.assignFrom (rv : Bool) (x y : Nat) (asg : M V G Unit) (ctor : M V G V) (dtor : V → M V G Unit) : M V G Unit :=
  if rv then copyOrMoveAssign Γ ((Γ x).ops.nothrowMoveAssign && (Γ x).ops.nothrowMoveCtor) (Γ x).ops.nothrowMoveCtor asg ctor dtor x y
  else copyOrMoveAssign Γ false (Γ x).ops.nothrowCopyCtor asg ctor dtor x y

thrice
/-- `emplace(args...)`, optional.h:1532-1552. -/
def Re.emplace (x : Nat) (nt : Bool) (dtor : V → M V G Unit) (ctor : M V G V) : M V G V := do
  reset Γ x dtor
  constructWith Γ x nt ctor
  assertHas Γ x true
  getPayload x

thrice
/-- `swap(other)`, optional.h:1656-1678. `ctor y` is the payload's move construction from the payload of `y`. -/
def Re.swap (x y : Nat) (swp : M V G Unit) (ctor : Nat → M V G V) (dtor : V → M V G Unit) : M V G Unit :=
  noexceptIf ((Γ x).ops.nothrowMoveCtor && (Γ x).ops.nothrowSwap) (do
    let thisHas ← hasValue Γ x
    let otherHas ← hasValue Γ y
    if thisHas == otherHas then do
      if thisHas then swp else pure ()
    else do
      if thisHas then do
        constructWith Γ y (Γ y).ops.nothrowMoveCtor (ctor x)
        reset Γ x dtor
      else do
        constructWith Γ x (Γ x).ops.nothrowMoveCtor (ctor y)
        reset Γ y dtor)

thrice
/-- `value_or(d)`, optional.h:1632-1653. -/
def Re.valueOr (x : Nat) (ctor conv : M V G V) : M V G V := do
  if ← hasValue Γ x then ctor else conv

thrice
/-- The result of `std::invoke` becomes the result of `and_then` (optional.h:1687, 1700, 1713, 1726) or `or_else` (1825, 1835): if the
callable returns an optional by value, it has already been constructed in place (guaranteed elision); a reference is copied or moved
from. -/
def Re.result (dst : Nat) (ctor : Nat → M V G V) : Returned → M V G Unit
  | .object => pure ()
  | .lref y => transfer Γ false dst y (ctor y)
  | .rref y => transfer Γ true dst y (ctor y)

thrice
/-- `and_then(f)`, optional.h:1681-1731; `**this` asserts that there is a value. -/
def Re.andThen (x dst : Nat) (f : M V G Returned) (ctor : Nat → M V G V) : M V G Unit := do
  if ← hasValue Γ x then do
    assertHas Γ x true
    let r ← f
    result Γ dst ctor r
  else
    defaultCtor Γ dst

thrice
/-- `transform(f)`, optional.h:1733-1814. -/
def Re.transform (nt : Bool) (x dst : Nat) (f : M V G V) : M V G Unit := do
  if ← hasValue Γ x then do
    assertHas Γ x true
    storageCtor Γ dst nt f
  else
    defaultCtor Γ dst

thrice
/-- `or_else(f)`, optional.h:1817-1837, 2250-2270. In the `const &` overload the conditional operator converts a reference that `f` returns to an
lvalue (C71). -/
def Re.orElse (rv : Bool) (x dst : Nat) (f : M V G Returned) (ctor : Nat → M V G V) : M V G Unit := do
  if ← hasValue Γ x then
    transfer Γ rv dst x (ctor x)
  else do
    let r ← f
    result Γ dst ctor (if rv then r else r.asLvalue)

section between
open Verif.Spec (RelOp Cmp)
variable {A B : Type} (l : OptLike V G A) (r : OptLike V G B)

thrice
/-- `*lhs Op *rhs`. (optional.h:2440, 2485, 2529, 2573, 2617, 2661) -/
def Re.payloadCmp {R : Type} (cmp : A → B → M V G R) : M V G R := do
  let a ← l.deref
  let b ← r.deref
  cmp a b

thrice
/-- `operator==`, optional.h:2437-2441. -/
def Re.optEq (cmp : A → B → M V G Bool) : M V G Bool := do
  let lhsHasValue ← l.hasValue
  andM (do let rhsHasValue ← r.hasValue; pure (lhsHasValue == rhsHasValue))
    (orM (pure (!lhsHasValue)) (payloadCmp l r cmp))

thrice
/-- `operator!=`, optional.h:2482-2486. -/
def Re.optNe (cmp : A → B → M V G Bool) : M V G Bool := do
  let lhsHasValue ← l.hasValue
  orM (do let rhsHasValue ← r.hasValue; pure (lhsHasValue != rhsHasValue))
    (andM (pure lhsHasValue) (payloadCmp l r cmp))

thrice
/-- `operator<`, optional.h:2527-2530. -/
def Re.optLt (cmp : A → B → M V G Bool) : M V G Bool :=
  andM r.hasValue (orM (notM l.hasValue) (payloadCmp l r cmp))

thrice
/-- `operator<=`, optional.h:2571-2574. -/
def Re.optLe (cmp : A → B → M V G Bool) : M V G Bool :=
  orM (notM l.hasValue) (andM r.hasValue (payloadCmp l r cmp))

thrice
/-- `operator>`, optional.h:2615-2618. -/
def Re.optGt (cmp : A → B → M V G Bool) : M V G Bool :=
  andM l.hasValue (orM (notM r.hasValue) (payloadCmp l r cmp))

thrice
/-- `operator>=`, optional.h:2659-2662. -/
def Re.optGe (cmp : A → B → M V G Bool) : M V G Bool :=
  orM (notM r.hasValue) (andM l.hasValue (payloadCmp l r cmp))

thrice
/-- The relational operator `op` between two optionals. (optional.h:2437-2662) -/
def Re.optRel (op : RelOp) (cmp : A → B → M V G Bool) : M V G Bool :=
  match op with
  | .eq => optEq l r cmp
  | .ne => optNe l r cmp
  | .lt => optLt l r cmp
  | .le => optLe l r cmp
  | .gt => optGt l r cmp
  | .ge => optGe l r cmp

thrice
/-- `operator<=>` between optionals, optional.h:2706-2743. -/
def Re.optSpaceship (cmp : A → B → M V G Cmp) : M V G Cmp := do
  if ← andM l.hasValue r.hasValue then payloadCmp l r cmp
  else do
    let a ← l.hasValue
    let b ← r.hasValue
    pure (boolCmp a b)

thrice
/-- A comparison of two optionals. (optional.h:2437-2743) -/
def Re.compare {R : Type} : Comparison R → (A → B → M V G R) → M V G R
  | .rel op, cmp => optRel l r op cmp
  | .spaceship, cmp => optSpaceship l r cmp

end between

thrice
/-- `lhs.has_value() ? *lhs Op rhs : dflt`, `rhs.has_value() ? lhs Op *rhs : dflt`; `f` compares the payload with the value.
(optional.h:2465, 2473, 2510, 2518, 2554, 2562, 2598, 2606, 2642, 2650, 2686, 2694, 2761, 2788, 2803) -/
def Re.condRel {R : Type} (x : Nat) (dflt : R) (f : V → M V G R) : M V G R := do
  if ← hasValue Γ x then do
    let a ← deref Γ x
    f a
  else pure dflt

thrice
/-- `optional Op value`, optional.h:2461-2466, 2506-2511, 2550-2555, 2594-2599, 2638-2643, 2682-2687. -/
def Re.relValue (x : Nat) (op : Spec.RelOp) (f : V → M V G Bool) : M V G Bool :=
  match op with
  | .eq => condRel Γ x false f
  | .ne => condRel Γ x true f
  | .lt => condRel Γ x true f
  | .le => condRel Γ x true f
  | .gt => condRel Γ x false f
  | .ge => condRel Γ x false f

thrice
/-- `value Op optional`, optional.h:2469-2474, 2514-2519, 2558-2563, 2602-2607, 2646-2651, 2690-2695. -/
def Re.valueRel (x : Nat) (op : Spec.RelOp) (f : V → M V G Bool) : M V G Bool :=
  match op with
  | .eq => condRel Γ x false f
  | .ne => condRel Γ x true f
  | .lt => condRel Γ x false f
  | .le => condRel Γ x false f
  | .gt => condRel Γ x true f
  | .ge => condRel Γ x true f

thrice
/-- `std::hash<tiny::optional<...>>::operator()`, optional.h:2786-2789, 2801-2804. -/
def Re.hashOf (x : Nat) (f : V → M V G Nat) : M V G Nat := do
  if ← hasValue Γ x then do
    let v ← deref Γ x
    f v
  else pure 0

thrice
/-- A comparison of the optional `x` with a `std::optional` or a value, or its hash. (optional.h:2437-2804) -/
def Re.inspect {R : Type} (x : Nat) : Inspection R → (V → M V G R) → M V G R
  | .withStd false op has, f => optRel (tinyOpt Γ x) (stdOpt (if has then some () else none)) op fun v _ => f v
  | .withStd true op has, f => optRel (stdOpt (if has then some () else none)) (tinyOpt Γ x) op fun _ v => f v
  | .spaceshipStd false has, f => optSpaceship (tinyOpt Γ x) (stdOpt (if has then some () else none)) fun v _ => f v
  | .spaceshipStd true has, f => optSpaceship (stdOpt (if has then some () else none)) (tinyOpt Γ x) fun _ v => f v
  | .withValue false op, f => relValue Γ x op f
  | .withValue true op, f => valueRel Γ x op f
  | .spaceshipValue, f => condRel Γ x .less f
  | .hash, f => hashOf Γ x f

end

thrice
/-- Run a program with the library. (calls of optional.h:1391-1855, 2437-2804) -/
def runProg {V G : Type} (Γ : Env V G) {α : Type} : Prog V G α → M V G α
  | .ret (.ok a) => pure a
  | .ret (.error e) => throwE e
  | .user f k => do
    let g ← userPure (fun g => (g, f g))
    runProg Γ (k g)
  | .call op k => do
    let r ← attempt (execOp Γ op)
    runProg Γ (k r)
  | .construct x nt ctor k => do
    let r ← attempt (Re.storageCtor Γ x nt (runProg Γ ctor))
    runProg Γ (k r)
  | .transfer rv x y ctor k => do
    let r ← attempt (Re.transfer Γ rv x y (runProg Γ ctor))
    runProg Γ (k r)
  | .destroy x dtor k => do
    let r ← attempt (Re.storageDtor Γ x fun v => runProg Γ (dtor v))
    runProg Γ (k r)
  | .reset x dtor k => do
    let r ← attempt (Re.reset Γ x fun v => runProg Γ (dtor v))
    runProg Γ (k r)
  | .assign x nt asg ctor k => do
    let r ← attempt (Re.assignValue Γ x nt (runProg Γ asg) (runProg Γ ctor))
    runProg Γ (k r)
  | .assignFrom rv x y asg ctor dtor k => do
    let r ← attempt (Re.assignFrom Γ rv x y (runProg Γ asg) (runProg Γ ctor) fun v => runProg Γ (dtor v))
    runProg Γ (k r)
  | .emplace x nt dtor ctor k => do
    let r ← attempt (Re.emplace Γ x nt (fun v => runProg Γ (dtor v)) (runProg Γ ctor))
    runProg Γ (k r)
  | .swap x y swp ctor dtor k => do
    let r ← attempt (Re.swap Γ x y (runProg Γ swp) (fun y => runProg Γ (ctor y)) fun v => runProg Γ (dtor v))
    runProg Γ (k r)
  | .valueOr x ctor conv k => do
    let r ← attempt (Re.valueOr Γ x (runProg Γ ctor) (runProg Γ conv))
    runProg Γ (k r)
  | .andThen x dst f ctor k => do
    let r ← attempt (Re.andThen Γ x dst (runProg Γ f) fun y => runProg Γ (ctor y))
    runProg Γ (k r)
  | .transform nt x dst f k => do
    let r ← attempt (Re.transform Γ nt x dst (runProg Γ f))
    runProg Γ (k r)
  | .orElse rv x dst f ctor k => do
    let r ← attempt (Re.orElse Γ rv x dst (runProg Γ f) fun y => runProg Γ (ctor y))
    runProg Γ (k r)
  | .compare q x y cmp k => do
    let r ← attempt (Re.compare (tinyOpt Γ x) (tinyOpt Γ y) q fun a b => runProg Γ (cmp a b))
    runProg Γ (k r)
  | .inspect q x f k => do
    let r ← attempt (Re.inspect Γ x q fun v => runProg Γ (f v))
    runProg Γ (k r)

alsoAny
/-- `p` type-checks, as far as this matters: everything that `p` might call. (calls of optional.h:1391-1855, 2437-2804) -/
def ProgOK {V G : Type} (Γ : Env V G) {α : Type} : Prog V G α → Prop
  | .ret _ => True
  | .user _ k => ∀ g, ProgOK Γ (k g)
  | .call op k => OpOK Γ op ∧ ∀ r, ProgOK Γ (k r)
  | .construct _ _ ctor k => ProgOK Γ ctor ∧ ∀ r, ProgOK Γ (k r)
  | .transfer _ _ _ ctor k => ProgOK Γ ctor ∧ ∀ r, ProgOK Γ (k r)
  | .destroy _ dtor k => (∀ v, ProgOK Γ (dtor v)) ∧ ∀ r, ProgOK Γ (k r)
  | .reset _ dtor k => (∀ v, ProgOK Γ (dtor v)) ∧ ∀ r, ProgOK Γ (k r)
  | .assign _ _ asg ctor k => ProgOK Γ asg ∧ ProgOK Γ ctor ∧ ∀ r, ProgOK Γ (k r)
  | .assignFrom _ _ _ asg ctor dtor k => ProgOK Γ asg ∧ ProgOK Γ ctor ∧ (∀ v, ProgOK Γ (dtor v)) ∧ ∀ r, ProgOK Γ (k r)
  | .emplace _ _ dtor ctor k => (∀ v, ProgOK Γ (dtor v)) ∧ ProgOK Γ ctor ∧ ∀ r, ProgOK Γ (k r)
  | .swap x y swp ctor dtor k =>
    Γ x = Γ y ∧ ProgOK Γ swp ∧ (∀ z, ProgOK Γ (ctor z)) ∧ (∀ v, ProgOK Γ (dtor v)) ∧ ∀ r, ProgOK Γ (k r)
  | .valueOr _ ctor conv k => ProgOK Γ ctor ∧ ProgOK Γ conv ∧ ∀ r, ProgOK Γ (k r)
  | .andThen _ _ f ctor k => ProgOK Γ f ∧ (∀ z, ProgOK Γ (ctor z)) ∧ ∀ r, ProgOK Γ (k r)
  | .transform _ _ _ f k => ProgOK Γ f ∧ ∀ r, ProgOK Γ (k r)
  | .orElse _ _ _ f ctor k => ProgOK Γ f ∧ (∀ z, ProgOK Γ (ctor z)) ∧ ∀ r, ProgOK Γ (k r)
  | .compare _ _ _ cmp k => (∀ a b, ProgOK Γ (cmp a b)) ∧ ∀ r, ProgOK Γ (k r)
  | .inspect _ _ f k => (∀ v, ProgOK Γ (f v)) ∧ ∀ r, ProgOK Γ (k r)

end Verif.Model
