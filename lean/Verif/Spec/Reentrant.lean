import Verif.Spec.History
import Verif.Spec.Threads
import Verif.Spec.Writes
import Verif.Spec.Compare

/-!
# User code that uses optionals while the library is calling it

The other specifications treat user code as a function of its arguments and of the user state. Here user code is a program that can
itself call the library, also on the very optionals that the calling function works on: payload constructors, assignments, swaps and
destructors, comparison operators and hash functions, and the callables of `and_then`, `transform`, `or_else`. It can do so to any depth.

One thing is left out: while the payload of an optional is being constructed or destroyed, nobody may use this optional; it is *busy*.
(The standard leaves it open whether its functions may be re-entered in this way, [reentrancy]; in the midst of a constructor call
neither "empty" nor "engaged" would be a proper description of the optional.) C50 is about what is visible in this case.
-/

namespace Verif

/-- What the callable of `and_then` or `or_else` returns. References to const are left out (C71). -/
inductive Returned where
  /-- an optional by value: the callable has constructed the result object -/
  | object
  /-- an lvalue reference to the optional `y`: the result is copied from it -/
  | lref (y : Nat)
  /-- an rvalue reference to the optional `y`: the result is moved from it -/
  | rref (y : Nat)
deriving DecidableEq, Repr

/-- Use a reference as lvalue. -/
def Returned.asLvalue : Returned → Returned
  | .rref y => .lref y
  | r => r

/-- Comparisons of two optionals, by their result. -/
inductive Comparison : Type → Type 1 where
  | rel (op : Spec.RelOp) : Comparison Bool
  | spaceship : Comparison Spec.Cmp

/-- Functions of one optional and something else that is not an optional of the library, by their result. (For the operators with
`std::nullopt` no user code runs.) -/
inductive Inspection : Type → Type 1 where
  /-- comparison with a `std::optional`, which has a value or not; the latter is on the left if `flipped` -/
  | withStd (flipped : Bool) (op : Spec.RelOp) (has : Bool) : Inspection Bool
  | spaceshipStd (flipped has : Bool) : Inspection Spec.Cmp
  /-- comparison with a plain value, which is on the left if `flipped` -/
  | withValue (flipped : Bool) (op : Spec.RelOp) : Inspection Bool
  | spaceshipValue : Inspection Spec.Cmp
  | hash : Inspection Nat

/-- Programs, used both for `main` and for the user code that the library calls. `ctor`, `asg`, `swp`, `dtor`, `f` are the user code
of the respective call: payload constructors return the value that the new payload gets; destructors are given the value that is
destroyed, comparison operators and hash functions the values that the payloads have when they are called. Other accesses to payloads are the calls `deref`, `value`, `modify`. The continuation `k` gets the result or the exception. -/
inductive Prog (V G : Type) : Type → Type 1 where
  /-- return a value, or let an exception escape -/
  | ret {α : Type} (r : Except Exn α) : Prog V G α
  /-- compute with the user state -/
  | user {α : Type} (f : G → G) (k : G → Prog V G α) : Prog V G α
  /-- a call whose user code uses no optionals -/
  | call {α : Type} (op : Op V G) (k : Except Exn (Obs V) → Prog V G α) : Prog V G α
  /-- `optional x(std::in_place, args...)`, `optional x(arg)`, `make_optional`; `nt`: the payload constructor is noexcept -/
  | construct {α : Type} (x : Nat) (nt : Bool) (ctor : Prog V G V) (k : Except Exn Unit → Prog V G α) : Prog V G α
  /-- `optional x(y);`, `optional x(std::move(y));` (`rv`) -/
  | transfer {α : Type} (rv : Bool) (x y : Nat) (ctor : Prog V G V) (k : Except Exn Unit → Prog V G α) : Prog V G α
  /-- `x` goes out of scope -/
  | destroy {α : Type} (x : Nat) (dtor : V → Prog V G Unit) (k : Except Exn Unit → Prog V G α) : Prog V G α
  /-- `x.reset();`, `x = std::nullopt;` -/
  | reset {α : Type} (x : Nat) (dtor : V → Prog V G Unit) (k : Except Exn Unit → Prog V G α) : Prog V G α
  /-- `x = arg;` -/
  | assign {α : Type} (x : Nat) (nt : Bool) (asg : Prog V G Unit) (ctor : Prog V G V) (k : Except Exn Unit → Prog V G α) :
      Prog V G α
  /-- `x = y;`, `x = std::move(y);` (`rv`) -/
  | assignFrom {α : Type} (rv : Bool) (x y : Nat) (asg : Prog V G Unit) (ctor : Prog V G V) (dtor : V → Prog V G Unit)
      (k : Except Exn Unit → Prog V G α) : Prog V G α
  /-- `x.emplace(args...)` -/
  | emplace {α : Type} (x : Nat) (nt : Bool) (dtor : V → Prog V G Unit) (ctor : Prog V G V) (k : Except Exn V → Prog V G α) :
      Prog V G α
  /-- `x.swap(y)`; `ctor` is given the optional that it moves from -/
  | swap {α : Type} (x y : Nat) (swp : Prog V G Unit) (ctor : Nat → Prog V G V) (dtor : V → Prog V G Unit)
      (k : Except Exn Unit → Prog V G α) : Prog V G α
  /-- `x.value_or(d)`; `ctor` copies or moves the payload, `conv` converts `d` -/
  | valueOr {α : Type} (x : Nat) (ctor conv : Prog V G V) (k : Except Exn V → Prog V G α) : Prog V G α
  /-- `x.and_then(f)` with result `dst`; `ctor y` initialises `dst` from `y` if `f` returns a reference -/
  | andThen {α : Type} (x dst : Nat) (f : Prog V G Returned) (ctor : Nat → Prog V G V) (k : Except Exn Unit → Prog V G α) : Prog V G α
  /-- `x.transform(f)` with result `dst`; `nt`: whether its payload is nothrow constructible from the results of `f` -/
  | transform {α : Type} (nt : Bool) (x dst : Nat) (f : Prog V G V) (k : Except Exn Unit → Prog V G α) : Prog V G α
  /-- `x.or_else(f)`, `std::move(x).or_else(f)` (`rv`) with result `dst`; `ctor y` initialises `dst` from `y` -/
  | orElse {α : Type} (rv : Bool) (x dst : Nat) (f : Prog V G Returned) (ctor : Nat → Prog V G V)
      (k : Except Exn Unit → Prog V G α) : Prog V G α
  /-- `x == y`, `x < y`, ..., `x <=> y`; `cmp` is the operator of the payloads -/
  | compare {α R : Type} (q : Comparison R) (x y : Nat) (cmp : V → V → Prog V G R) (k : Except Exn R → Prog V G α) : Prog V G α
  /-- `x == z`, `z == x`, ... where `z` is a `std::optional` or a plain value, `std::hash`; `f` is the user's function for the payload -/
  | inspect {α R : Type} (q : Inspection R) (x : Nat) (f : V → Prog V G R) (k : Except Exn R → Prog V G α) : Prog V G α

/-- The program, with all user code that it might run, assigns to, empties, and refills no optionals but those in `S`, creates and destroys
no optionals but those in `T`, and apart from that only modifies values in those in `B`. -/
def Prog.Changes {V G : Type} (B S T : Nat → Prop) {α : Type} : Prog V G α → Prop
  | .ret _ => True
  | .user _ k => ∀ g, (k g).Changes B S T
  | .call op k => (∀ z ∈ op.writes, B z) ∧ (∀ z ∈ op.remakes, S z) ∧ (∀ z ∈ op.lifetimes, T z) ∧ ∀ r, (k r).Changes B S T
  | .construct x _ ctor k | .transfer _ x _ ctor k => S x ∧ T x ∧ ctor.Changes B S T ∧ ∀ r, (k r).Changes B S T
  | .destroy x dtor k => S x ∧ T x ∧ (∀ v, (dtor v).Changes B S T) ∧ ∀ r, (k r).Changes B S T
  | .reset x dtor k => S x ∧ (∀ v, (dtor v).Changes B S T) ∧ ∀ r, (k r).Changes B S T
  | .assign x _ asg ctor k => S x ∧ asg.Changes B S T ∧ ctor.Changes B S T ∧ ∀ r, (k r).Changes B S T
  | .assignFrom _ x _ asg ctor dtor k =>
    S x ∧ asg.Changes B S T ∧ ctor.Changes B S T ∧ (∀ v, (dtor v).Changes B S T) ∧ ∀ r, (k r).Changes B S T
  | .emplace x _ dtor ctor k => S x ∧ (∀ v, (dtor v).Changes B S T) ∧ ctor.Changes B S T ∧ ∀ r, (k r).Changes B S T
  | .swap x y swp ctor dtor k =>
    S x ∧ S y ∧ swp.Changes B S T ∧ (∀ z, (ctor z).Changes B S T) ∧ (∀ v, (dtor v).Changes B S T) ∧ ∀ r, (k r).Changes B S T
  | .valueOr _ ctor conv k => ctor.Changes B S T ∧ conv.Changes B S T ∧ ∀ r, (k r).Changes B S T
  | .andThen _ dst f ctor k | .orElse _ _ dst f ctor k =>
    S dst ∧ T dst ∧ f.Changes B S T ∧ (∀ z, (ctor z).Changes B S T) ∧ ∀ r, (k r).Changes B S T
  | .transform _ _ dst f k => S dst ∧ T dst ∧ f.Changes B S T ∧ ∀ r, (k r).Changes B S T
  | .compare _ _ _ cmp k => (∀ a b, (cmp a b).Changes B S T) ∧ ∀ r, (k r).Changes B S T
  | .inspect _ _ f k => (∀ v, (f v).Changes B S T) ∧ ∀ r, (k r).Changes B S T

/-- All results that the program can return satisfy `Q`. -/
def Prog.Returns {V G : Type} {α : Type} (Q : α → Prop) : Prog V G α → Prop
  | .ret (.ok a) => Q a
  | .ret (.error _) => True
  | .user _ k => ∀ g, (k g).Returns Q
  | .call _ k => ∀ r, (k r).Returns Q
  | .construct _ _ _ k | .transfer _ _ _ _ k | .destroy _ _ k | .reset _ _ k | .assign _ _ _ _ k | .assignFrom _ _ _ _ _ _ k
  | .swap _ _ _ _ _ k | .andThen _ _ _ _ k | .transform _ _ _ _ k | .orElse _ _ _ _ _ k => ∀ r, (k r).Returns Q
  | .emplace _ _ _ _ k | .valueOr _ _ _ k => ∀ r, (k r).Returns Q
  | .compare _ _ _ _ k => ∀ r, (k r).Returns Q
  | .inspect _ _ _ k => ∀ r, (k r).Returns Q

/-- A returned reference, if any, refers to an optional in `Q`. -/
def Returned.To (Q : Nat → Prop) : Returned → Prop
  | .object => True
  | .lref y | .rref y => Q y

/-- The program, with all user code that it might run, uses optionals in `R` at most for reading, those in `W` for anything, and no
others. -/
def Prog.Within {V G : Type} (R W : Nat → Prop) {α : Type} : Prog V G α → Prop
  | .ret _ => True
  | .user _ k => ∀ g, (k g).Within R W
  | .call op k => (∀ z ∈ op.reads, R z ∨ W z) ∧ (∀ z ∈ op.writes, W z) ∧ ∀ r, (k r).Within R W
  | .construct x _ ctor k => W x ∧ ctor.Within R W ∧ ∀ r, (k r).Within R W
  | .transfer _ x y ctor k => W x ∧ (R y ∨ W y) ∧ ctor.Within R W ∧ ∀ r, (k r).Within R W
  | .destroy x dtor k | .reset x dtor k => W x ∧ (∀ v, (dtor v).Within R W) ∧ ∀ r, (k r).Within R W
  | .assign x _ asg ctor k => W x ∧ asg.Within R W ∧ ctor.Within R W ∧ ∀ r, (k r).Within R W
  | .assignFrom _ x y asg ctor dtor k =>
    W x ∧ (R y ∨ W y) ∧ asg.Within R W ∧ ctor.Within R W ∧ (∀ v, (dtor v).Within R W) ∧ ∀ r, (k r).Within R W
  | .emplace x _ dtor ctor k => W x ∧ (∀ v, (dtor v).Within R W) ∧ ctor.Within R W ∧ ∀ r, (k r).Within R W
  | .swap x y swp ctor dtor k =>
    W x ∧ W y ∧ swp.Within R W ∧ (∀ z, (ctor z).Within R W) ∧ (∀ v, (dtor v).Within R W) ∧ ∀ r, (k r).Within R W
  | .valueOr x ctor conv k => (R x ∨ W x) ∧ ctor.Within R W ∧ conv.Within R W ∧ ∀ r, (k r).Within R W
  | .andThen x dst f ctor k | .orElse _ x dst f ctor k =>
    (R x ∨ W x) ∧ W dst ∧ f.Within R W ∧ f.Returns (Returned.To fun y => R y ∨ W y) ∧ (∀ z, (ctor z).Within R W) ∧
      ∀ r, (k r).Within R W
  | .transform _ x dst f k => (R x ∨ W x) ∧ W dst ∧ f.Within R W ∧ ∀ r, (k r).Within R W
  | .compare _ x y cmp k => (R x ∨ W x) ∧ (R y ∨ W y) ∧ (∀ a b, (cmp a b).Within R W) ∧ ∀ r, (k r).Within R W
  | .inspect _ x f k => (R x ∨ W x) ∧ (∀ v, (f v).Within R W) ∧ ∀ r, (k r).Within R W

namespace Spec.Re
variable {V G α : Type}

/-- Executions that a statement leaves out. -/
structure Limits where
  /-- executions in which the callable of a `transform` throws, while the payload of the result is nothrow constructible from the
  results of the callable -/
  transformThrows : Bool
  /-- executions in which, at the end of an assignment, this optional is not engaged because the payload's assignment has emptied it,
  or in which, at the end of a copy or move to this optional, source and destination are not both empty or both engaged because user
  code has interfered -/
  engagement : Nat → Bool

/-- Leave nothing out. -/
def Limits.none : Limits := ⟨false, fun _ => false⟩

/-- Precondition. -/
def require (b : Bool) : SM V G Unit := if b then SM.pure () else undef

/-- Exceptions as values. -/
def attempt (m : SM V G α) : SM V G (Except Exn α) := fun sw =>
  match m sw with
  | (.ok a, sw') => (.ok (.ok a), sw')
  | (.throw e, sw') => (.ok (.error e), sw')
  | (.undef, sw') => (.undef, sw')

/-- If `b`, user code `m` must not throw. -/
def never (b : Bool) (m : SM V G α) : SM V G α := fun sw =>
  match m sw with
  | (.throw e, sw') => if b then (.undef, sw') else (.throw e, sw')
  | r => r

/-- Precondition: `x` is empty. -/
def requireEmpty (x : Nat) : SM V G Unit := do
  match ← get x with
  | none => SM.pure ()
  | some _ => undef

/-- Precondition: `x` is engaged. -/
def requireEngaged (x : Nat) : SM V G Unit := do
  match ← get x with
  | none => undef
  | some _ => SM.pure ()

/-- Precondition: both empty or both engaged. -/
def requireSame (x y : Nat) : SM V G Unit := do
  let a ← get x
  let b ← get y
  require (a.isSome == b.isSome)

/-- Direct-initialise the payload of the empty optional `x`, which is busy meanwhile. If the constructor throws, `x` is empty. -/
def init (x : Nat) (nt : Bool) (ctor : SM V G V) : SM V G Unit := do
  requireEmpty x
  remove x
  let v ← onThrow (never nt ctor) (setEmpty x)
  put x v

/-- Destroy the payload of `x`, which is busy meanwhile. Destructors do not throw. -/
def destroyVal (x : Nat) (dtor : V → SM V G Unit) : SM V G Unit := do
  let v ← getVal x
  remove x
  never true (dtor v)
  setEmpty x

/-- [optional.ctor] `optional(in_place, args...)`. -/
def construct (x : Nat) (nt : Bool) (ctor : SM V G V) : SM V G Unit := do
  fresh x
  let v ← never nt ctor
  put x v

/-- [optional.ctor] copy and move constructor. -/
def transfer (lim : Limits) (x y : Nat) (nt : Bool) (ctor : SM V G V) : SM V G Unit := do
  fresh x
  match ← get y with
  | none => setEmpty x
  | some _ => do
    let v ← never nt ctor
    put x v
    if lim.engagement x then requireEngaged y else SM.pure ()

/-- [optional.dtor]. -/
def destroy (x : Nat) (dtor : V → SM V G Unit) : SM V G Unit := do
  match ← get x with
  | none => remove x
  | some _ => do
    destroyVal x dtor
    remove x

/-- [optional.mod] `reset()`. -/
def reset (x : Nat) (dtor : V → SM V G Unit) : SM V G Unit := do
  match ← get x with
  | none => SM.pure ()
  | some _ => destroyVal x dtor

/-- [optional.assign] `x = arg`. -/
def assign (lim : Limits) (x : Nat) (nt : Bool) (asg : SM V G Unit) (ctor : SM V G V) : SM V G Unit := do
  match ← get x with
  | some _ => do
    asg
    if lim.engagement x then requireEngaged x else SM.pure ()
  | none => init x nt ctor

/-- [optional.assign] copy and move assignment. `ntA`, `ntC`: assignment and construction of the payload are noexcept. -/
def assignFrom (lim : Limits) (x y : Nat) (ntA ntC : Bool) (asg : SM V G Unit) (ctor : SM V G V) (dtor : V → SM V G Unit) :
    SM V G Unit := do
  match ← get y with
  | some _ => assign lim x ntC (never ntA asg) ctor
  | none => reset x dtor
  if lim.engagement x then requireSame x y else SM.pure ()

/-- [optional.assign] `emplace`. -/
def emplace (x : Nat) (nt : Bool) (dtor : V → SM V G Unit) (ctor : SM V G V) : SM V G V := do
  reset x dtor
  init x nt ctor
  getVal x

/-- [optional.swap]. `ctor z y` initialises the payload of `z` from that of `y`, `dtor z` destroys the payload of `z`. -/
def swap (x y : Nat) (ntS ntC : Bool) (swp : SM V G Unit) (ctor : Nat → Nat → SM V G V) (dtor : Nat → V → SM V G Unit) :
    SM V G Unit := do
  match ← get x, ← get y with
  | none, none => SM.pure ()
  | some _, none => do
    init y ntC (ctor y x)
    destroyVal x (dtor x)
  | none, some _ => do
    init x ntC (ctor x y)
    destroyVal y (dtor y)
  | some _, some _ => never ntS swp

/-- [optional.observe] `value_or`. -/
def valueOr (x : Nat) (ctor conv : SM V G V) : SM V G V := do
  match ← get x with
  | some _ => ctor
  | none => conv

/-- The result `dst` of a callable that returns an optional; `B` are the busy optionals. -/
def result (lim : Limits) (B : List Nat) (dst : Nat) (o : Ops V G) (ctor : Nat → SM V G V) : Returned → SM V G Unit
  | .object => do
    let _ ← get dst
    SM.pure ()
  | .lref y => do
    require (y ∉ B)
    transfer lim dst y o.nothrowCopyCtor (ctor y)
  | .rref y => do
    require (y ∉ B)
    transfer lim dst y o.nothrowMoveCtor (ctor y)

/-- [optional.monadic] `and_then`. -/
def andThen (lim : Limits) (B : List Nat) (x dst : Nat) (o : Ops V G) (f : SM V G Returned) (ctor : Nat → SM V G V) :
    SM V G Unit := do
  fresh dst
  match ← get x with
  | none => setEmpty dst
  | some _ => do
    let r ← f
    result lim B dst o ctor r

/-- [optional.monadic] `transform`. The result is busy while the callable runs. -/
def transform (lim : Limits) (nt : Bool) (x dst : Nat) (f : SM V G V) : SM V G Unit := do
  fresh dst
  match ← get x with
  | none => setEmpty dst
  | some _ => do
    let v ← never (lim.transformThrows && nt) f
    put dst v

/-- [optional.monadic] `or_else`. Left out are lvalue optionals with a callable that returns an rvalue reference (C71). -/
def orElse (lim : Limits) (B : List Nat) (rv : Bool) (x dst : Nat) (o : Ops V G) (f : SM V G Returned) (ctor : Nat → SM V G V) :
    SM V G Unit := do
  fresh dst
  match ← get x with
  | some _ => result lim B dst o ctor (if rv then .rref x else .lref x)
  | none => do
    let r ← f
    require (rv || r.asLvalue == r)
    result lim B dst o ctor r

/-- What the standard says about comparing two optionals. -/
def _root_.Verif.Comparison.answer {A B R : Type} : Comparison R → Option A → Option B → Answer R A B
  | .rel op, a, b => stdRel op a b
  | .spaceship, a, b => stdCmp a b

/-- The result of a comparison of `o` with `z` (whose payload, if any, is not of interest), or the payload of `o` that is to be compared. -/
def sided {A R : Type} (flipped : Bool) (ans : {C D : Type} → Option C → Option D → Answer R C D) (o : Option A) (z : Option Unit) : R ⊕ A :=
  if flipped then
    match ans z o with
    | .const r => .inl r
    | .ask _ a => .inr a
  else
    match ans o z with
    | .const r => .inl r
    | .ask a _ => .inr a

/-- The result, or the payload that the user's function gets. A plain value counts as an optional that contains it
([optional.comp.with.t]). -/
def _root_.Verif.Inspection.answer {A R : Type} : Inspection R → Option A → R ⊕ A
  | .withStd flipped op has, o => sided flipped (stdRel op) o (if has then some () else none)
  | .spaceshipStd flipped has, o => sided flipped stdCmp o (if has then some () else none)
  | .withValue flipped op, o => sided flipped (stdRel op) o (some ())
  | .spaceshipValue, o => sided false stdCmp o (some ())
  | .hash, some a => .inr a
  | .hash, none => .inl 0

/-- [optional.relops], [optional.spaceship]. -/
def compare {R : Type} (q : Comparison R) (x y : Nat) (cmp : V → V → SM V G R) : SM V G R := do
  let a ← get x
  let b ← get y
  match q.answer a b with
  | .const r => SM.pure r
  | .ask a b => cmp a b

/-- [optional.relops], [optional.comp.with.t], [optional.hash]. -/
def inspect {R : Type} (q : Inspection R) (x : Nat) (f : V → SM V G R) : SM V G R := do
  let a ← get x
  match q.answer a with
  | .inl r => SM.pure r
  | .inr v => f v

/-- Executions of plain calls that are left out. -/
def callThrows (lim : Limits) : Op V G → Bool
  | .transform nt _ _ _ => lim.transformThrows && nt
  | _ => false

end Spec.Re

namespace Spec
variable {V G : Type}

/-- What a program does according to the standard. `B` are the busy optionals: using one of them is `undef`. -/
def specProg (ops : Nat → Ops V G) (lim : Re.Limits) {α : Type} (B : List Nat) : Prog V G α → SM V G α
  | .ret (.ok a) => SM.pure a
  | .ret (.error e) => throw e
  | .user f k => fun sw => specProg ops lim B (k sw.user) { sw with user := f sw.user }
  | .call op k => do
    Re.require ((op.reads ++ op.writes).all (· ∉ B))
    let r ← Re.attempt (Re.never (Re.callThrows lim op) (specOp ops op))
    specProg ops lim B (k r)
  | .construct x nt ctor k => do
    Re.require (x ∉ B)
    let r ← Re.attempt (Re.construct x nt (specProg ops lim (x :: B) ctor))
    specProg ops lim B (k r)
  | .transfer rv x y ctor k => do
    Re.require (x ∉ B ∧ y ∉ B)
    let r ← Re.attempt (Re.transfer lim x y (if rv then (ops x).nothrowMoveCtor else (ops x).nothrowCopyCtor)
      (specProg ops lim (x :: B) ctor))
    specProg ops lim B (k r)
  | .destroy x dtor k => do
    Re.require (x ∉ B)
    let r ← Re.attempt (Re.destroy x fun v => specProg ops lim (x :: B) (dtor v))
    specProg ops lim B (k r)
  | .reset x dtor k => do
    Re.require (x ∉ B)
    let r ← Re.attempt (Re.reset x fun v => specProg ops lim (x :: B) (dtor v))
    specProg ops lim B (k r)
  | .assign x nt asg ctor k => do
    Re.require (x ∉ B)
    let r ← Re.attempt (Re.assign lim x nt (specProg ops lim B asg) (specProg ops lim (x :: B) ctor))
    specProg ops lim B (k r)
  | .assignFrom rv x y asg ctor dtor k => do
    Re.require (x ∉ B ∧ y ∉ B)
    let r ← Re.attempt (Re.assignFrom lim x y (rv && (ops x).nothrowMoveAssign)
      (if rv then (ops x).nothrowMoveCtor else (ops x).nothrowCopyCtor) (specProg ops lim B asg) (specProg ops lim (x :: B) ctor)
      fun v => specProg ops lim (x :: B) (dtor v))
    specProg ops lim B (k r)
  | .emplace x nt dtor ctor k => do
    Re.require (x ∉ B)
    let r ← Re.attempt (Re.emplace x nt (fun v => specProg ops lim (x :: B) (dtor v)) (specProg ops lim (x :: B) ctor))
    specProg ops lim B (k r)
  | .swap x y swp ctor dtor k => do
    Re.require (x ∉ B ∧ y ∉ B)
    let r ← Re.attempt (Re.swap x y (ops x).nothrowSwap (ops x).nothrowMoveCtor (specProg ops lim B swp)
      (fun z y => specProg ops lim (z :: B) (ctor y)) fun z v => specProg ops lim (z :: B) (dtor v))
    specProg ops lim B (k r)
  | .valueOr x ctor conv k => do
    Re.require (x ∉ B)
    let r ← Re.attempt (Re.valueOr x (specProg ops lim B ctor) (specProg ops lim B conv))
    specProg ops lim B (k r)
  | .andThen x dst f ctor k => do
    Re.require (x ∉ B ∧ dst ∉ B)
    let r ← Re.attempt (Re.andThen lim B x dst (ops dst) (specProg ops lim B f) fun y => specProg ops lim (dst :: B) (ctor y))
    specProg ops lim B (k r)
  | .transform nt x dst f k => do
    Re.require (x ∉ B ∧ dst ∉ B)
    let r ← Re.attempt (Re.transform lim nt x dst (specProg ops lim (dst :: B) f))
    specProg ops lim B (k r)
  | .orElse rv x dst f ctor k => do
    Re.require (x ∉ B ∧ dst ∉ B)
    let r ← Re.attempt (Re.orElse lim B rv x dst (ops dst) (specProg ops lim B f) fun y => specProg ops lim (dst :: B) (ctor y))
    specProg ops lim B (k r)
  | .compare q x y cmp k => do
    Re.require (x ∉ B ∧ y ∉ B)
    let r ← Re.attempt (Re.compare q x y fun a b => specProg ops lim B (cmp a b))
    specProg ops lim B (k r)
  | .inspect q x f k => do
    Re.require (x ∉ B)
    let r ← Re.attempt (Re.inspect q x fun v => specProg ops lim B (f v))
    specProg ops lim B (k r)

end Spec

end Verif
