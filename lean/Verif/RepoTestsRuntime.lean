import Verif.Model.Make
import Verif.Model.InPlace
import Verif.Model.FreeSwap
import Verif.Props.Overload

/-!
# Further tests of the repository, evaluated in the model

tests/ConstructionTests.cpp, SpecialMonadicTests.cpp, ComparisonTests.cpp, and the snippets of CompilationErrorTests.cpp that are about
overload resolution. This is a validation of the model by samples, not a proof of anything. `ExerciseOptional` is in `Props/Exercise.lean`, the
selection of the storage in `RepoTests.lean`.
-/

namespace Verif.RepoTests
open Verif Verif.Model Verif.Spec Verif.Examples Verif.Model.Overload Verif.Props

/-! ## ConstructionTests.cpp -/

/-- Number of payloads created and destroyed so far. -/
abbrev Count := Nat × Nat

/-- `struct Probe`, :15-47. `swap` is not used. -/
def probe : Ops (BitVec 8) Count where
  copyCtor v g := (.ok v, g.1 + 1, g.2)
  moveCtor v g := (.ok v, v, g.1 + 1, g.2)
  copyAssign _ s g := (none, s, g)
  moveAssign _ s g := (none, s, s, g)
  selfCopyAssign v g := (none, v, g)
  selfMoveAssign v g := (none, v, g)
  swap a b g := (none, b, a, g)
  selfSwap v g := (none, v, g)
  dtor _ g := (g.1, g.2 + 1)
  nothrowCopyCtor := true
  nothrowMoveCtor := true
  nothrowMoveAssign := true
  nothrowSwap := true

/-- `o = p;` and the constructor called by `o.emplace()`. -/
def assignProbe (x : Nat) : Op (BitVec 8) Count := .assignVal x (.ext (fun _ g => (none, 1#8, g)) true fun g => (.ok 1#8, g.1 + 1, g.2))
def newProbe : Arg (BitVec 8) Count := .ext true fun g => (.ok 1#8, g.1 + 1, g.2)

/-- The counters after a history. -/
def counts (h : List (Op (BitVec 8) Count)) : Count := (run (fun _ => ⟨sepCfg false, probe⟩) h (.init (0, 0))).2.user

/-- `test_TinyOptionalMemoryManagement`, :53-136. `Probe::Reset()` is taken into account by looking at differences. -/
example :
    counts [.ctorDefault 0] = (0, 0) ∧ counts [.ctorDefault 0, assignProbe 0] = (1, 0) ∧
    counts [.ctorDefault 0, assignProbe 0, .reset 0] = (1, 1) ∧
    counts [.ctorDefault 0, assignProbe 0, .dtor 0] = (1, 1) ∧
    counts [.ctorDefault 0, .dtor 0] = (0, 0) ∧
    counts [.ctorDefault 0, assignProbe 0, .ctorDefault 1, .assignCopy 0 1] = (1, 1) ∧
    counts [.ctorDefault 0, assignProbe 0, .emplace 0 newProbe] = (2, 1) := by decide +kernel

/-- `struct Throwing` of `test_Exceptions`, :149-171: copies (also in place of moves) and assignments throw. -/
def throwing : Ops (BitVec 8) Unit where
  copyCtor _ g := (.error (.user 1), g)
  moveCtor v g := (.error (.user 1), v, g)
  copyAssign d _ g := (some (.user 2), d, g)
  moveAssign d s g := (some (.user 2), d, s, g)
  selfCopyAssign v g := (some (.user 2), v, g)
  selfMoveAssign v g := (some (.user 2), v, g)
  swap a b g := (some (.user 1), a, b, g)
  selfSwap v g := (some (.user 1), v, g)
  dtor _ g := g
  nothrowCopyCtor := false
  nothrowMoveCtor := false
  nothrowMoveAssign := false
  nothrowSwap := false

/-- `Throwing(v, false)` and `Throwing(v)`. -/
def quiet (v : BitVec 8) : Arg (BitVec 8) Unit := .ext false fun g => (.ok v, g)
def loud : Arg (BitVec 8) Unit := .ext false fun g => (.error (.user 0), g)

def outcomes (h : List (Op (BitVec 8) Unit)) : List (Res (Obs (BitVec 8))) := (run (fun _ => ⟨sepCfg false, throwing⟩) h (.init ())).1

/-- `test_Exceptions`, :173-207. Variable 0 is `o` respectively `o2`, 1 is `nonEmpty` respectively `o1`, 8 the temporary of `std::swap`. -/
example :
    outcomes [.ctorDefault 0, .ctorInPlace 1 (quiet 42#8), .assignCopy 0 1, .hasValue 0, .emplace 0 loud, .hasValue 0] =
      [.ok .unit, .ok .unit, .throw (.user 1), .ok (.bool false), .throw (.user 0), .ok (.bool false)] ∧
    outcomes [.ctorInPlace 1 (quiet 42#8), .ctorInPlace 0 (quiet 43#8), .assignCopy 0 1, .hasValue 0, .value 0] =
      [.ok .unit, .ok .unit, .throw (.user 2), .ok (.bool true), .ok (.val 43#8)] ∧
    outcomes [.ctorDefault 0, .ctorInPlace 1 (quiet 42#8), .swap 0 1, .hasValue 0, .hasValue 1] =
      [.ok .unit, .ok .unit, .throw (.user 1), .ok (.bool false), .ok (.bool true)] ∧
    outcomes [.ctorDefault 0, .ctorInPlace 1 (quiet 42#8), .ctorMove 8 1, .hasValue 0, .hasValue 1] =
      [.ok .unit, .ok .unit, .throw (.user 1), .ok (.bool false), .ok (.bool true)] := by decide +kernel

/-- The payload types of the tests of special members; all of them are swappable exactly if they can be moved and move assigned. -/
def traits (cc mc ca ma nc na : Bool) : SwapTraits := ⟨⟨cc, mc, ca, ma, nc, na⟩, mc && ma, mc && ma && nc && na⟩

/-- Any payload that is a class. -/
def cls : OpTy := .other 5
/-- `std::is_copy_constructible_v<tiny::optional<P>>` etc. -/
def copyConstructible (t : SwapTraits) : Bool := (optionalMembers t.members).ctorLvalue.isSome
def moveConstructible (t : SwapTraits) : Bool := (optionalMembers t.members).ctorRvalue.isSome
def copyAssignable (t : SwapTraits) : Bool := (optionalMembers t.members).assignLvalue.isSome
def moveAssignable (t : SwapTraits) : Bool := (optionalMembers t.members).assignRvalue.isSome
/-- `std::is_swappable_v<tiny::optional<P>>`: `std::swap` is visible. -/
def swappable (t : SwapTraits) : Bool := (selectSwap true t (.tiny cls 0) (.tiny cls 0)).isSome
/-- `noexcept` of construction respectively assignment from an rvalue. -/
def nothrowMoveCtor (t : SwapTraits) : Bool := (optionalMembers t.members).ctorRvalue == some (.moveConstruct, true)
def nothrowMoveAssign (t : SwapTraits) : Bool := (optionalMembers t.members).assignRvalue == some (.moveAssign, true)

/-- :194-195 -/
example : let t := traits true true true true false false
    (selectSwap true t (.tiny cls 0) (.tiny cls 0)).map (swapNoexcept t (.tiny cls 0)) = some false ∧ swapNoexcept t (.tiny cls 0) .tiny = false := by
  decide

/-- `DeletedCopy`, :229-242 -/
example : let t := traits false true true true true true; copyConstructible t = false ∧ swappable t = true := by decide
/-- `NothrowMove`, `ThrowMove`, :267-281 -/
example : nothrowMoveCtor (traits false true false false true false) = true ∧ nothrowMoveCtor (traits false true false false false false) = false := by
  decide
/-- `DeletedMove`, :286-302 -/
example : let t := traits true false false false false false
    copyConstructible t = true ∧ moveConstructible t = true ∧ swappable t = false := by decide
/-- `DeletedCopy`, :305-319 -/
example : let t := traits false true false false true false
    copyConstructible t = false ∧ moveConstructible t = true ∧ swappable t = false := by decide
/-- `NotCopyConstructible`, :345-367, and `NotMoveConstructible`, :413-436 -/
example : let t := traits false false true true false true
    copyAssignable t = false ∧ moveAssignable t = false ∧ swappable t = false := by decide
/-- `NotCopyAssignable`, :370-387 -/
example : let t := traits true true false true true true; copyAssignable t = false ∧ swappable t = true := by decide
/-- `NotMoveAssignable`, :439-456 -/
example : let t := traits false true true false true false; moveAssignable t = false ∧ swappable t = false := by decide
/-- The noexcept specification of the move assignment, :459-509 -/
example : nothrowMoveAssign (traits false true false true true true) = true ∧ nothrowMoveAssign (traits false true false true false false) = false ∧
    nothrowMoveAssign (traits false true false true false true) = false ∧ nothrowMoveAssign (traits false true false true true false) = false := by
  decide
/-- `DeletedCopy`, :512-534 -/
example : let t := traits false true false true true true
    copyConstructible t = false ∧ copyAssignable t = false ∧ moveConstructible t = true ∧ moveAssignable t = true ∧ swappable t = true := by decide
/-- `WithoutCopy` of CompilationErrorTests.cpp:64-75 -/
example : (optionalMembers ⟨false, true, false, false, true, false⟩).ctorLvalue = none := by decide

/-! ### Conversions, :539-606, and the corresponding snippets of CompilationErrorTests.cpp:89-130 -/

def tyInt : OpTy := .other 1
def int42 : Arg1 := .expr ⟨tyInt, .rvalue⟩

/-- A class with constructors from itself and possibly from `int`. -/
def classWith (fromInt implicit : Bool) : Payload where
  ty := cls
  const := false
  volatile := false
  scalar := false
  isBool := false
  initList := false
  fromBraces := false
  constructible u := u.ty = cls || (fromInt && u.ty = tyInt)
  assignable u := u.ty = cls || (implicit && u.ty = tyInt)
  convertible u := u.ty = cls || (implicit && u.ty = tyInt)
  defaultConstructible := false

/-- `ImplicitConversion`: `o(42)`, `o{42}`; `o = 42` and `o = {42}` in a declaration; assignment. -/
example : selectCtor (.tiny cls 0) (classWith true true) .direct int42 = some .value ∧
    selectCtor (.tiny cls 0) (classWith true true) .copy int42 = some .value ∧
    selectAssign (.tiny cls 0) (classWith true true) int42 = some .value ∧ assignDoes (.tiny cls 0) (classWith true true) int42 = some .value := by
  decide
/-- `ExplicitConversion` -/
example : selectCtor (.tiny cls 0) (classWith true false) .direct int42 = some .valueExplicit ∧
    selectCtor (.tiny cls 0) (classWith true false) .copy int42 = none ∧ selectAssign (.tiny cls 0) (classWith true false) int42 = none := by
  decide
/-- `static_assert(!std::is_constructible_v<tiny::optional<TestClass>, int>)` -/
example : selectCtor (.tiny cls 0) (classWith false false) .direct int42 = none := by decide
/-- Assignment of a payload that cannot be constructed, :357-359 and :426-428 -/
example : ∀ c ∈ [Cat.lvalue, .rvalue],
    selectAssign (.tiny cls 0) { classWith false false with constructible := fun _ => false, convertible := fun _ => false } (.expr ⟨cls, c⟩) = none := by
  decide

/-! ### `test_MakeOptional`, :609-685 -/

def noIL : OpTy → Bool := fun t => t == .other 9
def scalarOf (t : OpTy) : Payload :=
  { classWith false false with ty := t, scalar := true, fromBraces := true, constructible := fun _ => true, assignable := fun _ => true,
                               convertible := fun _ => true, defaultConstructible := true }

/-- `make_optional(42.0)`, `make_optional(42)`, `make_optional(std::move(ptr))`: default storage, the payload is the forwarded argument. -/
example : ∀ t ∈ [OpTy.other 1, .other 2, .other 3], makeDeduced ⟨t, .rvalue⟩ = (⟨t, false, false, defaultVariant⟩, .value ⟨t, .rvalue⟩) := by decide
/-- `make_optional<unsigned int, 0>(42u)` and `make_optional<TestClassForInplace, &TestClassForInplace::someInt, 42>(testValue)` with a const
lvalue: the latter is an instance of the second overload. -/
example : makeExplicit noIL (scalarOf (.other 4)) 7 [.expr ⟨.other 4, .rvalue⟩] = some (⟨.other 4, false, false, 7⟩, .value ⟨.other 4, .rvalue⟩) ∧
    makeExplicit noIL (classWith false false) 8 [.expr ⟨cls, .constLvalue⟩] = some (⟨cls, false, false, 8⟩, .inPlace [⟨cls, .constLvalue⟩]) := by
  decide
/-- The second version with four arguments. -/
example : let args : List ArgE := [⟨.other 1, .rvalue⟩, ⟨.other 2, .rvalue⟩, ⟨.other 4, .rvalue⟩, ⟨.other 6, .rvalue⟩]
    ∀ v ∈ [0, 8], makeExplicit noIL (classWith false false) v (args.map .expr) = some (⟨cls, false, false, v⟩, .inPlace args) := by decide
/-- The third version: `initList` is a const lvalue. -/
example : makeExplicit noIL (classWith false false) 0 [.expr ⟨.other 9, .constLvalue⟩] =
      some (⟨cls, false, false, 0⟩, .inPlaceList (.expr ⟨.other 9, .constLvalue⟩) []) ∧
    makeExplicit noIL (classWith false false) 0 [.expr ⟨.other 9, .constLvalue⟩, .expr ⟨.other 3, .rvalue⟩] =
      some (⟨cls, false, false, 0⟩, .inPlaceList (.expr ⟨.other 9, .constLvalue⟩) [⟨.other 3, .rvalue⟩]) := by decide

/-! ## SpecialMonadicTests.cpp and CompilationErrorTests.cpp:143-172 -/

/-- A `std::vector`, as far as the tests look at it: its size; a move leaves an empty one behind. -/
def vector : Ops (BitVec 8) Unit := { scalarOps with moveCtor := fun v g => (.ok v, 0#8, g), moveAssign := fun _ s g => (none, s, 0#8, g) }

def outcomesV (h : List (Op (BitVec 8) Unit)) : List (Res (Obs (BitVec 8))) := (run (fun _ => ⟨sepCfg false, vector⟩) h (.init ())).1

/-- `and_then`, `transform` with a callable that modifies the payload or moves it out, `or_else` of an rvalue: :13-37, :44-68, :98-108. -/
example : let o : Op (BitVec 8) Unit := .ctorInPlace 0 (quiet 1#8)
    outcomesV [o, .andThen 0 1 fun v g => (.ok none, v + 1, g), .hasValue 1, .value 0] = [.ok .unit, .ok .unit, .ok (.bool false), .ok (.val 2#8)] ∧
    outcomesV [o, .andThen 0 1 fun _ g => (.ok none, 0, g), .hasValue 1, .value 0] = [.ok .unit, .ok .unit, .ok (.bool false), .ok (.val 0#8)] ∧
    outcomesV [o, .transform true 0 1 fun v g => (.ok 1#8, v + 1, g), .hasValue 1, .value 0] = [.ok .unit, .ok .unit, .ok (.bool true), .ok (.val 2#8)] ∧
    outcomesV [o, .transform true 0 1 fun _ g => (.ok 1#8, 0, g), .hasValue 1, .value 0] = [.ok .unit, .ok .unit, .ok (.bool true), .ok (.val 0#8)] ∧
    outcomesV [o, .orElse true 0 1 fun g => (.error (.user 0), g), .value 1, .hasValue 0, .value 0] =
      [.ok .unit, .ok .unit, .ok (.val 1#8), .ok (.bool true), .ok (.val 0#8)] := by decide +kernel

/-- The callable gets a modifiable lvalue respectively an rvalue; `or_else` of an rvalue moves. -/
example : ((selectFn andThenFns ⟨false, false⟩).bind fun f => f.2.2.type false f.1.const) = some ⟨false, false⟩ ∧
    ((selectFn andThenFns ⟨false, true⟩).bind fun f => f.2.2.type false f.1.const) = some ⟨false, true⟩ ∧
    ((selectFn transformFns ⟨false, false⟩).bind fun f => f.2.2.type false f.1.const) = some ⟨false, false⟩ ∧
    ((selectFn transformFns ⟨false, true⟩).bind fun f => f.2.2.type false f.1.const) = some ⟨false, true⟩ ∧
    ((selectFn (orElseFns true true) ⟨false, true⟩).bind fun f => f.2.type false f.1.const) = some ⟨false, true⟩ ∧
    ((selectFn (orElseFns false true) ⟨false, true⟩).bind fun f => f.2.type false f.1.const) = some ⟨false, true⟩ := by decide

/-- `transform` to a type that can be neither copied nor moved, :73-89: neither of the operations is called (they would throw). -/
example : outcomes [.ctorInPlace 0 (quiet 42#8), .transform true 0 1 fun v g => (.ok v, v, g), .value 1] = [.ok .unit, .ok .unit, .ok (.val 42#8)] := by
  decide +kernel

/-- Results that are rejected. -/
example : andThenAccepts ⟨.object 1, false, false, .none⟩ = false ∧ transformAccepts ⟨.nullopt, false, false, .none⟩ = false ∧
    orElseAccepts 0 ⟨.stdOptional 0, false, false, .none⟩ = false ∧ orElseAccepts 1 ⟨.tiny 0, false, false, .none⟩ = false ∧
    andThenAccepts ⟨.tiny 0, false, false, .none⟩ = true ∧ transformAccepts ⟨.object 1, false, false, .none⟩ = true ∧
    orElseAccepts 0 ⟨.tiny 0, false, false, .none⟩ = true := by decide

/-! ## ComparisonTests.cpp -/

/-- The numbers of the tests; `none` is NaN. -/
abbrev Num := Option Int

def numRel : RelOp → Num → Num → Bool
  | .eq, some a, some b => a = b
  | .ne, some a, some b => a ≠ b
  | .lt, some a, some b => a < b
  | .le, some a, some b => a ≤ b
  | .gt, some a, some b => a > b
  | .ge, some a, some b => a ≥ b
  | op, _, _ => op == .ne

def numCmp : Num → Num → Cmp
  | some a, some b => if a < b then .less else if a = b then .equal else .greater
  | _, _ => .unordered

def ofSum : Num ⊕ Num → Num
  | .inl a => a
  | .inr a => a

def numbers : PayloadCmp Num Unit Num := ⟨fun op a b g => (.ok (numRel op (ofSum a) (ofSum b)), g), fun a b g => (.ok (numCmp (ofSum a) (ofSum b)), g)⟩

/-- What the standard says. -/
def expectRel (op : RelOp) (a b : Option Num) : Bool :=
  match stdRel op a b with
  | .const r => r
  | .ask x y => numRel op x y
def expectCmp (a b : Option Num) : Cmp :=
  match stdCmp a b with
  | .const r => r
  | .ask x y => numCmp x y

/-- The optionals of a test: separate flag, or the sentinel 1. -/
def numCfg : Bool → Config Num
  | false => ⟨4, fun _ _ => none, .separate, .separate, false⟩
  | true => ⟨4, fun _ _ => none, .inplace, .assign (some 1) (numRel .eq), false⟩

/-- The world with the optionals 0 and 1. -/
def numWorld (s : Bool × Bool) (a b : Option Num) : World Num Unit :=
  let make (x : Nat) : Option Num → Op Num Unit
    | none => .ctorDefault x
    | some v => .ctorInPlace x (.ext true fun g => (.ok v, g))
  (run (fun x => ⟨numCfg (if x = 0 then s.1 else s.2), scalarOps⟩) [make 0 a, make 1 b] (.init ())).2

def answer {α : Type} (p : Option (M Num Unit α)) (w : World Num Unit) : Option α :=
  match p with
  | some p => match (p w).1 with
    | .ok a => some a
    | _ => none
  | none => none

/-- All comparisons of two operands have the expected result, in both orders. -/
def agrees (m : Mode) (s : Bool × Bool) (l r : OpTy) (os : Operands Num) (a b : Option Num) : Bool :=
  let Γ : Env Num Unit := fun x => ⟨numCfg (if x = 0 then s.1 else s.2), scalarOps⟩
  let w := numWorld s a b
  (RelOps.all fun op =>
    answer (relExpr m allOk Γ numbers op l r os) w == some (expectRel op a b) &&
    answer (relExpr m allOk Γ numbers op r l os.swap) w == some (expectRel op b a)) &&
  (!m.cpp20 || (answer (threeExpr m allOk Γ numbers l r os) w == some (expectCmp a b) &&
    answer (threeExpr m allOk Γ numbers r l os.swap) w == some (expectCmp b a)))

/-- Types: `int`, `double`, `float`. -/
def dbl : OpTy := .other 2
def flt : OpTy := .other 3
def modes : List Mode := [clang20, gcc13, gcc15, cpp17]
/-- 42 etc. as content of an optional -/
def c (n : Int) : Option Num := some (some n)
def nan : Option Num := some none

/-- `TestCompareOptWithOpt` of two tiny optionals; the sentinel of the second is 1 if `s`. -/
def tinyTiny (s : Bool) (l r : OpTy) (a b : Option Num) : Bool := modes.all fun m => agrees m (false, s) l r (.tinyTiny 0 1) a b
/-- A tiny optional with a `std::optional`. -/
def tinyStd (s : Bool) (l r : OpTy) (a b : Option Num) : Bool := modes.all fun m => agrees m (s, false) l r (.tinyStd 0 b) a b
/-- `TestCompareOptWithValue` -/
def tinyNull (s : Bool) (l : OpTy) (a : Option Num) : Bool := modes.all fun m => agrees m (s, false) l .nullopt (.tinyNull 0) a none
def tinyVal (s : Bool) (l r : OpTy) (a : Option Num) (b : Num) : Bool := modes.all fun m => agrees m (s, false) l r (.tinyVal 0 b) a (some b)

/-- `test_Comparisons`, :69-144. Left out: `optional_sentinel_via_type` with `std::optional` (finding 11 of DESIGN.md), and the tests of
`std::optional` itself. -/
example :
    tinyTiny false (.tiny tyInt 0) (.tiny tyInt 0) (c 42) (c 42) && tinyTiny false (.tiny tyInt 0) (.tiny tyInt 0) (c 42) (c 999) &&
    tinyTiny false (.tiny tyInt 0) (.tiny tyInt 0) (c 42) (c 1) &&
    tinyTiny true (.tiny tyInt 0) (.tiny tyInt 1) (c 42) (c 42) && tinyTiny true (.tiny tyInt 0) (.tiny tyInt 1) (c 42) (c 999) &&
    tinyTiny true (.tiny tyInt 0) (.tiny tyInt 1) (c 1) (c 42) &&
    tinyTiny false (.tiny tyInt 0) (.tiny tyInt 0) none none && tinyTiny true (.tiny tyInt 0) (.tiny tyInt 1) none none &&
    tinyTiny false (.tiny tyInt 0) (.tiny tyInt 0) (c 42) none && tinyTiny true (.tiny tyInt 0) (.tiny tyInt 1) (c 1) none &&
    tinyTiny false (.tiny tyInt 0) (.tiny dbl 0) (c 42) (c 42) && tinyTiny false (.tiny tyInt 0) (.tiny dbl 0) (c 42) (c 999) &&
    tinyTiny false (.tiny flt 0) (.tiny dbl 0) (c 42) (c 999) := by decide +kernel
example :
    tinyStd false (.tiny tyInt 0) (.std tyInt) (c 42) (c 42) && tinyStd false (.tiny tyInt 0) (.std tyInt) (c 42) (c 999) &&
    tinyStd true (.tiny tyInt 1) (.std tyInt) (c 42) (c 1) && tinyStd false (.tiny tyInt 0) (.std tyInt) none none &&
    tinyStd false (.tiny tyInt 0) (.std tyInt) (c 42) none && tinyStd false (.tiny tyInt 0) (.std tyInt) none (c 42) &&
    tinyTiny true (.tiny tyInt 0) (.impl tyInt 1) (c 42) (c 43) && tinyTiny false (.tiny tyInt 0) (.tiny tyInt 2) (c 42) (c 43) &&
    tinyStd true (.tiny tyInt 2) (.std tyInt) (c 43) (c 42) := by decide +kernel
example :
    tinyNull false (.tiny tyInt 0) (c 42) && tinyNull false (.tiny tyInt 0) none && tinyVal false (.tiny tyInt 0) tyInt (c 42) (some 42) &&
    tinyVal false (.tiny tyInt 0) tyInt (c 42) (some 999) && tinyVal false (.tiny tyInt 0) tyInt none (some 42) &&
    tinyVal false (.tiny tyInt 0) dbl (c 42) (some 42) && tinyVal false (.tiny tyInt 0) dbl (c 42) (some 999) &&
    tinyTiny false (.tiny dbl 0) (.tiny dbl 0) (c 42) nan && tinyTiny false (.tiny dbl 0) (.tiny dbl 0) nan nan &&
    tinyTiny false (.tiny dbl 0) (.tiny dbl 0) none nan && tinyVal false (.tiny dbl 0) dbl (c 42) none &&
    tinyVal false (.tiny dbl 0) dbl nan none && tinyVal false (.tiny dbl 0) dbl none none := by decide +kernel
example :
    tinyTiny true (.impl tyInt 1) (.impl tyInt 1) (c 42) (c 43) && tinyTiny true (.impl tyInt 1) (.impl dbl 5) (c 42) (c 43) &&
    tinyVal true (.impl tyInt 1) tyInt (c 42) (some 999) && tinyNull true (.impl tyInt 1) (c 42) := by decide +kernel

end Verif.RepoTests
