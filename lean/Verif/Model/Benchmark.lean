import Verif.Spec.Reentrant

/-!
# The program with which the repository measures the speed of optionals (performance/main.cpp)

`Tester<Optional>` for an arbitrary generator of random numbers and arbitrary arithmetic of the payload type, as a program of `Spec/Reentrant.lean`,
so that it can be run with the library and with `std::optional`. Variables: 0, 1, 2 are `x`, `y`, `z` of the constructor of `Tester`, 3 to 6 the
members of the temporary `WeirdVector`, and from 8 on the elements of the vector `values`, four optionals each.

Simplifications: output, the measurement of time and the memory of `std::vector` are left out (it is reserved before it is filled, so that no
element is moved to another place); the operands of `+`, whose order is unspecified, are evaluated from left to right.
-/

namespace Verif.Model.Benchmark
variable {V G α : Type}

/-- What the program uses beside optionals: `std::mt19937::operator()` with the state of the generator, conversions from integers to
`Optional::value_type`, its `+` and `*`. (performance/main.cpp:32-36, 53, 78, 103, 108, 116, 120) -/
structure Basis (V G : Type) where
  rng : G → Nat × G
  ofNat : Nat → V
  add : V → V → V
  mul : V → V → V

/-- Member `j` (`x`, `y`, `z`, `length2`) of `values[i]`. (performance/main.cpp:95-99, 128) -/
def elem (i j : Nat) : Nat := 8 + 4 * i + j

/-- A call whose result is used by what follows; exceptions end the program. (performance/main.cpp:56-65, 114-123) -/
def use (op : Op V G) (k : Obs V → Prog V G α) : Prog V G α :=
  .call op fun
    | .ok o => k o
    | .error e => .ret (.error e)

/-- A call as a statement. (performance/main.cpp:56-65, 114-118) -/
def stmt (op : Op V G) (k : Prog V G α) : Prog V G α := use op fun _ => k

/-- `auto const x = GenerateRandomOptional(rng);` (performance/main.cpp:57-59, 101-110) -/
def generate (b : Basis V G) (modulo x : Nat) (k : Prog V G α) : Prog V G α :=
  .user (fun g => (b.rng g).2) fun g =>
    if (b.rng g).1 % modulo = 0 then stmt (.ctorDefault x) k
    else .construct x true (.ret (.ok (b.ofNat (b.rng g).1))) fun
      | .ok _ => k
      | .error e => .ret (.error e)

/-- `numNullopts += !x;` (performance/main.cpp:62-64) -/
def countIfEmpty (x nulls : Nat) (k : Nat → Prog V G α) : Prog V G α :=
  use (.hasValue x) fun
    | .bool has => k (if has then nulls else nulls + 1)
    | _ => k nulls

/-- The body of the loop in the constructor of `Tester`. (performance/main.cpp:57-65) -/
def fillBody (b : Basis V G) (modulo i nulls : Nat) (k : Nat → Prog V G α) : Prog V G α :=
  generate b modulo 0 <| generate b modulo 1 <| generate b modulo 2 <|
  stmt (.ctorCopy 3 0) <| stmt (.ctorCopy 4 1) <| stmt (.ctorCopy 5 2) <| stmt (.ctorDefault 6) <|
  stmt (.ctorMove (elem i 0) 3) <| stmt (.ctorMove (elem i 1) 4) <| stmt (.ctorMove (elem i 2) 5) <| stmt (.ctorMove (elem i 3) 6) <|
  stmt (.dtor 6) <| stmt (.dtor 5) <| stmt (.dtor 4) <| stmt (.dtor 3) <|
  countIfEmpty 0 nulls fun nulls => countIfEmpty 1 nulls fun nulls => countIfEmpty 2 nulls fun nulls =>
  stmt (.dtor 2) <| stmt (.dtor 1) <| stmt (.dtor 0) <| k nulls

/-- The loop in the constructor of `Tester`; `n` elements are missing, `i` are there. (performance/main.cpp:54-65) -/
def fill (b : Basis V G) (modulo : Nat) : (n i nulls : Nat) → (Nat → Prog V G α) → Prog V G α
  | 0, _, nulls, k => k nulls
  | n + 1, i, nulls, k => fillBody b modulo i nulls fun nulls => fill b modulo n (i + 1) nulls k

/-- `x.value_or(0)` (performance/main.cpp:116, 122) -/
def orZero (b : Basis V G) (x : Nat) (k : V → Prog V G α) : Prog V G α :=
  use (.valueOr false x fun g => (.ok (b.ofNat 0), g)) fun
    | .val v => k v
    | _ => k (b.ofNat 0)

/-- `vec.length2.emplace(Sqr(vec.x.value_or(0)) + ...);` (performance/main.cpp:32-36, 116) -/
def emplaceLength (b : Basis V G) (i : Nat) (k : Prog V G α) : Prog V G α :=
  orZero b (elem i 0) fun x => orZero b (elem i 1) fun y => orZero b (elem i 2) fun z =>
  stmt (.emplace (elem i 3) (.ext true fun g => (.ok (b.add (b.add (b.mul x x) (b.mul y y)) (b.mul z z)), g))) k

/-- `if (c || ...) ...`: the condition `x`, then `rest`. (performance/main.cpp:115) -/
def ifHas (x : Nat) (yes no : Prog V G α) : Prog V G α :=
  use (.hasValue x) fun
    | .bool true => yes
    | _ => no

/-- The first loop of `RunRawTest`. (performance/main.cpp:114-118) -/
def lengths (b : Basis V G) : (n i : Nat) → Prog V G α → Prog V G α
  | 0, _, k => k
  | n + 1, i, k =>
    let next := lengths b n (i + 1) k
    ifHas (elem i 0) (emplaceLength b i next) <| ifHas (elem i 1) (emplaceLength b i next) <| ifHas (elem i 2) (emplaceLength b i next) next

/-- The second loop of `RunRawTest`. (performance/main.cpp:120-123) -/
def sum (b : Basis V G) : (n i : Nat) → V → (V → Prog V G α) → Prog V G α
  | 0, _, t, k => k t
  | n + 1, i, t, k => orZero b (elem i 3) fun l => sum b n (i + 1) (b.add t l) k

/-- `RunRawTest()`. (performance/main.cpp:112-125) -/
def rawTest (b : Basis V G) (n : Nat) (k : V → Prog V G α) : Prog V G α :=
  lengths b n 0 <| sum b n 0 (b.ofNat 0) k

/-- The loop of `TestAndGetDuration()`. (performance/main.cpp:78-81) -/
def iterations (b : Basis V G) (n : Nat) : (m : Nat) → V → (V → Prog V G α) → Prog V G α
  | 0, t, k => k t
  | m + 1, t, k => rawTest b n fun s => iterations b n m (b.add t s) k

/-- `~Tester()`: the destructors of the elements of `values`. (performance/main.cpp:95-99, 128, 155, 160) -/
def clear : (n i : Nat) → Prog V G α → Prog V G α
  | 0, _, k => k
  | n + 1, i, k =>
    stmt (.dtor (elem i 3)) <| stmt (.dtor (elem i 2)) <| stmt (.dtor (elem i 1)) <| stmt (.dtor (elem i 0)) <| clear n (i + 1) k

/-- `RunOneTest` for one type of optionals: the number of empty optionals, and the total that `TestAndGetDuration` prints.
(performance/main.cpp:43-87, 144-163) -/
def tester (b : Basis V G) (modulo numValues numIterations : Nat) : Prog V G (Nat × V) :=
  fill b modulo numValues 0 0 fun nulls => iterations b numValues numIterations (b.ofNat 0) fun t => clear numValues 0 <| .ret (.ok (nulls, t))

end Verif.Model.Benchmark
