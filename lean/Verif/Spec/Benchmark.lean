/-!
# What the benchmark computes (performance/main.cpp), without optionals of any library, variables or programs
-/

namespace Verif.Spec.Benchmark
variable {V G : Type}

/-- Three coordinates, each of which may be missing. -/
structure Row (V : Type) where
  x : Option V
  y : Option V
  z : Option V
deriving DecidableEq

/-- A random coordinate; those that are divisible by `modulo` are missing. -/
def draw (rng : G → Nat × G) (ofNat : Nat → V) (modulo : Nat) (g : G) : Option V × G :=
  (if (rng g).1 % modulo = 0 then none else some (ofNat (rng g).1), (rng g).2)

/-- A random row. -/
def drawRow (rng : G → Nat × G) (ofNat : Nat → V) (modulo : Nat) (g : G) : Row V × G :=
  let (x, g) := draw rng ofNat modulo g
  let (y, g) := draw rng ofNat modulo g
  let (z, g) := draw rng ofNat modulo g
  (⟨x, y, z⟩, g)

/-- `n` random rows. -/
def drawRows (rng : G → Nat × G) (ofNat : Nat → V) (modulo : Nat) : Nat → G → List (Row V) × G
  | 0, g => ([], g)
  | n + 1, g =>
    let (r, g) := drawRow rng ofNat modulo g
    let (rs, g) := drawRows rng ofNat modulo n g
    (r :: rs, g)

/-- Number of missing coordinates. -/
def missing (rs : List (Row V)) : Nat := (rs.map fun r => ([r.x, r.y, r.z].filter Option.isNone).length).sum

/-- The square of the length, if there is a coordinate; a missing one counts as zero. -/
def length2 (zero : V) (add mul : V → V → V) (r : Row V) : Option V :=
  if [r.x, r.y, r.z].all Option.isNone then none
  else
    let sqr (v : Option V) := mul (v.getD zero) (v.getD zero)
    some (add (add (sqr r.x) (sqr r.y)) (sqr r.z))

/-- The sum over all rows. -/
def rowsTotal (zero : V) (add mul : V → V → V) (rs : List (Row V)) : V :=
  rs.foldl (fun t r => add t ((length2 zero add mul r).getD zero)) zero

/-- The sum over all iterations. -/
def total (zero : V) (add mul : V → V → V) (rs : List (Row V)) (m : Nat) : V :=
  (List.replicate m (rowsTotal zero add mul rs)).foldl add zero

end Verif.Spec.Benchmark
