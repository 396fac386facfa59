/-!
# IEEE-754 binary interchange formats

Bit patterns only; no arithmetic is needed. `W` is the total width of the pattern.
-/

namespace Verif.Spec

/-- A binary interchange format: exponent and mantissa width. -/
structure Fmt where
  e : Nat
  m : Nat

/-- `double` -/
def binary64 : Fmt := ⟨11, 52⟩
/-- `float` -/
def binary32 : Fmt := ⟨8, 23⟩

variable {W : Nat}

/-- The biased exponent field. -/
def Fmt.exponent (f : Fmt) (v : BitVec W) : BitVec f.e := v.extractLsb' f.m f.e
/-- The trailing significand field. -/
def Fmt.mantissa (f : Fmt) (v : BitVec W) : BitVec f.m := v.extractLsb' 0 f.m

/-- Zeros, subnormal and normal numbers. -/
def Fmt.IsFinite (f : Fmt) (v : BitVec W) : Prop := f.exponent v ≠ BitVec.allOnes f.e
def Fmt.IsInf (f : Fmt) (v : BitVec W) : Prop := f.exponent v = BitVec.allOnes f.e ∧ f.mantissa v = 0#f.m
def Fmt.IsNaN (f : Fmt) (v : BitVec W) : Prop := f.exponent v = BitVec.allOnes f.e ∧ f.mantissa v ≠ 0#f.m
/-- IEEE 754-2008, 6.2.1: the most significant mantissa bit of a quiet NaN is 1. -/
def Fmt.IsQuietNaN (f : Fmt) (v : BitVec W) : Prop := f.IsNaN v ∧ v.getLsbD (f.m - 1) = true
/-- The NaN payload: the mantissa without the quiet bit. -/
def Fmt.payload (f : Fmt) (v : BitVec W) : BitVec (f.m - 1) := v.extractLsb' 0 (f.m - 1)
/-- The quiet version of a NaN. -/
def Fmt.quiet (f : Fmt) (v : BitVec W) : BitVec W := v ||| BitVec.twoPow W (f.m - 1)

instance (f : Fmt) (v : BitVec W) : Decidable (f.IsFinite v) := inferInstanceAs (Decidable (_ ≠ _))
instance (f : Fmt) (v : BitVec W) : Decidable (f.IsInf v) := inferInstanceAs (Decidable (_ ∧ _))
instance (f : Fmt) (v : BitVec W) : Decidable (f.IsNaN v) := inferInstanceAs (Decidable (_ ∧ _))
instance (f : Fmt) (v : BitVec W) : Decidable (f.IsQuietNaN v) := inferInstanceAs (Decidable (_ ∧ _))

/-- Both zeros. -/
def Fmt.IsZero (f : Fmt) (v : BitVec W) : Prop := f.exponent v = 0#f.e ∧ f.mantissa v = 0#f.m
instance (f : Fmt) (v : BitVec W) : Decidable (f.IsZero v) := inferInstanceAs (Decidable (_ ∧ _))

/-- `==` of floating point numbers (IEEE 754-2008, 5.11): a NaN is unequal to everything, zeros are equal. -/
def Fmt.eq (f : Fmt) (a b : BitVec W) : Bool :=
  decide (¬ f.IsNaN a ∧ ¬ f.IsNaN b ∧ (a = b ∨ (f.IsZero a ∧ f.IsZero b)))

/-- The results a floating point instruction of x86 SSE (and of IEEE-754 recommended NaN propagation in general) may have
for operands `args`. Intel SDM vol. 1, 4.8.3.4-4.8.3.7: a NaN result is a quieted NaN operand, or, if no operand is a
NaN, the default NaN ("QNaN floating-point indefinite"; either sign is allowed here). Moves and sign operations
(negation, `fabs`, `copysign`) keep all bits except the sign. -/
inductive Fmt.Yields (f : Fmt) (args : List (BitVec W)) : BitVec W → Prop where
  | number (r) : ¬ f.IsNaN r → f.Yields args r
  | indefinite (r) : f.IsQuietNaN r → f.payload r = 0 → f.Yields args r
  | propagate (a) : a ∈ args → f.IsNaN a → f.Yields args (f.quiet a)
  | sign (a r) : a ∈ args → (∀ i, i < f.e + f.m → r.getLsbD i = a.getLsbD i) → f.Yields args r

/-- Values of a program that computes with doubles and floats. -/
inductive FVal where
  | d (v : BitVec 64)
  | f (v : BitVec 32)
deriving DecidableEq

/-- All values that a program can compute from the values `init`, by any number of operations. Conversions: a NaN keeps
the most significant bits of its payload (Intel SDM vol. 1, table 4-7); the result is a quiet NaN. -/
inductive Computes (init : FVal → Prop) : FVal → Prop where
  | input (v) : init v → Computes init v
  | opD (args : List (BitVec 64)) (r) : (∀ a ∈ args, Computes init (.d a)) → binary64.Yields args r → Computes init (.d r)
  | opF (args : List (BitVec 32)) (r) : (∀ a ∈ args, Computes init (.f a)) → binary32.Yields args r → Computes init (.f r)
  /-- comparison/integer results converted to floating point, and conversions of numbers, are numbers -/
  | numD (r) : ¬ binary64.IsNaN r → Computes init (.d r)
  | numF (r) : ¬ binary32.IsNaN r → Computes init (.f r)
  /-- `cvtsd2ss` of a NaN -/
  | narrow (a r) : Computes init (.d a) → binary64.IsNaN a → binary32.IsQuietNaN r →
      (binary32.payload r).toNat = (binary64.payload a).toNat / 2 ^ 29 → Computes init (.f r)
  /-- `cvtss2sd` of a NaN -/
  | widen (a r) : Computes init (.f a) → binary32.IsNaN a → binary64.IsQuietNaN r →
      (binary64.payload r).toNat = (binary32.payload a).toNat * 2 ^ 29 → Computes init (.d r)

/-- x86-64 canonical addresses with `n` implemented bits: the upper bits replicate bit `n-1`. -/
def Canonical (n : Nat) (p : BitVec 64) : Prop := (p.setWidth n).signExtend 64 = p

instance (n : Nat) (p : BitVec 64) : Decidable (Canonical n p) := inferInstanceAs (Decidable (_ = _))

end Verif.Spec
