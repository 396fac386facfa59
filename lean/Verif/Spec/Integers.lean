/-!
# C++ integer types

[basic.fundamental], [conv.rank], [conv.prom], [conv.integral], [expr.arith.conv] for arbitrary data models.
-/

namespace Verif.Spec

/-- A data model: widths of the integer types by conversion rank, and the rank of `int`. A signed type and the
corresponding unsigned type have the same rank and width; a higher rank is not narrower. -/
structure DataModel where
  bits : Nat → Nat
  intRank : Nat
  pos : ∀ r, 0 < bits r
  mono : ∀ r s, r ≤ s → bits r ≤ bits s

/-- An integer type (other than `bool`). `tag` distinguishes types with equal rank and signedness, such as `char` and
`signed char`, or `wchar_t` and `int`. -/
structure IntTy where
  rank : Nat
  signed : Bool
  tag : Nat
deriving DecidableEq, Repr

variable (dm : DataModel)

/-- Smallest value (`numeric_limits<T>::lowest()`). -/
def IntTy.min (t : IntTy) : Int := if t.signed then -2 ^ (dm.bits t.rank - 1) else 0
/-- Largest value (`numeric_limits<T>::max()`). -/
def IntTy.max (t : IntTy) : Int := if t.signed then 2 ^ (dm.bits t.rank - 1) - 1 else 2 ^ dm.bits t.rank - 1

/-- `v` is a value of type `t`. -/
def IntTy.Has (t : IntTy) (v : Int) : Prop := t.min dm ≤ v ∧ v ≤ t.max dm

/-- [conv.integral]: conversion to an integer type, the unique congruent value modulo 2^width. -/
def IntTy.cast (t : IntTy) (v : Int) : Int :=
  if t.signed then (v + 2 ^ (dm.bits t.rank - 1)) % 2 ^ dm.bits t.rank - 2 ^ (dm.bits t.rank - 1)
  else v % 2 ^ dm.bits t.rank

/-- `int` and `unsigned int` -/
def IntTy.int : IntTy := ⟨dm.intRank, true, 0⟩
def IntTy.uint : IntTy := ⟨dm.intRank, false, 0⟩

/-- `std::make_unsigned_t` -/
def IntTy.makeUnsigned (t : IntTy) : IntTy := if t.signed then { t with signed := false } else t

/-- [conv.prom]: types of lower rank than `int` become `int` if it can represent all their values, otherwise
`unsigned int`. -/
def IntTy.promote (t : IntTy) : IntTy :=
  if t.rank < dm.intRank then
    if (IntTy.int dm).min dm ≤ t.min dm ∧ t.max dm ≤ (IntTy.int dm).max dm then IntTy.int dm else IntTy.uint dm
  else t

/-- [expr.arith.conv], the part for integer types after promotion. -/
def arithConv (a b : IntTy) : IntTy :=
  if a = b then a
  else if a.signed = b.signed then (if a.rank < b.rank then b else a)
  else
    let u := if a.signed then b else a
    let s := if a.signed then a else b
    if s.rank ≤ u.rank then u
    else if s.min dm ≤ u.min dm ∧ u.max dm ≤ s.max dm then s
    else s.makeUnsigned

/-- `std::common_type_t<A, B>`: the type of `false ? a : b`. For identical types no conversion takes place. -/
def commonType (a b : IntTy) : IntTy :=
  if a = b then a else arithConv dm (a.promote dm) (b.promote dm)

end Verif.Spec
