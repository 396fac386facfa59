import Verif.Spec.Layout

/-!
# The example types of the README, and which of their values it allows in an optional

`int` has 32 bits, `std::size_t`, pointers and `std::chrono::microseconds` have 64 bits (x64). Nothing here describes how the library works.
-/

namespace Verif.Spec.Readme

/-- `MyNamespace::IndexPair` -/
structure IndexPair where
  index1 : BitVec 32
  index2 : BitVec 32
deriving DecidableEq, Repr

/-- "Both can never be negative at the same time." (README:322) -/
def IndexPair.Allowed (p : IndexPair) : Prop := ¬ (p.index1.toInt < 0 ∧ p.index2.toInt < 0)

/-- `Iterator` -/
structure Iterator where
  isValid : Bool
  index : BitVec 64
deriving DecidableEq, Repr

/-- "the iterator is always valid if the optional is not empty" (README:594) -/
def Iterator.Allowed (i : Iterator) : Prop := i.isValid = true

/-- `Data` -/
structure Data where
  var1 : BitVec 32
  var2 : BitVec 64
  var3 : BitVec 64
deriving DecidableEq, Repr

/-- `optional<int, -1>`: "`-1` cannot be stored" (README:130) -/
def indexAllowed (i : BitVec 32) : Prop := i.toInt ≠ -1

/-- `optional<Data, &Data::var1, -1>`: all values but the sentinel in that member (README:209) -/
def Data.Allowed1 (d : Data) : Prop := d.var1.toInt ≠ -1

/-- The enumerators of `MyEnum`, numbered from 0; an enumeration with fixed underlying type `int` has all its values. -/
def value1 : BitVec 32 := 0
def value2 : BitVec 32 := 1
def enumMax : BitVec 32 := 2

/-- "Max // Does not represent a valid value." (README:513) -/
def enumAllowed (e : BitVec 32) : Prop := e ≠ enumMax

/-- All but `std::chrono::microseconds::min()`, of which the count is the least value of the representation: "it is no longer a valid value to
store" (README:654-655) -/
def microAllowed (t : BitVec 64) : Prop := ∃ u : BitVec 64, u.toInt < t.toInt

/-- Members of the classes. -/
def int32 : Extent := ⟨4, 4⟩
def word64 : Extent := ⟨8, 8⟩
def bool8 : Extent := ⟨1, 1⟩

end Verif.Spec.Readme
