import Verif.Spec.Base

/-!
# Object layout of C++ classes

The layout rule shared by the x86/x64 ABIs (Itanium, MSVC) for the non-static data members of a class: each member is
put at the next address that is a multiple of its alignment, in order of declaration; the class is aligned to its most
strictly aligned member and its size is rounded up to that alignment; an empty class has size 1. Base classes and
virtual table pointers act like leading members. Not covered: bit-fields, `[[no_unique_address]]`, reuse of tail padding.
-/

namespace Verif.Spec

/-- The smallest multiple of `a` that is at least `n`. -/
def alignUp (n a : Nat) : Nat := (n + a - 1) / a * a

/-- What the layout needs to know about a member: `sizeof` and `alignof` of its type. -/
structure Extent where
  size : Nat
  align : Nat
deriving DecidableEq, Repr

/-- Extents of C++ object types: both positive, and `sizeof` is a multiple of `alignof` ([expr.sizeof]: arrays have no
gaps). -/
structure Extent.OK (e : Extent) : Prop where
  size_pos : 0 < e.size
  align_pos : 0 < e.align
  mult : e.align ∣ e.size

/-- Offset of each member, when the first free byte is `free`. -/
def offsetsFrom (free : Nat) : List Extent → List Nat
  | [] => []
  | e :: es => alignUp free e.align :: offsetsFrom (alignUp free e.align + e.size) es

/-- First byte behind the last member. -/
def endFrom (free : Nat) : List Extent → Nat
  | [] => free
  | e :: es => endFrom (alignUp free e.align + e.size) es

/-- `alignof` of the class. -/
def classAlign (es : List Extent) : Nat := es.foldr (fun e a => max e.align a) 1

/-- Layout of a class with the given members. -/
def classExtent (es : List Extent) : Extent :=
  ⟨alignUp (max 1 (endFrom 0 es)) (classAlign es), classAlign es⟩

/-- `offsetof` the `k`-th member. -/
def offsetOf (es : List Extent) (k : Nat) : Nat := ((offsetsFrom 0 es)[k]?).getD 0

/-- Object representation of a class: the bytes of each member at its place, padding elsewhere. -/
def classReprFrom (free : Nat) : List (Extent × (Nat → Option (BitVec 8))) → Nat → Option (BitVec 8)
  | [], _ => none
  | (e, r) :: ms, i =>
    let off := alignUp free e.align
    if off ≤ i ∧ i < off + e.size then r (i - off) else classReprFrom (off + e.size) ms i

def classRepr (ms : List (Extent × (Nat → Option (BitVec 8)))) : Nat → Option (BitVec 8) := classReprFrom 0 ms

end Verif.Spec
