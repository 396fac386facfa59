import Verif.Model.Select
import Verif.Spec.Reserved

/-!
# The run-time configuration of an instantiated optional

Joins the compile-time result (`Inst`) with the meaning of the types to the `Config` on which the operations of
`Model/Storage.lean` and `Model/Optional.lean` work.
-/

namespace Verif.Model
open Verif.Spec

/-- Meaning of the types of a program, with values in `V`. (for the types in optional.h:915-921) -/
structure Sem (V : Type) where
  /-- `sizeof` and `alignof` -/
  extent : Kind → Extent
  /-- object representation -/
  repr : Kind → V → Nat → Option Byte
  /-- the types of the data members of a class -/
  members : Nat → List QTy
  /-- value of the k-th member of a value of a class -/
  get : Nat → Nat → V → V
  /-- `operator==` -/
  eq : Kind → V → V → Bool
  /-- the value denoted by a converted constant -/
  const : Kind → Int → V
  /-- `is_empty` and the value made by `init_empty_flag` of a user's manipulator -/
  user : Nat → (V → Bool) × V

namespace Sem
variable {V : Type} (S : Sem V)

/-- Extents of the members of class `c`. (for optional.h:637-640) -/
def memberExtents (c : Nat) : List Extent := (S.members c).map fun t => S.extent t.kind

/-- `offsetof` member `k` of class `c`: what `v.storage.*memPtr` adds to the address (optional.h:639). -/
def offset (c k : Nat) : Nat := offsetOf (S.memberExtents c) k

/-- `GetIsEmptyFlag` through a member pointer, optional.h:637-640. -/
def memberLoc (p : MemPtr) : FlagLoc V :=
  ⟨S.offset p.cls p.idx, (S.extent p.var.kind).size, S.repr p.var.kind, S.get p.cls p.idx⟩

/-- The three decompositions, optional.h:572-646. -/
def decomp : DecompSel → Decomp V
  | .separate => .separate
  | .inplace => .inplace
  | .viaMember p => .viaMember (S.memberLoc p)

/-- The flag manipulators, optional.h:680-850 and the user's ones. -/
def manip : ManipInst → Manip V
  | .separate => .separate
  | .bits s => .memcpy s
  | .assign k v => .assign (S.const k v) (S.eq k)
  | .user id => .custom (S.user id).1 (S.user id).2

/-- The configuration of an instantiated optional. (optional.h:915-921) -/
def config (i : Inst) (ndebug : Bool) : Config V :=
  ⟨(S.extent i.payload.kind).size, S.repr i.payload.kind, S.decomp i.decomp, S.manip i.manip, ndebug⟩

end Sem

/-- What the language and the platform guarantee about types (x86/x64 if bit patterns are exploited): sane extents, class
layout, sizes of the types with known unused bits (they are also checked by `static_assert`s, optional.h:427, 438, 452,
502). -/
structure Sem.Lawful {V : Type} (P : Prog) (S : Sem V) : Prop where
  ok : ∀ k, (S.extent k).OK
  clsExtent : ∀ c, S.extent (.cls c) = classExtent (S.memberExtents c)
  clsRepr : ∀ c v, S.repr (.cls c) v = classRepr
    ((S.members c).zipIdx.map fun m => (S.extent m.1.kind, S.repr m.1.kind (S.get c m.2 v)))
  bool : (S.extent .bool).size = 1
  float : (S.extent (.flt 0)).size = 4
  double : (S.extent (.flt 1)).size = 8
  ptr64 : P.set.arch = .x64 → ∀ i, (S.extent (.ptr i)).size = 8
  ptr32 : P.set.arch = .x86 → ∀ i, (S.extent (.ptr i)).size = 4

/-- A member pointer constant that denotes a member: `&C::m` has the type of the member `m`. (optional.h:340-350, 631-632) -/
def MemPtr.Valid {V : Type} (S : Sem V) (p : MemPtr) : Prop := p.null = false → (S.members p.cls)[p.idx]? = some p.var

/-- Member pointers among the arguments are valid. (optional.h:2099-2137) -/
def NTTP.Valid {V : Type} (S : Sem V) : NTTP → Prop
  | .memPtr p => p.Valid S
  | _ => True

/-- The same for a use of the library. (optional.h:2154-2385) -/
def Entry.Valid {V : Type} (S : Sem V) : Entry → Prop
  | .optional _ a _ => a.Valid S
  | .viaType _ _ m => m.Valid S
  | .inplace _ _ => True
  | .aip _ s => ∀ a, s = some a → a.Valid S

/-- What the documentation demands of sentinels and manipulators: the value that marks "empty" is recognised as such. (README.md, sections
on sentinels; optional.h:955-959 asserts it) -/
def Inst.Reflexive {V : Type} (S : Sem V) (i : Inst) : Prop :=
  match i.manip with
  | .assign k v => S.eq k (S.const k v) (S.const k v) = true
  | .user id => (S.user id).1 (S.user id).2 = true
  | _ => True

end Verif.Model
