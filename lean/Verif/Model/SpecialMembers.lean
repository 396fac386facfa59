import Verif.Spec.Trivial

/-!
# The declarations of the special members (optional.h:916-1446, 2195-2220)

The bodies of the user-provided ones are in `Model/Optional.lean`.
-/

namespace Verif.Model
open Verif.Spec

/-- `StorageBase`: everything deleted, optional.h:988-991; the destructor is user-provided (978). -/
def storageBase : Members := ⟨.deleted, .deleted, .deleted, .deleted⟩

/-- `MoveConstructionBase`, optional.h:1164-1211. -/
def moveConstructionBase (t : Traits) : ClassDecl where
  copyCtor := .defaulted
  moveCtor := if t.moveConstructible then .provided .moveConstruct t.nothrowMoveConstructible else .deleted
  copyAssign := .undeclared
  moveAssign := .undeclared
  dtor := false

/-- `CopyConstructionBase`, optional.h:1223-1266. -/
def copyConstructionBase (t : Traits) : ClassDecl where
  copyCtor := if t.copyConstructible then .provided .copyConstruct false else .deleted
  moveCtor := .defaulted
  copyAssign := .undeclared
  moveAssign := .undeclared
  dtor := false

/-- `MoveAssignmentBase`, optional.h:1278-1328. -/
def moveAssignmentBase (t : Traits) : ClassDecl where
  copyCtor := .defaulted
  moveCtor := .defaulted
  copyAssign := .defaulted
  moveAssign := if t.moveConstructible && t.moveAssignable then
    .provided .moveAssign (t.nothrowMoveAssignable && t.nothrowMoveConstructible) else .deleted
  dtor := false

/-- `CopyAssignmentBase`, optional.h:1340-1383. -/
def copyAssignmentBase (t : Traits) : ClassDecl where
  copyCtor := .defaulted
  moveCtor := .defaulted
  copyAssign := if t.copyConstructible && t.copyAssignable then .provided .copyAssign false else .deleted
  moveAssign := .defaulted
  dtor := false

/-- `TinyOptionalImpl`, optional.h:1440-1446, and `optional`, optional.h:2210-2215. -/
def allDefaulted : ClassDecl := ⟨.defaulted, .defaulted, .defaulted, .defaulted, true⟩

/-- Special members of `TinyOptionalImpl` (`optional_inplace`, `optional_sentinel_via_type`). (optional.h:1390-1391, 1441-1446) -/
def tinyOptionalImpl (t : Traits) : Members :=
  [moveConstructionBase t, copyConstructionBase t, moveAssignmentBase t, copyAssignmentBase t, allDefaulted].foldl resolve
    storageBase

/-- Special members of `tiny::optional`. (optional.h:2195-2216) -/
def optionalMembers (t : Traits) : Members := resolve (tinyOptionalImpl t) allDefaulted

/-- `StorageBase`: constructor without parameters (optional.h:955-959) and destructor (978-983) are user-provided. -/
def storageBaseTrivial : Members × Trivial := (storageBase, ⟨false, false, false, false, false, false⟩)

/-- The classes in between default their constructor without parameters (optional.h:1175, 1206, 1232, 1260, 1287, 1320, 1347, 1376, 1441, 2211); the
destructor is not declared, or defaulted (1446, 2216). -/
def notProvided (d : ClassDecl) : FullDecl := ⟨d, false, false⟩

/-- `TinyOptionalImpl`, with the triviality of its members. (optional.h:1390-1391, 1441-1446) -/
def tinyOptionalImplTrivial (t : Traits) : Members × Trivial :=
  ([moveConstructionBase t, copyConstructionBase t, moveAssignmentBase t, copyAssignmentBase t, allDefaulted].map notProvided).foldl
    resolveTrivial storageBaseTrivial

/-- `tiny::optional`, with the triviality of its members. (optional.h:2195-2216) -/
def optionalTrivial (t : Traits) : Members × Trivial := resolveTrivial (tinyOptionalImplTrivial t) (notProvided allDefaulted)

end Verif.Model
