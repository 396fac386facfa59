/-!
# Special member functions of classes, and those of `std::optional`

First the rules of C++17 ([class.copy.ctor], [class.copy.assign], [except.spec]) for a class with one base class, then the
table of [optional.ctor], [optional.assign]. Nothing here describes tiny-optional.
-/

namespace Verif.Spec

/-- What a special member function ends up doing with the payload. -/
inductive Action where
  | copyConstruct | moveConstruct | copyAssign | moveAssign
deriving DecidableEq, Repr

/-- How a class declares a special member function. -/
inductive Decl where
  | undeclared
  | deleted
  | defaulted
  /-- user-provided, with its effect and whether it is noexcept -/
  | provided (a : Action) (nothrow : Bool)
deriving DecidableEq, Repr

structure ClassDecl where
  copyCtor : Decl
  moveCtor : Decl
  copyAssign : Decl
  moveAssign : Decl
  /-- the destructor is user-declared -/
  dtor : Bool

/-- What overload resolution finds. -/
inductive Member where
  /-- not declared, or a defaulted move operation that is defined as deleted: ignored by overload resolution -/
  | absent
  | deleted
  | usable (a : Action) (nothrow : Bool)
deriving DecidableEq, Repr

structure Members where
  copyCtor : Member
  moveCtor : Member
  copyAssign : Member
  moveAssign : Member

/-- The operation exists: its effect and whether it is noexcept. `none`: ill-formed. -/
def Member.use : Member → Option (Action × Bool)
  | .usable a n => some (a, n)
  | _ => none

/-- Construction from a const lvalue: only the copy constructor is viable. -/
def Members.ctorLvalue (m : Members) : Option (Action × Bool) := m.copyCtor.use

/-- Construction from an rvalue: the move constructor is the better match if it is a candidate. -/
def Members.ctorRvalue (m : Members) : Option (Action × Bool) :=
  match m.moveCtor with
  | .absent => m.copyCtor.use
  | x => x.use

def Members.assignLvalue (m : Members) : Option (Action × Bool) := m.copyAssign.use

def Members.assignRvalue (m : Members) : Option (Action × Bool) :=
  match m.moveAssign with
  | .absent => m.copyAssign.use
  | x => x.use

/-- A defaulted copy operation: deleted if the base class' one cannot be used. -/
def defaultedCopy : Option (Action × Bool) → Member
  | some (a, n) => .usable a n
  | none => .deleted

/-- A defaulted move operation: ignored by overload resolution if it would be deleted. -/
def defaultedMove : Option (Action × Bool) → Member
  | some (a, n) => .usable a n
  | none => .absent

/-- A copy operation; `moves`: the class declares a move operation. -/
def resolveCopy (d : Decl) (moves : Bool) (base : Option (Action × Bool)) : Member :=
  match d with
  | .provided a n => .usable a n
  | .deleted => .deleted
  | .defaulted => defaultedCopy base
  | .undeclared => if moves then .deleted else defaultedCopy base

/-- A move operation; `others`: the class declares another special member. -/
def resolveMove (d : Decl) (others : Bool) (base : Option (Action × Bool)) : Member :=
  match d with
  | .provided a n => .usable a n
  | .deleted => .deleted
  | .defaulted => defaultedMove base
  | .undeclared => if others then .absent else defaultedMove base

/-- The special members of a class derived from a class with members `base`, without further subobjects. -/
def resolve (base : Members) (d : ClassDecl) : Members where
  copyCtor := resolveCopy d.copyCtor (d.moveCtor != .undeclared || d.moveAssign != .undeclared) base.ctorLvalue
  moveCtor := resolveMove d.moveCtor
    (d.copyCtor != .undeclared || d.copyAssign != .undeclared || d.moveAssign != .undeclared || d.dtor) base.ctorRvalue
  copyAssign := resolveCopy d.copyAssign (d.moveCtor != .undeclared || d.moveAssign != .undeclared) base.assignLvalue
  moveAssign := resolveMove d.moveAssign
    (d.copyCtor != .undeclared || d.moveCtor != .undeclared || d.copyAssign != .undeclared || d.dtor) base.assignRvalue

/-- Type traits of the payload. -/
structure Traits where
  copyConstructible : Bool
  moveConstructible : Bool
  copyAssignable : Bool
  moveAssignable : Bool
  nothrowMoveConstructible : Bool
  nothrowMoveAssignable : Bool

/-- Members of `std::optional<T>` ([optional.ctor], [optional.assign]): the copy constructor is deleted unless T is copy
constructible; the move constructor takes part in overload resolution only if T is move constructible; the copy
assignment is deleted unless T is copy constructible and copy assignable; the move assignment takes part only if T is
move constructible and move assignable. Only the moves have a written noexcept specification (`Spec/ExceptSpec.lean` adds what follows from
triviality). -/
def stdOptional (t : Traits) : Members where
  copyCtor := if t.copyConstructible then .usable .copyConstruct false else .deleted
  moveCtor := if t.moveConstructible then .usable .moveConstruct t.nothrowMoveConstructible else .absent
  copyAssign := if t.copyConstructible && t.copyAssignable then .usable .copyAssign false else .deleted
  moveAssign := if t.moveConstructible && t.moveAssignable then
    .usable .moveAssign (t.nothrowMoveAssignable && t.nothrowMoveConstructible) else .absent

end Verif.Spec
