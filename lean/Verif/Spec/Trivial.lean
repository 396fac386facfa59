import Verif.Spec.SpecialMembers

/-!
# Trivial special member functions

The rules of C++17 for a class with one base class and no virtual functions ([class.ctor]/6, [class.copy.ctor]/11, [class.copy.assign]/9,
[class.dtor]/6): a special member function is trivial if it is not user-provided and the function of the base class that it calls is
trivial. Then the type traits ([meta.unary.prop]), and which functions of `std::optional` are trivial ([optional.ctor], [optional.dtor],
[optional.assign]). Nothing here describes tiny-optional.
-/

namespace Verif.Spec

/-- For each special member function: it is usable and trivial. -/
structure Trivial where
  defaultCtor : Bool
  copyCtor : Bool
  moveCtor : Bool
  copyAssign : Bool
  moveAssign : Bool
  dtor : Bool
deriving DecidableEq

/-- A class together with its constructor without parameters and its destructor: are they user-provided? -/
structure FullDecl where
  decl : ClassDecl
  defaultCtorProvided : Bool
  dtorProvided : Bool

/-- A function declared as `d`, of which overload resolution finds `m`; `base`: the function called for the base class is trivial. -/
def trivialMember (d : Decl) (m : Member) (base : Bool) : Bool :=
  match d, m with
  | .provided _ _, _ => false
  | _, .usable _ _ => base
  | _, _ => false

/-- The function that constructs from an rvalue is trivial. -/
def Trivial.ctorRvalue (m : Members) (t : Trivial) : Bool :=
  match m.moveCtor with
  | .absent => t.copyCtor
  | _ => t.moveCtor
def Trivial.assignRvalue (m : Members) (t : Trivial) : Bool :=
  match m.moveAssign with
  | .absent => t.copyAssign
  | _ => t.moveAssign

/-- A class derived from `base`. -/
def resolveTrivial (base : Members × Trivial) (d : FullDecl) : Members × Trivial :=
  let m := resolve base.1 d.decl
  (m, { defaultCtor := !d.defaultCtorProvided && base.2.defaultCtor
        copyCtor := trivialMember d.decl.copyCtor m.copyCtor base.2.copyCtor
        moveCtor := trivialMember d.decl.moveCtor m.moveCtor (base.2.ctorRvalue base.1)
        copyAssign := trivialMember d.decl.copyAssign m.copyAssign base.2.copyAssign
        moveAssign := trivialMember d.decl.moveAssign m.moveAssign (base.2.assignRvalue base.1)
        dtor := !d.dtorProvided && base.2.dtor })

/-- The type traits of a class. Those about construction are about a variable definition and hence include the destructor. -/
structure TrivialTraits where
  defaultConstructible : Bool
  copyConstructible : Bool
  moveConstructible : Bool
  copyAssignable : Bool
  moveAssignable : Bool
  destructible : Bool
  /-- [class.prop]: no usable copy or move operation is not trivial, at least one is usable, the destructor is trivial -/
  copyable : Bool
deriving DecidableEq

def usable : Member → Bool
  | .usable _ _ => true
  | _ => false

def traitsOf (c : Members × Trivial) : TrivialTraits where
  defaultConstructible := c.2.defaultCtor && c.2.dtor
  copyConstructible := c.2.copyCtor && c.2.dtor
  moveConstructible := c.2.ctorRvalue c.1 && c.2.dtor
  copyAssignable := c.2.copyAssign
  moveAssignable := c.2.assignRvalue c.1
  destructible := c.2.dtor
  copyable :=
    (!usable c.1.copyCtor || c.2.copyCtor) && (!usable c.1.moveCtor || c.2.moveCtor) &&
    (!usable c.1.copyAssign || c.2.copyAssign) && (!usable c.1.moveAssign || c.2.moveAssign) &&
    (usable c.1.copyCtor || usable c.1.moveCtor || usable c.1.copyAssign || usable c.1.moveAssign) && c.2.dtor

/-- What `std::optional` requires of its functions, for a payload with the traits `p`. -/
def stdTrivial (t : Traits) (p : TrivialTraits) : Members × Trivial :=
  (stdOptional t,
    { defaultCtor := false
      copyCtor := t.copyConstructible && p.copyConstructible
      moveCtor := t.moveConstructible && p.moveConstructible
      copyAssign := t.copyConstructible && t.copyAssignable && p.copyConstructible && p.copyAssignable && p.destructible
      moveAssign := t.moveConstructible && t.moveAssignable && p.moveConstructible && p.moveAssignable && p.destructible
      dtor := p.destructible })

end Verif.Spec
