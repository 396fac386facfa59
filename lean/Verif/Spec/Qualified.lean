/-!
# `const` and `volatile`

The language rules about qualified types, as far as they concern an optional that stores an object of a qualified type.
-/

namespace Verif.Spec.Qualified

/-- `const` and `volatile` at the top level of a type. -/
structure Quals where
  const : Bool
  volatile : Bool
deriving DecidableEq, Repr

/-- No qualifier. -/
def Quals.none : Quals := ⟨false, false⟩

/-- `T const`. -/
def Quals.addConst (q : Quals) : Quals := ⟨true, q.volatile⟩

/-- The qualifiers of a member access `e.m` are those of `e` and those of `m`. ([expr.ref]) -/
def Quals.union (p q : Quals) : Quals := ⟨p.const || q.const, p.volatile || q.volatile⟩

/-- `p` is at most as qualified as `q`. ([basic.type.qualifier]) -/
def Quals.le (p q : Quals) : Prop := (p.const = true → q.const = true) ∧ (p.volatile = true → q.volatile = true)

instance (p q : Quals) : Decidable (p.le q) := inferInstanceAs (Decidable (_ ∧ _))

/-- A reference to `q T` is initialised with an lvalue of the type `e T`. -/
structure Binding where
  expr : Quals
  ref : Quals
deriving DecidableEq, Repr

/-- The initialisation is well-formed: [dcl.init.ref] asks for a reference that is at least as qualified as the expression. (An lvalue
reference to a less qualified type binds to nothing, there is no conversion.) -/
def Binding.wellFormed (b : Binding) : Prop := b.expr.le b.ref

instance (b : Binding) : Decidable b.wellFormed := inferInstanceAs (Decidable (b.expr.le b.ref))

/-- An object with the qualifiers `object` is read through a glvalue with the qualifiers `via`. -/
structure Read where
  object : Quals
  via : Quals
deriving DecidableEq, Repr

/-- [dcl.type.cv]: reading an object defined with a volatile-qualified type through a glvalue without `volatile` is undefined. -/
def Read.defined (r : Read) : Prop := r.object.volatile = true → r.via.volatile = true

instance (r : Read) : Decidable r.defined := inferInstanceAs (Decidable (_ → _))

/-- The text of the standard: [basic.life]/8 was relaxed after C++17. -/
inductive Edition where
  | cpp17
  | cpp20
deriving DecidableEq, Repr

/-- An object created in the storage of a data member. -/
structure Created where
  quals : Quals
  /-- it is of a class type with a non-static data member whose type is const-qualified or a reference -/
  hasConstMember : Bool
deriving DecidableEq, Repr

/-- [basic.life]/8: the name of an object refers to a new object of the same type in the same storage only if the old one has, until C++17, no
const-qualified type and no const or reference member. Since C++20 only complete objects that are `const` are excluded; an object in the
storage of a data member and of the type of the member is a subobject ([intro.object]/2). -/
def Created.replaceable (o : Created) : Edition → Bool
  | .cpp17 => !o.quals.const && !o.hasConstMember
  | .cpp20 => true

/-- The name of the data member refers to the object that was created last in its storage (the list is in the order of creation). -/
def nameRefers (e : Edition) (objects : List Created) : Bool := objects.dropLast.all (·.replaceable e)

end Verif.Spec.Qualified
