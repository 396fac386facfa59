import Verif.Model.Trait

/-!
# What `is_tiny_optional_v` is documented to be, and name lookup as a relation
-/

namespace Verif.Spec
open Verif.Model (Cls Bases Member TraitTy implCls optionalCls)

/-- The classes of the library: specializations of `TinyOptionalImpl` and `tiny::optional`. -/
inductive LibraryOptional : Cls → Prop where
  | impl (id : Nat) (bs : Bases) : LibraryOptional (implCls id bs)
  | optional (id implId : Nat) (bs : Bases) : LibraryOptional (optionalCls id implId bs)

/-- README.md:264: "true if `T` is an optional defined by this library (...). It is false for any other type". -/
def Documented (u : TraitTy) : Prop := ∃ c cv vol, u = .cls c cv vol ∧ LibraryOptional c

/-- `c` is one of the direct base classes in the list, with the given access. -/
inductive BaseIn : Bool → Cls → Bases → Prop where
  | head (pub c rest) : BaseIn pub c (.cons pub c rest)
  | tail {pub c} (p d rest) : BaseIn pub c rest → BaseIn pub c (.cons p d rest)

/-- `Reaches pub c d`: the class `d` is `c` or a base class of `c`, along a path on which no class before `d` declares the name;
`pub` says whether all steps of the path are public. -/
inductive Reaches : Bool → Cls → Cls → Prop where
  | self (c) : Reaches true c c
  | step {pub pub' l e bs b d} : BaseIn pub b bs → Reaches pub' b d → Reaches (pub && pub') (.mk l e none bs) d

/-- The class `d` declares the name, as `m`. -/
def Declares (d : Cls) (e : Nat) (m : Member) : Prop := ∃ l bs, d = .mk l e (some m) bs

/-- The member named `is_tiny_optional` of the class `c` can be used, and is `m`: a declaration is found; all declarations that are
found belong to the same class; one of them is public and reached by public inheritance. -/
def Usable (c : Cls) (m : Member) : Prop :=
  ∃ e, (∃ d, Reaches true c d ∧ Declares d e m ∧ m.isPublic = true) ∧
    ∀ pub d e' m', Reaches pub c d → Declares d e' m' → e' = e

/-- Entities are identified by their numbers: in the class `c` and its base classes, declarations with the same number are the same. -/
def Coherent (c : Cls) : Prop :=
  ∀ p p' d d' e m m', Reaches p c d → Reaches p' c d' → Declares d e m → Declares d' e m' → m = m'

end Verif.Spec
