import Verif.Model.Instance

/-!
# Translation units

What a compiler sees of a program that consists of several translation units (README "Teaching `tiny::optional` about custom types",
398-410, 530-545): the type of an optional is instantiated at its first use in a translation unit, with those specialisations of
`optional_flag_manipulator` that have been declared before. Rules of the language: [temp.expl.spec]/7, [basic.types]/5,
[dcl.enum]/3, [class.mem]/17. `optional.h` itself precedes all uses; the library's own specialisations (883-889) are therefore seen
by all of them.
-/

namespace Verif.Model

/-- The declarations that matter, in the order of the translation unit after preprocessing. (for optional.h:217-220, 2154, 2195, 2318,
2384) -/
inductive TopDecl where
  /-- a class or enumeration is declared without being defined: `struct S;`, `enum class E;` -/
  | declare (k : Kind)
  | define (k : Kind)
  /-- the explicit specialisation of `optional_flag_manipulator` for `t` -/
  | specialise (t : QTy)
  /-- a partial specialisation of `optional_flag_manipulator` -/
  | generic (id : Nat)
  /-- something that needs the definition of a type of the library -/
  | use (e : Entry)

/-- Types that have a definition in the program. (for the payload types in optional.h:951-953) -/
def Kind.userDefined : Kind → Bool
  | .cls _ | .enumScoped _ _ | .enumUnscoped _ _ => true
  | _ => false

/-- Can the type be used without its definition, as soon as it is declared? Not a class. Enumerations can, unless they are defined
within a class (`inClass`), or are unscoped and have no fixed underlying type (`fixed`). (for optional.h:945-953) -/
def opaqueDeclarable (inClass fixed : Nat → Bool) : Kind → Bool
  | .enumScoped id _ => !inClass id
  | .enumUnscoped id _ => !inClass id && fixed id
  | _ => false

/-- The type is complete after these declarations. (for optional.h:945-953) -/
def Complete (opq : Kind → Bool) (before : List TopDecl) (k : Kind) : Prop :=
  k.userDefined = false ∨ .define k ∈ before ∨ (opq k = true ∧ .declare k ∈ before)

/-- The member pointer in a use of the library. (optional.h:2128-2130, 2154) -/
def Entry.memPtr? : Entry → Option MemPtr
  | .optional _ (.memPtr p) _ => some p
  | .viaType _ _ (.memPtr p) => some p
  | .aip _ (some (.memPtr p)) => some p
  | _ => none

/-- A translation unit that the compiler accepts as far as completeness is concerned: the members of a class are complete when it
is defined; so are payloads when an optional is used; member pointers are written as `&C::m`, where `C` is complete. (for
optional.h:340-350, 945-953) -/
structure UnitOK {V : Type} (S : Sem V) (opq : Kind → Bool) (u : List TopDecl) : Prop where
  members : ∀ pre c post, u = pre ++ .define (.cls c) :: post → ∀ t ∈ S.members c, Complete opq pre t.kind
  uses : ∀ pre e post, u = pre ++ .use e :: post → Complete opq pre e.payload.kind ∧ e.Valid S ∧
    ∀ p, e.memPtr? = some p → p.null = false ∧ Complete opq pre (.cls p.cls)

/-- `P` is the program with all its specialisations; what the compiler sees of it after these declarations. (optional.h:217-220) -/
def seen (P : Prog) (before : List TopDecl) : Prog :=
  { P with
    full := fun t => if before.any (fun | .specialise t' => t' == t | _ => false) then P.full t else none
    partials := fun t => (P.partials t).filter fun id => before.any (fun | .generic id' => id' == id | _ => false) }

/-- The types of a translation unit: each use of the library with what the compiler makes of it. (optional.h:2154, 2195, 2318, 2384) -/
def instantiations (P : Prog) : (before rest : List TopDecl) → List (Entry × Except Err Inst)
  | _, [] => []
  | before, .use e :: rest => (e, compile (seen P before) e) :: instantiations P (before ++ [.use e]) rest
  | before, d :: rest => instantiations P (before ++ [d]) rest

end Verif.Model
