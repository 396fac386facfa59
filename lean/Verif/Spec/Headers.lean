import Verif.Model.Preprocessor

/-!
# What is expected of the headers
-/

namespace Verif.Spec.Headers
open Verif.Spec Verif.Model Verif.Model.Pre

/-- Names that belong to the library: its users neither define nor undefine them, nor are they reserved for anything else.
`bit`, `noBit`, `mem` and `noMem` are ordinary words; the library relies on them not being macros. -/
def Internal : Name → Bool
  | .version | .cpp20 | .x64 | .x86 | .threeway | .workaround | .orElse | .bitsPart | .memPart | .concatImpl | .concat | .nsBegin
  | .nsEnd | .declared | .compareMacro | .bit | .noBit | .mem | .noMem | .tiny | .underscore | .inlineNamespace | .piece _
  | .userSpecialisation _ => true
  | _ => false

/-- No internal name is a macro. -/
def Clean (env : Macros Name) : Prop := ∀ n, Internal n = true → env n = none

/-- The language is older than C++17 (documented requirement, README "Requirements"). -/
def TooOld (env : Macros Name) : Prop :=
  env.num .cplusplus < 201703 ∧ env.num .msvcLang < 201703

instance (env : Macros Name) : Decidable (TooOld env) := inferInstanceAs (Decidable (_ ∧ _))

def has (env : Macros Name) (n : Name) : Bool := (env n).isSome

/-- The architecture according to the macros of the compilers. -/
def archOf (env : Macros Name) : Arch :=
  if has env .x86_64 || has env .mX64 then .x64
  else if has env .i386 || has env .i386__ || has env .__i386 || has env .mIX86 then .x86
  else .other

/-- The macros of the user and the architecture. -/
def settingsOf (env : Macros Name) : Settings :=
  ⟨has env .ubTricks, has env .unusedBits, has env .member, archOf env⟩

/-- The standard library has `<=>`. -/
def threewayOf (env : Macros Name) : Bool := has env .libThreeWay
/-- The compiler is gcc (clang also defines the macros of gcc). -/
def isGcc (env : Macros Name) : Bool := (has env .gnuc || has env .gnug) && !has env .clang
/-- Concepts are available. -/
def conceptsOf (env : Macros Name) : Bool := has env .cppConcepts && has env .libConcepts

/-- The header has to be rejected: old language, or the architecture is not supported by a feature that is not disabled. -/
def Rejected (env : Macros Name) : Prop :=
  TooOld env ∨ (archOf env = .other ∧ ¬ ((settingsOf env).noBits = true ∧ (settingsOf env).noMem = true))

/-- The piece is part of the library for these macros. -/
def Present (env : Macros Name) : Piece → Prop
  | .bitSentinels | .pointerSentinelSize | .bitsKnown => (settingsOf env).noBits = false
  | .bitsUnknown => (settingsOf env).noBits = true
  | .pointerSentinel64 => (settingsOf env).noBits = false ∧ archOf env = .x64
  | .pointerSentinel32 => (settingsOf env).noBits = false ∧ archOf env = .x86
  | .viaMember | .memberDecomposition _ => (settingsOf env).noMem = false
  | .separateDecomposition _ => (settingsOf env).noMem = true
  | .copyableNoCv => has env .gnug = true ∧ has env .clang = false ∧ env.num .gnuc ≤ 9
  | .copyable => ¬ (has env .gnug = true ∧ has env .clang = false ∧ env.num .gnuc ≤ 9)
  | .implOrElse | .optionalOrElse => conceptsOf env = true
  | .withNullopt _ => threewayOf env = false ∨ isGcc env = true
  | .spaceship | .spaceshipEnd => threewayOf env = true
  | .spaceshipGcc => threewayOf env = true ∧ isGcc env = true
  | _ => True

/-- Tokens that need a declaration of `optional_flag_manipulator` before them. -/
def NeedsDeclaration : Tok Name → Bool
  | .id (.userSpecialisation _) | .id (.piece .primaryManip) | .id (.piece .bitsManip) | .id (.piece .hasCustom) => true
  | _ => false

/-- Tokens of the library; all others are the user's. -/
def FromLibrary : Tok Name → Bool
  | .id (.userSpecialisation _) => false
  | _ => true

/-- Rules of the language for a preprocessed translation unit: the default argument of `optional_flag_manipulator` is given once, by
the declaration that comes first ([temp.param]/10-12); nothing is defined twice ([basic.def.odr]/1). -/
structure WellFormed (out : List (Tok Name)) : Prop where
  declared : ∀ pre t post, out = pre ++ t :: post → NeedsDeclaration t = true → .id (.piece .declareManip) ∈ pre
  once : ∀ p, out.count (.id (.piece p)) ≤ 1

/-- Lines that users write: they define and undefine macros that are not internal, specialise `optional_flag_manipulator`, and include
the two headers. -/
inductive UserLine : Line Name → Prop where
  | define {n : Name} (m : Macro Name) (h : Internal n = false) : UserLine (.dir (.define n m))
  | undef {n : Name} (h : Internal n = false) : UserLine (.dir (.undef n))
  | specialise (k : Nat) : UserLine (.dir (.text [.id (.userSpecialisation k)]))
  | incl (f : Nat) : UserLine (.incl f)

/-- The user's own lines. -/
def ownLines (ls : List (Line Name)) : Dir Name :=
  .block (ls.filterMap fun | .dir d => some d | .incl _ => none)

/-- Every specialisation comes after the inclusion of one of the headers (README:394). -/
def SpecialisesAfterInclude (ls : List (Line Name)) : Prop :=
  ∀ pre k post, ls = pre ++ .dir (.text [.id (.userSpecialisation k)]) :: post → ∃ f, .incl f ∈ pre

/-- The pieces of a text with the inline namespace in which they stand. -/
def placed : (cur : Option (List Char)) → List (Tok Name) → List (Piece × Option (List Char))
  | _, .id .inlineNamespace :: .pasted cs :: .lbrace :: rest => placed (some cs) rest
  | _, .rbrace :: rest => placed none rest
  | cur, .id (.piece p) :: rest => (p, cur) :: placed cur rest
  | cur, _ :: rest => placed cur rest
  | _, [] => []

/-- What stands outside of the inline namespace: the customisation point and the specialisations of `std::hash`. -/
def Outside : Piece → Bool
  | .declareManip | .primaryManip | .bitsManip | .hash => true
  | _ => false

end Verif.Spec.Headers
