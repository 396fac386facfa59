import Verif.Spec.Headers

/-!
# Rules for several translation units
-/

namespace Verif.Spec.Headers
open Verif.Spec Verif.Model Verif.Model.Pre

/-- The first piece of the definition that the piece is a part of. -/
def entity : Piece → Piece
  | .pointerSentinel64 | .pointerSentinel32 | .pointerSentinelSize => .bitSentinels
  | .copyableNoCv | .copyable | .manipulatorsEnd => .manipulators
  | .bitsUnknown => .bitsKnown
  | .implOrElse | .implEnd => .impl
  | .select _ | .memberDecomposition _ | .separateDecomposition _ => .select 0
  | .optionalOrElse | .optionalEnd => .optional
  | p => p

/-- The definition of the entity in the inline namespace `sc` (or in none). -/
def definition (out : List (Tok Name)) (e : Piece) (sc : Option (List Char)) : List Piece :=
  ((placed none out).map fun x => if entity x.1 = e ∧ x.2 = sc then [x.1] else []).flatten

/-- The definition uses names from the inline namespace. The declaration of `optional_flag_manipulator` does not; the partial
specialisations of `optional_flag_manipulator` and `std::hash` have such names among their arguments, so those from different
namespaces are different specialisations. -/
def UsesNamespace : Piece → Bool
  | .declareManip | .bitsManip | .hash => false
  | _ => true

/-- One definition rule for an entity with definitions in two translation units, [basic.def.odr]/14: the same tokens (14.3), and
names denote the same entities (14.4). -/
structure SameDefinition (out out' : List (Tok Name)) (e : Piece) : Prop where
  tokens : ∀ sc, definition out e sc ≠ [] → definition out' e sc ≠ [] → definition out e sc = definition out' e sc
  names : UsesNamespace e = true → ∀ sc, definition out e sc ≠ [] → definition out' e sc ≠ [] →
    ∀ cs, .pasted cs ∈ out ↔ .pasted cs ∈ out'

/-- The gcc with which the library does not check cv-qualified types for being trivially copyable. -/
def oldGcc (env : Macros Name) : Bool := has env .gnug && !has env .clang && decide (env.num .gnuc ≤ 9)

/-- Types as they appear in the signature of a function. -/
inductive SigTy where
  /-- a class template of the library with type arguments -/
  | library (k : Nat) (args : List SigTy)
  /-- any other class (template) -/
  | user (k : Nat) (args : List SigTy)
  | pointer (t : SigTy)

/-- The type is mentioned in a mangled name with all namespaces, inline ones as well. -/
inductive Sym where
  | ns (cs : List Char) | lib (k : Nat) | cls (k : Nat) | ptr | close
deriving DecidableEq

mutual
/-- Mangled name of a type; `ns` is the inline namespace of the library. -/
def mangle (ns : List Char) : SigTy → List Sym
  | .library k args => .ns ns :: .lib k :: mangleAll ns args ++ [.close]
  | .user k args => .cls k :: mangleAll ns args ++ [.close]
  | .pointer t => .ptr :: mangle ns t
def mangleAll (ns : List Char) : List SigTy → List Sym
  | [] => []
  | t :: ts => mangle ns t ++ mangleAll ns ts
end

mutual
/-- A class of the library occurs in the type. -/
def Mentions : SigTy → Prop
  | .library _ _ => True
  | .user _ args => MentionsAny args
  | .pointer t => Mentions t
def MentionsAny : List SigTy → Prop
  | [] => False
  | t :: ts => Mentions t ∨ MentionsAny ts
end

end Verif.Spec.Headers
