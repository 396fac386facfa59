import Verif.Spec.Overload

/-!
# Which specialization of `std::hash` is used for a type (optional.h:308-325, 2778-2805)

A class type `std::hash<T>` is *enabled* if it can be used, in particular default constructed; otherwise it is *disabled*: neither
default constructible nor copyable ([unord.hash]).
-/

namespace Verif.Model
open Verif.Spec

/-- A type with qualifiers; `ty` describes the type without them. The payload types inside of `ty` have qualifiers too: `quals p`
below. (the argument in optional.h:2778-2805) -/
structure HashArg where
  ty : OpTy
  const : Bool
  volatile : Bool
deriving DecidableEq, Repr

/-- The partial specializations for tiny optionals. (optional.h:2778-2805) -/
inductive HashSpec where
  /-- for `TinyOptionalImpl<StoredTypeDecomposition, FlagManipulator>` (2778-2790) -/
  | impl
  /-- for `optional<PayloadType, sentinelOrMemPtr, irrelevantOrSentinel>` (2793-2805) -/
  | optional
deriving DecidableEq, Repr

/-- The world of the other specializations of `std::hash`: by the standard library and by the user, for types that are no tiny
optionals. (asked in optional.h:317-325) -/
structure HashWorld where
  /-- which of them are enabled -/
  enabled : HashArg → Bool
  /-- the qualifiers of the payload type in `tiny::optional<P, ...>` and the like: `(const, volatile)`. -/
  quals : OpTy → Bool × Bool

/-- `std::remove_const_t` of the payload type of an optional. (optional.h:317-325, 2778-2805) -/
def HashArg.removeConst (q : HashArg) : HashArg := { q with const := false }

/-- The payload type of a tiny optional, with its qualifiers: `StoredTypeDecomposition::PayloadType` respectively `PayloadType`.
(optional.h:2778-2805) -/
def payloadOf (H : HashWorld) : OpTy → Option HashArg
  | .tiny p v => some ⟨p, (H.quals (.tiny p v)).1, (H.quals (.tiny p v)).2⟩
  | .impl p v => some ⟨p, (H.quals (.impl p v)).1, (H.quals (.impl p v)).2⟩
  | _ => none

/-- Whether the arguments of a partial specialization can be deduced. The pattern is the optional type itself, because the aliases
`EnableHashHelper` and `ConditionalIdentity` (optional.h:308-325) stand for their first argument. A partial specialization matches neither a
qualified type nor a derived class. -/
def HashSpec.deduces (t : HashArg) : HashSpec → Bool
  | .impl => match t with
    | ⟨.impl _ _, false, false⟩ => true
    | _ => false
  | .optional => match t with
    | ⟨.tiny _ _, false, false⟩ => true
    | _ => false

/-- `std::is_default_constructible_v<std::hash<T>>` for the type `ty` with the given qualifiers. The two patterns are those of the
partial specializations: if one of them matches, its constraint (`enable_if_t` in optional.h:320-322) is checked by substitution, which looks at
`std::hash` of the payload type without `const`; if that fails, the primary template is used, which is disabled. -/
def hashEnabled (H : HashWorld) (ty : OpTy) (const volatile : Bool) : Bool :=
  match ty, const, volatile with
  | .impl p v, false, false => hashEnabled H p false (H.quals (.impl p v)).2
  | .tiny p v, false, false => hashEnabled H p false (H.quals (.tiny p v)).2
  | t, c, v => H.enabled ⟨t, c, v⟩

/-- The specializations that match a type: deduction succeeds and the constraint holds. (optional.h:2778-2805) -/
def hashMatches (H : HashWorld) (t : HashArg) : List HashSpec :=
  [HashSpec.impl, .optional].filter fun s => s.deduces t && (match payloadOf H t.ty with
    | some p => hashEnabled H p.removeConst.ty p.removeConst.const p.removeConst.volatile
    | none => false)

end Verif.Model
