import Verif.Spec.Reserved

/-! What the bytes of an optional say. -/

namespace Verif.Spec
open Verif.Model

variable {V : Type}

/-- The live object of the optional, payload or flag, is what is written in its bytes; there is at most one. A flag that was made by copying a
bit pattern has these bytes. -/
structure Represented (c : Config V) (s : Storage V) : Prop where
  one : s.payload.isSome → s.flag = none
  apart : c.manip = .separate → s.flag = none
  payload : ∀ p, s.payload = some p → ∀ i, i < c.size → s.bytes i = c.repr p.val i
  flag : ∀ f, s.flag = some f → ∀ v, f.val = some v → ∀ i, i < c.loc.size → s.bytes (c.loc.off + i) = c.loc.repr v i
  pattern : ∀ f, s.flag = some f → f.val = none →
    ∃ sent, c.manip = .memcpy sent ∧ ∀ i, ∀ _ : i < sent.length, s.bytes (c.loc.off + i) = some sent[i]

/-- Byte `j` is one of those that distinguish empty optionals from others. -/
def FlagByte (c : Config V) (j : Nat) : Prop :=
  match c.manip with
  | .separate => j = c.size
  | .memcpy sent => c.loc.off ≤ j ∧ j < c.loc.off + sent.length
  | _ => c.loc.off ≤ j ∧ j < c.loc.off + c.loc.size

/-- What is in the flag bytes of an empty optional: `true`; the bit pattern; the value that stands for "empty". -/
def emptyByte (c : Config V) (j : Nat) : Option Byte :=
  match c.manip with
  | .separate => some 1#8
  | .memcpy sent => sent[j - c.loc.off]?
  | .assign e _ => c.loc.repr e (j - c.loc.off)
  | .custom _ e => c.loc.repr e (j - c.loc.off)

/-- Byte `j` belongs to the payload or the separate flag. -/
def DataByte (c : Config V) (j : Nat) : Prop := j < c.size ∨ c.manip = .separate ∧ j = c.size

/-- The value of the flag that stands for "empty", if there is one. -/
def EmptyValue (c : Config V) (e : V) : Prop := (∃ eq, c.manip = .assign e eq) ∨ ∃ p, c.manip = .custom p e

/-- No value that may be stored has the same flag bytes as the value that stands for "empty". -/
def FlagTells (c : Config V) : Prop :=
  ∀ e, EmptyValue c e → ∀ v, c.Storable v → ∃ i, i < c.loc.size ∧ c.repr v (c.loc.off + i) ≠ c.loc.repr e i

/-- Different values that may be stored have different bytes. -/
def BytesTell (c : Config V) : Prop :=
  ∀ u v, c.Storable u → c.Storable v → (∀ i, i < c.size → c.repr u i = c.repr v i) → u = v

end Verif.Spec
