import Verif.Model.Machine

/-!
# Counting object lifetimes

How often a given object was created, destroyed, leaked or abandoned according to an event log, and who holds it.
-/

namespace Verif.Model
variable {V G : Type}

/-- The payload object `id` lives inside optional `x`. -/
def HoldsPayload (x id : Nat) (w : World V G) : Prop := ∃ s v, w.mem x = some s ∧ s.payload = some ⟨id, v⟩

/-- The flag object `id` (created by `init_empty_flag`) lives inside optional `x`. -/
def HoldsFlag (x id : Nat) (w : World V G) : Prop := ∃ s v, w.mem x = some s ∧ s.flag = some ⟨id, v⟩

def created (l : List Event) (id : Nat) : Nat := l.count (.payloadCtor id)
def destroyed (l : List Event) (id : Nat) : Nat := l.count (.payloadDtor id)
def leaked (l : List Event) (id : Nat) : Nat := l.count (.payloadLeak id)
def flagCreated (l : List Event) (id : Nat) : Nat := l.count (.flagInit id)
def flagDestroyed (l : List Event) (id : Nat) : Nat := l.count (.flagInval id)
def flagAbandoned (l : List Event) (id : Nat) : Nat := l.count (.flagAbandon id)

/-- Nothing was created or destroyed between the two worlds, and every optional holds the same payload object. -/
def SameObjects (w w' : World V G) : Prop :=
  w'.log = w.log ∧ ∀ x id, HoldsPayload x id w' ↔ HoldsPayload x id w

end Verif.Model
