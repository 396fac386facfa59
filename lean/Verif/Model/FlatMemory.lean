import Verif.Model.Threads

/-!
# All optionals in one memory

In the other models every optional has a memory of its own. Here there is a single memory with addresses, in which a program places its
optionals: next to each other (arrays, members), with other objects between them, or with other objects in the padding at their end
(base classes, `[[no_unique_address]]` members). The library code is that of `Steps.M`; only the meaning of a step is another one.

An optional at address `a` is a window on the memory: it consists of all bytes from `a` on, without an end. Nothing but the code of the
library itself keeps it from reading and writing more than its own bytes.
-/

namespace Verif.Model

/-- The address of each optional. (of `mStorage`, optional.h:1147) -/
abbrev Placement := Nat → Nat

/-- A memory with addresses. `objs`: the optionals that exist, with the objects that are alive in them. `clash`: at some time two optionals
existed that must not exist at the same time. (the memory of the objects in optional.h:516-544) -/
structure FlatWorld (V G : Type) where
  bytes : Nat → Option Byte
  objs : Nat → Option (Option (PObj V) × Option (FObj V))
  nextObj : Nat
  log : List Event
  user : G
  clash : Prop

/-- The bytes that belong to an optional, without the padding at its end: `SeparateFlagStorage` (optional.h:516-528) has a payload and
a `bool`, `InplaceStorage` (532-544) a payload. -/
def Config.occupied {V : Type} (c : Config V) : Nat :=
  match c.decomp with
  | .separate => c.size + 1
  | _ => c.size

section
variable {V G α : Type}

/-- What the library sees when it uses optional `x`. (`mStorage`, optional.h:1147) -/
def FlatWorld.look (pos : Placement) (f : FlatWorld V G) (x : Nat) : Option (Storage V) :=
  (f.objs x).map fun o => ⟨fun j => f.bytes (pos x + j), o.1, o.2⟩

/-- The memory of optional `x` is changed to `c`. A new optional gets the bytes that belong to it, and the indeterminate values in them; an
existing one is overwritten from its address on; nothing is done to the memory of one that ends. `bad`: the pairs of optionals that must
not exist at the same time. (`mStorage`, optional.h:1147; beginning 955-975, end 978-983) -/
def FlatWorld.store (Γ : Env V G) (pos : Placement) (bad : Nat → Nat → Prop) (f : FlatWorld V G) (x : Nat) (c : Option (Storage V)) :
    FlatWorld V G :=
  let objs := fun z => if z = x then c.map fun s => (s.payload, s.flag) else f.objs z
  match c, f.objs x with
  | none, _ => { f with objs }
  | some s, none => { f with
      objs
      bytes := fun a => if pos x ≤ a ∧ a < pos x + (Γ x).cfg.occupied then s.bytes (a - pos x) else f.bytes a
      clash := f.clash ∨ ∃ y, y ≠ x ∧ (f.objs y).isSome ∧ bad x y }
  | some s, some _ => { f with objs, bytes := fun a => if pos x ≤ a then s.bytes (a - pos x) else f.bytes a }

/-- A program in single steps. (of the functions of optional.h:915-1855) -/
def Steps.M.flat (Γ : Env V G) (pos : Placement) (bad : Nat → Nat → Prop) (p : Steps.M V G α) (f : FlatWorld V G) : Res α × FlatWorld V G :=
  match p with
  | .done r => (r, f)
  | .read x k => (k (f.look pos x)).flat Γ pos bad f
  | .write x c k => k.flat Γ pos bad (f.store Γ pos bad x c)
  | .fresh k => (k f.nextObj).flat Γ pos bad { f with nextObj := f.nextObj + 1 }
  | .event e k => k.flat Γ pos bad { f with log := f.log ++ [e] }
  | .user h k => (k f.user).flat Γ pos bad { f with user := h f.user }

/-- Program start: arbitrary memory without optionals. (no code of the library runs before, cf. the first constructor, optional.h:955) -/
def FlatWorld.init (bytes : Nat → Option Byte) (g : G) : FlatWorld V G := ⟨bytes, fun _ => none, 0, [], g, False⟩

end
end Verif.Model
