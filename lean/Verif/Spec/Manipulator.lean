/-!
# The documented contract between the library and a flag manipulator (README:410-427; the same concept for the own manipulators of the library: optional.h:650-680)

Stated without any library function: which actions on the memory of an optional may follow each other, and what `is_empty` has to
answer after them.
-/

namespace Verif.Spec.Manipulator
variable {V : Type}

/-- Actions on the memory of one optional that its flag manipulator performs or can notice. -/
inductive Act (V : Type) where
  /-- the memory of the optional comes into existence -/
  | create
  /-- `init_empty_flag` -/
  | init
  /-- `invalidate_empty_flag` -/
  | invalidate
  /-- a payload is constructed with this value -/
  | construct (v : V)
  /-- the value of the payload becomes this one: it was assigned to, moved from, swapped or changed by user code -/
  | change (v : V)
  /-- the payload is destroyed -/
  | destroy
  /-- the memory of the optional ceases to exist -/
  | release
deriving DecidableEq, Repr

/-- An action together with the address of the optional. -/
abbrev Call (V : Type) := Nat × Act V

/-- What is in the memory of an existing optional. -/
inductive Phase (V : Type) where
  /-- "raw" memory "without any object created in that memory" (README:412): new, or its payload was destroyed -/
  | raw
  /-- raw memory after `invalidate_empty_flag`, ready for the construction of a payload -/
  | prepared
  /-- the object that `init_empty_flag` created -/
  | empty
  /-- a payload -/
  | engaged (v : V)
deriving DecidableEq, Repr

/-- The documented order: `init_empty_flag` gets raw memory (README:412), `invalidate_empty_flag` gets the object that was created by
`init_empty_flag` (README:416) and is called before the construction of a payload (optional.h:662-665). If the construction fails, the
flag is initialised again. The memory may cease to exist while the optional is empty.
`none` (outside): the action is not allowed. `none` (inside): the optional does not exist. -/
def next : Act V → Option (Phase V) → Option (Option (Phase V))
  | .create, none => some (some .raw)
  | .init, some .raw => some (some .empty)
  | .init, some .prepared => some (some .empty)
  | .invalidate, some .empty => some (some .prepared)
  | .construct v, some .prepared => some (some (.engaged v))
  | .change v, some (.engaged _) => some (some (.engaged v))
  | .destroy, some (.engaged _) => some (some .raw)
  | .release, some .raw => some none
  | .release, some .empty => some none
  | _, _ => none

/-- What is in the memory of every optional after the given calls (most recent first); `none`: the order was violated. -/
def phases : List (Call V) → Option (Nat → Option (Phase V))
  | [] => some fun _ => none
  | (x, a) :: before =>
    match phases before with
    | none => none
    | some ph =>
      match next a (ph x) with
      | none => none
      | some p => some fun z => if z = x then p else ph z

/-- The calls respect the documented order. -/
def InOrder (calls : List (Call V)) : Prop := ∃ ph, phases calls = some ph

/-- The answer of `is_empty`. It may depend on everything that was ever done with any optional (so on the contents of the memory,
on global variables or tables in which the manipulator keeps book, and on earlier answers), on the address of the optional and on
the state of the rest of the program. -/
abbrev IsEmpty (V G : Type) := List (Call V) → Nat → G → Bool

/-- `is_empty` returns true for optionals on which `init_empty_flag` was called (README:411, 413). -/
def AnswersEmpty {G : Type} (f : IsEmpty V G) : Prop :=
  ∀ calls ph x g, phases calls = some ph → ph x = some .empty → f calls x g = true

/-- `is_empty` returns false for optionals that hold the value `v` (README:411 "and false otherwise"). -/
def AnswersFull {G : Type} (f : IsEmpty V G) (v : V) : Prop :=
  ∀ calls ph x g, phases calls = some ph → ph x = some (.engaged v) → f calls x g = false

end Verif.Spec.Manipulator
