import Verif.Model.Flag
import Verif.Model.Any

/-!
# Which payload values are reserved by a configuration, and which configurations are well formed

`Storable c v`: the user may store `v`. `Reserved c v`: `v` is the value that represents "empty".
Both are stated on the representation of `v`, without running any library function.
-/

namespace Verif.Model.Config
variable {V : Type}

/-- `v` can be told apart from the empty state. Separate bool: always. Bit pattern: the flag bytes of `v` are determinate
and differ somewhere from the pattern. Sentinel: the flag part of `v` does not compare equal to it. Custom: the
predicate is false for it. -/
def Storable (c : Config V) (v : V) : Prop :=
  match c.manip with
  | .separate => True
  | .memcpy sent =>
    (∀ i, i < sent.length → ∃ b, c.repr v (c.loc.off + i) = some b) ∧
    (∃ i, ∃ _ : i < sent.length, c.repr v (c.loc.off + i) ≠ some sent[i])
  | .assign sv eq => eq (c.loc.proj v) sv = false
  | .custom p _ => p (c.loc.proj v) = false

/-- `v` is indistinguishable from the empty state. -/
def Reserved (c : Config V) (v : V) : Prop :=
  match c.manip with
  | .separate => False
  | .memcpy sent => ∀ i, ∀ _ : i < sent.length, c.repr v (c.loc.off + i) = some sent[i]
  | .assign sv eq => eq (c.loc.proj v) sv = true
  | .custom p _ => p (c.loc.proj v) = true

/-- What the compile-time checks and the documented obligations of sentinels/manipulators guarantee:
the separate manipulator goes with the separate decomposition and only with it; the flag lies inside the payload and
has the bytes of the corresponding member; the memcpy'd pattern fits into the flag (optional.h:714); the value that
represents "empty" is recognised as empty (README: "is_empty() must return true after init_empty_flag()"). -/
structure WF (c : Config V) : Prop where
  fits : (∃ _ : c.decomp = .separate, c.manip = .separate) ∨ (c.decomp ≠ .separate ∧ c.manip ≠ .separate)
  inside : c.loc.off + c.loc.size ≤ c.size
  bytes : ∀ v i, i < c.loc.size → c.repr v (c.loc.off + i) = c.loc.repr (c.loc.proj v) i
  sentinelFits : ∀ sent, c.manip = .memcpy sent → sent.length ≤ c.loc.size
  assignRefl : ∀ sv eq, c.manip = .assign sv eq → eq sv sv = true
  customRefl : ∀ p ev, c.manip = .custom p ev → p ev = true

end Verif.Model.Config

/-! ### Arbitrary manipulators -/

namespace Verif.Model.Any.Config
variable {V G : Type}

/-- `v` can be told apart from the empty state: `is_empty` returns false for every optional that holds it. -/
def Storable (c : Config V G) (v : V) : Prop := Spec.Manipulator.AnswersFull c.test v

/-- `is_empty` returns true after `init_empty_flag`. -/
def WF (c : Config V G) : Prop := Spec.Manipulator.AnswersEmpty c.test

end Verif.Model.Any.Config
