import Mathlib.Logic.Equiv.Basic
import Verif.Spec.Reentrant

/-!
# Algorithms that rearrange optionals in place (C91)
-/

namespace Verif
variable {V G : Type}

/-- The program changes optionals only by swapping two of the set `A`; otherwise it compares optionals, looks at them, and uses the user state.
Comparison operators may do the same. -/
def Prog.InPlace (A : Nat → Prop) : {α : Type} → Prog V G α → Prop
  | _, .ret _ => True
  | _, .user _ k => ∀ g, (k g).InPlace A
  | _, .call (.swap x y) k => A x ∧ A y ∧ ∀ r, (k r).InPlace A
  | _, .call (.hasValue _) k => ∀ r, (k r).InPlace A
  | _, .call (.deref _) k => ∀ r, (k r).InPlace A
  | _, .call (.value _) k => ∀ r, (k r).InPlace A
  | _, .compare _ _ _ cmp k => (∀ a b, (cmp a b).InPlace A) ∧ ∀ r, (k r).InPlace A
  | _, .inspect _ _ f k => (∀ v, (f v).InPlace A) ∧ ∀ r, (k r).InPlace A
  | _, _ => False

namespace Spec

/-- The payload's swap exchanges the values of `D`, and moving from such a value gives the same value and leaves some value of `D`. They do not
throw. -/
structure Exchanges (o : Ops V G) (D : V → Prop) : Prop where
  swap : ∀ a b g, D a → D b → ∃ g', o.swap a b g = (none, b, a, g')
  self : ∀ a g, D a → ∃ g', o.selfSwap a g = (none, a, g')
  move : ∀ a g, D a → ∃ u g', o.moveCtor a g = (.ok a, u, g') ∧ D u

/-- The new state of each variable is the old one of another variable, one to one; variables outside `A` are unchanged. -/
def PermOn {S : Type} (A : Nat → Prop) (old new : Nat → S) : Prop :=
  ∃ τ : Equiv.Perm Nat, (∀ x, ¬ A x → τ x = x) ∧ ∀ x, new x = old (τ x)

/-- `operator<` of optionals: no value is less than any value. -/
def optLt (r : V → V → Bool) : Option V → Option V → Bool
  | none, some _ => true
  | some a, some b => r a b
  | _, none => false

/-- Strict weak order. -/
structure StrictWeak {S : Type} (r : S → S → Bool) : Prop where
  asymm : ∀ a b, r a b = true → r b a = false
  negTrans : ∀ a b c, r a b = false → r b c = false → r a c = false

end Spec

/-- Swap element `j` with its predecessors while it is less than them, then `k`. -/
def sink (r : V → V → Bool) : Nat → Prog V G Unit → Prog V G Unit
  | 0, k => k
  | j + 1, k => .compare (.rel .lt) (j + 1) j (fun a b => .ret (.ok (r a b))) fun
    | .ok true => .call (.swap (j + 1) j) fun
      | .ok _ => sink r j k
      | .error e => .ret (.error e)
    | .ok false => k
    | .error e => .ret (.error e)

/-- Insertion sort: the first `i` elements are sorted, `n` are left. -/
def insertionSort (r : V → V → Bool) : (n i : Nat) → Prog V G Unit
  | 0, _ => .ret (.ok ())
  | n + 1, i => sink r i (insertionSort r n (i + 1))

end Verif
