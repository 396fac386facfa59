import Verif.Spec.Cost
import Verif.Spec.Reentrant

/-!
# How long a program may take whose user code calls the library

The steps of the user code are counted separately: what the library adds to them is constant, whatever the user code does.
-/

namespace Verif
variable {V G α : Type}

/-- Upper bounds on the number of steps of the first call of the program, without the steps of the user code that it runs. -/
def Prog.overhead : Prog V G α → Nat
  | .ret _ => 0
  | .user _ _ => 1
  | .call op _ => op.budget.steps
  | .construct _ _ _ _ => 25
  | .transfer _ _ _ _ _ => 34
  | .destroy _ _ _ => 10
  | .reset _ _ _ => 11
  | .assign _ _ _ _ _ => 17
  | .assignFrom _ _ _ _ _ _ _ => 20
  | .emplace _ _ _ _ _ => 28
  | .swap _ _ _ _ _ _ => 28
  | .valueOr _ _ _ _ => 1
  | .andThen _ _ _ _ _ => 36
  | .transform _ _ _ _ _ => 27
  | .orElse _ _ _ _ _ _ => 35
  | .compare _ _ _ _ _ => 6
  | .inspect _ _ _ _ => 3

/-- On every path, the costs of all calls and own computations add up to at most `n`, where those of the user code that the library
runs are included. A function that has several pieces of user code runs only some of them: `=` either assigns to, creates or destroys a
payload, `swap` either swaps two payloads or moves and destroys one. -/
def Prog.Costs (c : {α : Type} → Prog V G α → Nat) {α : Type} (p : Prog V G α) (n : Nat) : Prop :=
  c p ≤ n ∧
  match p with
  | .ret _ => True
  | .user f k => ∀ g, (k g).Costs c (n - c (.user f k))
  | .call op k => ∀ r, (k r).Costs c (n - c (.call op k))
  | .construct x nt ctor k => ∃ a m, c (.construct x nt ctor k) + a + m ≤ n ∧ ctor.Costs c a ∧ ∀ r, (k r).Costs c m
  | .transfer rv x y ctor k => ∃ a m, c (.transfer rv x y ctor k) + a + m ≤ n ∧ ctor.Costs c a ∧ ∀ r, (k r).Costs c m
  | .destroy x dtor k => ∃ a m, c (.destroy x dtor k) + a + m ≤ n ∧ (∀ v, (dtor v).Costs c a) ∧ ∀ r, (k r).Costs c m
  | .reset x dtor k => ∃ a m, c (.reset x dtor k) + a + m ≤ n ∧ (∀ v, (dtor v).Costs c a) ∧ ∀ r, (k r).Costs c m
  | .assign x nt asg ctor k =>
    ∃ a m, c (.assign x nt asg ctor k) + a + m ≤ n ∧ asg.Costs c a ∧ ctor.Costs c a ∧ ∀ r, (k r).Costs c m
  | .assignFrom rv x y asg ctor dtor k =>
    ∃ a m, c (.assignFrom rv x y asg ctor dtor k) + a + m ≤ n ∧ asg.Costs c a ∧ ctor.Costs c a ∧ (∀ v, (dtor v).Costs c a) ∧
      ∀ r, (k r).Costs c m
  | .emplace x nt dtor ctor k =>
    ∃ a b m, c (.emplace x nt dtor ctor k) + (a + b) + m ≤ n ∧ (∀ v, (dtor v).Costs c a) ∧ ctor.Costs c b ∧ ∀ r, (k r).Costs c m
  | .swap x y swp ctor dtor k =>
    ∃ a b m, c (.swap x y swp ctor dtor k) + (a + b) + m ≤ n ∧ swp.Costs c (a + b) ∧ (∀ z, (ctor z).Costs c a) ∧
      (∀ v, (dtor v).Costs c b) ∧ ∀ r, (k r).Costs c m
  | .valueOr x ctor conv k => ∃ a m, c (.valueOr x ctor conv k) + a + m ≤ n ∧ ctor.Costs c a ∧ conv.Costs c a ∧ ∀ r, (k r).Costs c m
  | .andThen x dst f ctor k =>
    ∃ a b m, c (.andThen x dst f ctor k) + (a + b) + m ≤ n ∧ f.Costs c a ∧ (∀ z, (ctor z).Costs c b) ∧ ∀ r, (k r).Costs c m
  | .transform nt x dst f k => ∃ a m, c (.transform nt x dst f k) + a + m ≤ n ∧ f.Costs c a ∧ ∀ r, (k r).Costs c m
  | .orElse rv x dst f ctor k =>
    ∃ a b m, c (.orElse rv x dst f ctor k) + (a + b) + m ≤ n ∧ f.Costs c a ∧ (∀ z, (ctor z).Costs c b) ∧ ∀ r, (k r).Costs c m
  | .compare q x y cmp k => ∃ a m, c (.compare q x y cmp k) + a + m ≤ n ∧ (∀ u v, (cmp u v).Costs c a) ∧ ∀ r, (k r).Costs c m
  | .inspect q x f k => ∃ a m, c (.inspect q x f k) + a + m ≤ n ∧ (∀ v, (f v).Costs c a) ∧ ∀ r, (k r).Costs c m

/-- Every call and every own computation counts once. -/
def Prog.one {V G : Type} : {α : Type} → Prog V G α → Nat
  | _, .ret _ => 0
  | _, _ => 1

theorem Prog.overhead_le (p : Prog V G α) : p.overhead ≤ 71 * p.one := by
  cases p with
  | call op k => cases op <;> simp [Prog.overhead, Prog.one, Op.budget]
  | _ => simp [Prog.overhead, Prog.one]

end Verif
