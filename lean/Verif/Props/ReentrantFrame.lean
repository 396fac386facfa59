import Verif.Lemmas.BoundsReentrant
import Verif.Lemmas.Reentrant
import Verif.Lemmas.FlagBytes
import Verif.Lemmas.Identity
import Verif.Props.Access
import Verif.Examples

/-!
# C36, C46, C69, C84 for user code that calls the library

The claims that hold for all programs, legal or not, also with user code that calls the library while the library is calling it (see C62).
-/

namespace Verif.Props
open Verif Verif.Model
open Verif.Spec (Represented)

section
variable {V G α : Type} {Γ : Env V G}

/-- C36. A program that names an optional in no call that may change it, neither itself nor in the user code that it passes to the
library, changes neither the bytes nor the objects in it. -/
theorem C36_frame_reentrant (Γ : Env V G) (p : Prog V G α) (w : World V G) (z : Nat) (hz : p.Changes (· ≠ z) (· ≠ z) (· ≠ z)) :
    (runProg Γ p w).2.mem z = w.mem z :=
  ((change_closed (Γ := Γ) (· ≠ z) (· ≠ z) fun _ h => h).runProg (fun _ hx => change_destroyPayload _ _ hx) p hz w).1 z (fun h => h rfl)

/-- C36. Only calls that create or destroy the optional change whether it exists. -/
theorem C36_existence_reentrant (Γ : Env V G) (p : Prog V G α) (w : World V G) (z : Nat)
    (hz : p.Changes (fun _ => True) (fun _ => True) (· ≠ z)) : Absent z (runProg Γ p w).2 ↔ Absent z w := by
  have := ((change_closed (Γ := Γ) (fun _ => True) (· ≠ z) fun _ _ => trivial).runProg (fun _ hx => change_destroyPayload _ _ hx) p hz w).2.1 z
    (fun h => h rfl)
  simp only [Absent, ← Option.not_isSome_iff_eq_none, this]

/-- C46. No byte outside of an optional is ever written. -/
theorem C46_writes_reentrant (hΓ : ∀ x, (Γ x).cfg.WF) (p : Prog V G α) (g : G) : InBounds Γ (runProg Γ p (.init g)).2 := by
  intro x t ht j hj
  rcases (inBounds_closed (fun _ => True) hΓ).runProg (fun _ _ => ib_destroy rfl _) p p.changes_all (.init g) x t ht with ⟨s, hs, _⟩ | ⟨_, e⟩
  · cases hs
  · exact e j hj

/-- C46. Bytes outside of an optional that is neither created nor destroyed are not changed, whatever they are. -/
theorem C46_keeps_reentrant (hΓ : ∀ x, (Γ x).cfg.WF) (p : Prog V G α) (w : World V G) (x : Nat)
    (hx : p.Changes (fun _ => True) (fun _ => True) (· ≠ x)) (t : Storage V) (ht : (runProg Γ p w).2.mem x = some t) :
    ∃ s, w.mem x = some s ∧ ∀ j, extent (Γ x).cfg ≤ j → t.bytes j = s.bytes j := by
  rcases (inBounds_closed (· ≠ x) hΓ).runProg (fun _ _ => ib_destroy rfl _) p hx w x t ht with h | ⟨h, _⟩
  · exact h
  · exact absurd rfl h

/-- C46. No access outside of an optional is ever attempted. -/
theorem C46_no_out_of_bounds_reentrant (hΓ : ∀ x, (Γ x).cfg.WF) (p : Prog V G α) (w : World V G) :
    (runProg Γ p w).1 ≠ .abort (.ub .outOfBounds) :=
  InB.runProg hΓ p w

/-- C69. An object is never found in another optional than before, and never comes back. -/
theorem C69_never_migrates_reentrant (Γ : Env V G) (p : Prog V G α) (w : World V G) {x i : Nat} (hi : i < w.nextObj)
    (hx : HoldsPayload x i (runProg Γ p w).2) : HoldsPayload x i w := by
  have hh : Home w (runProg Γ p w).2 := (home_closed Γ).runProg (fun _ _ => home_destroyPayload _ _ _) p p.changes_all w
  rcases hh.2 x i (pidS_iff.2 hx) with h | h
  · exact pidS_iff.1 h
  · omega

/-- C69. The object contained in `x` stays there, with whatever value, unless the program or its user code names `x` in a call other than
the observers, the modification of the value, and the monadic functions of `x`: references to it stay valid. -/
theorem C69_kept_reentrant (Γ : Env V G) (p : Prog V G α) (w : World V G) {x i : Nat} (hp : p.Changes (fun _ => True) (· ≠ x) (· ≠ x))
    (hx : HoldsPayload x i w) : HoldsPayload x i (runProg Γ p w).2 :=
  pidS_iff.1 ((keep_closed Γ x i).runProg (fun _ hz => keep_destroyPayload hz _ _) p hp w (pidS_iff.2 hx))

/-- C84. The bytes of every optional are those of the object in it. -/
theorem C84_represented_reentrant (Γ : Env V G) (p : Prog V G α) (g : G) (x : Nat) (s : Storage V)
    (hs : (runProg Γ p (.init g)).2.mem x = some s) : Represented (Γ x).cfg s :=
  (represented_closed Γ).runProg (fun _ _ => rep_destroy) p p.changes_all (.init g) (fun _ _ e => nomatch e) x s hs

end

/-! ### Examples -/

open Examples

private abbrev P (α : Type) := Prog (BitVec 8) (List String) α

/-- `transform` of 20 into 25, with a callable that changes the value in 20, and empties 22 with a destructor that moves the value of 20
to 26 and then uses the emptied 22, which is undefined. -/
private def exProg : P Unit :=
  .transform false 20 25
    (.call (.modify 20 fun v g => (none, v + 1, g ++ ["modified"])) fun _ =>
      .reset 22 (fun _ => .call (.ctorInPlace 26 (.moveOf 20)) fun _ => .call (.deref 22) fun _ => .ret (.ok ())) fun _ =>
      .call (.deref 22) fun _ => .ret (.ok 9#8))
    fun _ => .ret (.ok ())

/-- The program changes 20, 22, 25, 26; it creates 25 and 26; the object in 20 is only given new values. -/
private theorem exProg_changes : (exProg.Changes (· ≠ 24) (· ≠ 24) (· ≠ 24)) ∧ (exProg.Changes (fun _ => True) (fun _ => True) (· ≠ 22)) ∧
    (exProg.Changes (fun _ => True) (· ≠ 20) (· ≠ 20)) := by
  simp [exProg, Prog.Changes, Op.writes, Op.remakes, Op.lifetimes, Arg.writes]

example : (runProg exEnv exProg exWorld).2.mem 24 = exWorld.mem 24 := C36_frame_reentrant exEnv exProg exWorld 24 exProg_changes.1
example : Absent 22 (runProg exEnv exProg exWorld).2 ↔ Absent 22 exWorld := C36_existence_reentrant exEnv exProg exWorld 22 exProg_changes.2.1
example := C46_writes_reentrant (Γ := exEnv) exEnv_wf.cfg exProg []
example := C46_keeps_reentrant (Γ := exEnv) exEnv_wf.cfg exProg exWorld 22 exProg_changes.2.1
example := C46_no_out_of_bounds_reentrant (Γ := exEnv) exEnv_wf.cfg exProg exWorld
example : HoldsPayload 20 1 (runProg exEnv exProg exWorld).2 := C69_kept_reentrant exEnv exProg exWorld exProg_changes.2.2 ⟨_, _, rfl, rfl⟩
example := C69_never_migrates_reentrant exEnv exProg exWorld (x := 20) (i := 1) (by decide)
  (C69_kept_reentrant exEnv exProg exWorld exProg_changes.2.2 ⟨_, _, rfl, rfl⟩)
example := C84_represented_reentrant exEnv
  (.construct 20 true (.construct 21 true (.ret (.ok 7#8)) fun _ => .ret (.ok 5#8)) fun _ => .ret (.ok ())) [] 20

/-- What the program does: it changes the value of 20 and stops at the use of the emptied 22. -/
example : (match (runProg exEnv exProg exWorld).1 with | .abort .assertFail => true | _ => false) = true ∧
    [20, 22, 26].map (fun x => ((runProg exEnv exProg exWorld).2.mem x).map fun s => s.payload.map fun p => (p.id, p.val)) =
      [some (some (1, 0#8)), some none, some (some (15, 6#8))] := by decide +kernel

end Verif.Props
