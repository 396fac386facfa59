import Verif.Props.Destruct

/-!
# C77: payload destructors that throw

Everywhere else destructors of payloads do not throw. Here the destructor `d` of `Re.reset Γ x d` and of the other functions of
`Model/Reentrant.lean` is any program. `~StorageBase()` has no explicit exception specification (optional.h:978); whether the implicit one is
`noexcept` does not matter, since its body calls `DestroyPayload() noexcept` (1018).
-/

namespace Verif.Props
open Verif Verif.Model Verif.Examples

section
variable {V G α : Type} {Γ : Env V G} {w w' : World V G} {x y : Nat} {v : V}

/-- `d'` is the destructor `d`, except that it ends the program where `d` throws. -/
def EndsInstead (d d' : V → M V G Unit) : Prop :=
  ∀ v w, match d v w with
    | (.throw _, w') => d' v w = (.abort .terminate, w')
    | r => d' v w = r

private theorem ne_congr {m m' : M V G α} (nt : Bool) (h : m w = m' w) : noexceptIf nt m w = noexceptIf nt m' w := by
  simp only [noexceptIf, h]

private theorem destroy_ends {d d' : V → M V G Unit} (h : EndsInstead d d') (Γ : Env V G) (x : Nat) :
    Re.destroyPayload Γ x d = Re.destroyPayload Γ x d' := by
  funext w
  unfold Re.destroyPayload
  rcases hg : getPayload x w with ⟨v | e | k, w₁⟩
  · have hv := h v w₁
    rcases hd : d v w₁ with ⟨a | e | k, w₂⟩ <;> rw [hd] at hv <;> simp only at hv
    · apply ne_congr
      rw [bind_ok hg, bind_ok hg, bind_ok hd, bind_ok hv]
    · rw [noexceptIf_throw_true (e := e) (w' := w₂) (by rw [bind_ok hg, bind_throw hd])]
      exact (noexceptIf_abort (by rw [bind_ok hg, bind_abort hv])).symm
    · apply ne_congr
      rw [bind_ok hg, bind_ok hg, bind_abort hd, bind_abort hv]
  · apply ne_congr
    rw [bind_throw hg, bind_throw hg]
  · apply ne_congr
    rw [bind_abort hg, bind_abort hg]

private theorem reset_ends {d d' : V → M V G Unit} (h : EndsInstead d d') (Γ : Env V G) (x : Nat) : Re.reset Γ x d = Re.reset Γ x d' := by
  unfold Re.reset
  rw [destroy_ends h]

/-- C77. An exception that leaves the destructor of a payload is the end of the program there and then: every function of the library that
destroys payloads does the same with a destructor `d` as with a destructor `d'` that calls `std::terminate` where `d` throws. For all
states, configurations and destructors; also if they use the library themselves. -/
theorem C77_ends {d d' : V → M V G Unit} (h : EndsInstead d d') (Γ : Env V G) (x y : Nat) :
    Re.reset Γ x d = Re.reset Γ x d' ∧
    Re.storageDtor Γ x d = Re.storageDtor Γ x d' ∧
    (∀ nt c, Re.emplace Γ x nt d c = Re.emplace Γ x nt d' c) ∧
    (∀ rv asg c, Re.assignFrom Γ rv x y asg c d = Re.assignFrom Γ rv x y asg c d') ∧
    (∀ swp c, Re.swap Γ x y swp c d = Re.swap Γ x y swp c d') := by
  refine ⟨reset_ends h Γ x, ?_, fun nt c => ?_, fun rv asg c => ?_, fun swp c => ?_⟩
  · unfold Re.storageDtor
    rw [destroy_ends h]
  · unfold Re.emplace
    rw [reset_ends h]
  · unfold Re.assignFrom Re.copyOrMoveAssign
    rw [reset_ends h]
  · unfold Re.swap
    rw [reset_ends h, reset_ends h]

private theorem destroy_throws (h : Holds Γ x v w) {d : V → M V G Unit} {e : Exn} (hd : d v w = (.throw e, w')) :
    Re.destroyPayload Γ x d w = (.abort .terminate, w') := by
  have hg : getPayload x w = (.ok v, w) := by
    have hdr := h.2
    unfold deref noexceptIf at hdr
    rw [bind_ok (assertHas_run h.1)] at hdr
    rcases hg : getPayload x w with ⟨a | e | k, w'⟩ <;> simp only [hg] at hdr
    · exact hdr
    · simp at hdr
    · simp at hdr
  exact noexceptIf_throw_true (e := e) (by rw [bind_ok hg, bind_throw hd])

private theorem reset_throws (h : Holds Γ x v w) {d : V → M V G Unit} {e : Exn} (hd : d v w = (.throw e, w')) :
    Re.reset Γ x d w = (.abort .terminate, w') := by
  unfold Re.reset
  apply noexceptIf_abort
  rw [bind_ok h.1]
  simp only [if_true]
  exact bind_abort (destroy_throws h hd)

/-- C77. What happens if the value `v` of `x` is destroyed and its destructor throws: `std::terminate`, in the state in which the exception
was thrown; for `reset` and `= nullopt`, the destructor, `emplace`, and the assignment of an empty optional. -/
theorem C77_terminates (h : Holds Γ x v w) {d : V → M V G Unit} {e : Exn} (hd : d v w = (.throw e, w')) :
    Re.reset Γ x d w = (.abort .terminate, w') ∧
    Re.storageDtor Γ x d w = (.abort .terminate, w') ∧
    (∀ nt c, Re.emplace Γ x nt d c w = (.abort .terminate, w')) ∧
    (IsEmpty Γ y w → ∀ rv asg c, Re.assignFrom Γ rv x y asg c d w = (.abort .terminate, w')) := by
  refine ⟨reset_throws h hd, ?_, fun nt c => ?_, fun hy rv asg c => ?_⟩
  · unfold Re.storageDtor
    apply noexceptIf_abort
    rw [bind_ok h.1]
    simp only [if_true]
    exact bind_abort (destroy_throws h hd)
  · exact bind_abort (reset_throws h hd)
  · have : ∀ nt ntC, Re.copyOrMoveAssign Γ nt ntC asg c d x y w = (.abort .terminate, w') := by
      intro nt ntC
      unfold Re.copyOrMoveAssign
      apply noexceptIf_abort
      rw [bind_ok hy]
      simp only [Bool.false_eq_true, if_false]
      exact bind_abort (reset_throws h hd)
    cases rv <;> simp only [Re.assignFrom, Bool.false_eq_true, if_false, if_true, this]

/-- C77. `swap` of an engaged and an empty optional, either way round. The moved-from payload is destroyed in the state `w₁` after the move
construction. -/
theorem C77_swap_terminates (h : hasValue Γ x w = (.ok true, w)) (hy : IsEmpty Γ y w) {c : Nat → M V G V} {w₁ : World V G}
    (h1 : constructWith Γ y (Γ y).ops.nothrowMoveCtor (c x) w = (.ok (), w₁)) {u : V} (hu : Holds Γ x u w₁) {d : V → M V G Unit} {e : Exn}
    (hd : d u w₁ = (.throw e, w')) (swp : M V G Unit) :
    Re.swap Γ x y swp c d w = (.abort .terminate, w') ∧ Re.swap Γ y x swp c d w = (.abort .terminate, w') := by
  constructor <;> unfold Re.swap <;> apply noexceptIf_abort
  · rw [bind_ok h, bind_ok hy]
    simp only [show (true == false) = false from rfl, Bool.false_eq_true, if_false, if_true]
    rw [bind_ok h1]
    exact reset_throws hu hd
  · rw [bind_ok hy, bind_ok h]
    simp only [show (false == true) = false from rfl, Bool.false_eq_true, if_false]
    rw [bind_ok h1]
    exact reset_throws hu hd

/-- C77. No exception leaves `reset`, `= nullopt` or the destructor of the optional, whatever the payload's destructor does. -/
theorem C77_nothing_leaves (Γ : Env V G) (x : Nat) (d : V → M V G Unit) (w : World V G) (e : Exn) :
    (Re.reset Γ x d w).1 ≠ .throw e ∧ (Re.storageDtor Γ x d w).1 ≠ .throw e := by
  have : ∀ m : M V G Unit, (noexceptIf true m w).1 ≠ .throw e := by
    intro m
    rcases hm : m w with ⟨a | e | k, w'⟩
    · rw [noexceptIf_ok hm]; simp
    · rw [noexceptIf_throw_true hm]; simp
    · rw [noexceptIf_abort hm]; simp
  exact ⟨this _, this _⟩

private theorem nothrow_reset (Γ : Env V G) (x : Nat) (d : V → M V G Unit) : NoThrow (Re.reset Γ x d) :=
  fun w e => (C77_nothing_leaves Γ x d w e).1

private theorem nothrow_assign {Γ : Env V G} {asg : M V G Unit} {c : M V G V} (ha : NoThrow asg) (hc : NoThrow c) (x : Nat) (nt : Bool) :
    NoThrow (Re.assignValue Γ x nt asg c) := by
  unfold Re.assignValue
  refine (calm_hasValue x).1.bind fun b => ?_
  cases b
  · exact (noThrow_constructWith x hc).bind fun _ => (calm_assertHas x true).1
  · exact ha.bind fun _ => (calm_assertHas x true).1

/-- C77. The exceptions that leave the other functions are those of the constructors, assignments and `swap` of the payload: if none of these
throws, then none leaves, whatever the destructor does. -/
theorem C77_only_others (Γ : Env V G) (x y : Nat) (d : V → M V G Unit) {asg swp : M V G Unit} {c : M V G V} {c' : Nat → M V G V}
    (ha : NoThrow asg) (hc : NoThrow c) (hs : NoThrow swp) (hc' : ∀ z, NoThrow (c' z)) :
    (∀ nt, NoThrow (Re.emplace Γ x nt d c)) ∧ (∀ rv, NoThrow (Re.assignFrom Γ rv x y asg c d)) ∧ NoThrow (Re.swap Γ x y swp c' d) := by
  refine ⟨fun nt => ?_, fun rv => ?_, ?_⟩
  · exact (nothrow_reset Γ x d).bind fun _ => (noThrow_constructWith x hc).bind fun _ =>
      (calm_assertHas x true).1.bind fun _ => (calm_getPayload x).1
  · have : ∀ nt ntC, NoThrow (Re.copyOrMoveAssign Γ nt ntC asg c d x y) := by
      intro nt ntC
      refine NoThrow.noexceptIf ((calm_hasValue y).1.bind fun b => ?_)
      cases b
      · exact (nothrow_reset Γ x d).bind fun _ => (calm_assertSame x y).1
      · exact (nothrow_assign ha hc x ntC).bind fun _ => (calm_assertSame x y).1
    cases rv <;> exact this _ _
  · refine NoThrow.noexceptIf ((calm_hasValue x).1.bind fun a => (calm_hasValue y).1.bind fun b => ?_)
    cases a <;> cases b
    · exact (calm_pure ()).1
    · exact (noThrow_constructWith x (hc' y)).bind fun _ => nothrow_reset Γ y d
    · exact (noThrow_constructWith y (hc' x)).bind fun _ => nothrow_reset Γ x d
    · exact hs

/-- C77. A program cannot catch what a payload's destructor throws: what it would do after an exception from `reset`, `= nullopt` or the
destructor of an optional never matters. -/
theorem C77_no_handler (Γ : Env V G) (x : Nat) (d : V → Prog V G Unit) {k k' : Except Exn Unit → Prog V G α}
    (h : k (.ok ()) = k' (.ok ())) :
    runProg Γ (.reset x d k) = runProg Γ (.reset x d k') ∧ runProg Γ (.destroy x d k) = runProg Γ (.destroy x d k') := by
  have : ∀ m : M V G Unit, NoThrow m → (attempt m >>= fun r => runProg Γ (k r)) = (attempt m >>= fun r => runProg Γ (k' r)) := by
    intro m hm
    funext w
    rcases hw : m w with ⟨a | e | f, w'⟩
    · have ha : attempt m w = (.ok (.ok ()), w') := by unfold attempt; rw [hw]
      rw [bind_ok ha, bind_ok ha, h]
    · exact absurd (by rw [hw]) (hm w e)
    · have ha : attempt m w = (.abort f, w') := by unfold attempt; rw [hw]
      rw [bind_abort ha, bind_abort ha]
  exact ⟨this _ (nothrow_reset Γ x _), this _ fun w e => (C77_nothing_leaves Γ x _ w e).2⟩

end

/-! ### The claims at work -/

/-- A destructor that throws for the value 5 and else is quiet. -/
private def exThrowing (v : BitVec 8) : M (BitVec 8) (List String) Unit := if v = 5#8 then throwE (.user 7) else pure ()

/-- The same that calls `std::terminate`. -/
private def exEnding (v : BitVec 8) : M (BitVec 8) (List String) Unit := if v = 5#8 then abortM .terminate else pure ()

private theorem ex_ends : EndsInstead exThrowing exEnding := by
  intro v w
  by_cases h : v = 5#8 <;> simp only [exThrowing, exEnding, h, if_true, if_false] <;> rfl

example : Re.reset exEnv 20 exThrowing = Re.reset exEnv 20 exEnding := (C77_ends ex_ends exEnv 20 21).1

/-- Optional 20 holds 5. -/
example : Re.reset exEnv 20 exThrowing exWorld = (.abort .terminate, exWorld) := (C77_terminates (y := 21) ex20 rfl).1
example : Re.assignFrom exEnv true 20 21 (pure ()) (pure 0#8) exThrowing exWorld = (.abort .terminate, exWorld) :=
  (C77_terminates ex20 rfl).2.2.2 ex21 _ _ _

/-- Optional 0 holds 42: nothing happens. -/
example : (Re.reset exEnv 0 exThrowing exWorld).1 = .ok () := by decide +kernel

/-- Without exceptions from the destructor, those from the constructor do leave `emplace`. -/
example : (Re.emplace exEnv 0 false exThrowing (throwE (.user 3)) exWorld).1 = .throw (.user 3) := by decide +kernel

/-- After a swap the moved-from payload has the value 0. -/
example : Re.swap exEnv 20 21 (pure ()) (fun y => evalArg exEnv (exEnv 20).ops (.moveOf y)) (fun _ => throwE (.user 7)) exWorld =
    (.abort .terminate, (constructWith exEnv 21 (exEnv 21).ops.nothrowMoveCtor (evalArg exEnv (exEnv 20).ops (.moveOf 20)) exWorld).2) :=
  (C77_swap_terminates ex20.1 ex21 rfl (u := 0#8) ⟨rfl, rfl⟩ rfl _).1

example : NoThrow (Re.swap exEnv 20 21 (pure ()) (fun _ => pure 1#8) exThrowing) :=
  (C77_only_others exEnv 20 21 exThrowing (asg := pure ()) (c := pure 1#8) (calm_pure ()).1 (calm_pure _).1 (calm_pure ()).1
    fun _ => (calm_pure _).1).2.2

/-- A handler that would empty another optional. -/
example (d : BitVec 8 → Prog (BitVec 8) (List String) Unit) :
    runProg exEnv (.reset 20 d fun r => match r with
      | .ok _ => .ret (.ok ())
      | .error _ => .call (.reset 0) fun _ => .ret (.ok ())) =
    runProg exEnv (.reset 20 d fun _ => .ret (.ok ())) :=
  (C77_no_handler exEnv 20 d (by rfl)).1

end Verif.Props
