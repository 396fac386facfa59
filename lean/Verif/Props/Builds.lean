import Verif.Lemmas.LockstepReentrant
import Verif.Examples

/-!
# C44, C47: builds and configurations that behave identically
-/

namespace Verif.Props
open Verif Verif.Model Verif.Examples
variable {V G : Type} {Γ : Env V G} {w w' : World V G}

/-! ### C44 -/

/-- The same program compiled with `NDEBUG`. -/
def release (Γ : Env V G) : Env V G := fun x => { Γ x with cfg := { (Γ x).cfg with ndebug := true } }

/-- Stopped by an assertion or by undefined behaviour. (Evaluating the condition of an assertion, `has_value()`, can be
undefined, e.g. for an object that does not exist.) -/
def Tripped {α : Type} (r : Res α) : Prop := r = .abort .assertFail ∨ ∃ k, r = .abort (.ub k)

private def Follows {α : Type} (m m' : M V G α) : Prop := ∀ w, ¬ Tripped (m w).1 → m' w = m w

private theorem Follows.refl {α : Type} (m : M V G α) : Follows m m := fun _ _ => rfl

private theorem Follows.of_eq {α : Type} {m m' : M V G α} (h : m' = m) : Follows m m' := h ▸ Follows.refl m

private theorem Follows.bind {α β : Type} {m m' : M V G α} {f f' : α → M V G β} (h : Follows m m')
    (hf : ∀ a, Follows (f a) (f' a)) : Follows (m >>= f) (m' >>= f') := by
  intro w hw
  have hb : (m >>= f) w = M.bind m f w := rfl
  have hb' : (m' >>= f') w = M.bind m' f' w := rfl
  rw [hb] at hw ⊢
  rw [hb']
  unfold M.bind at hw ⊢
  rcases hm : m w with ⟨a | e | a, w₁⟩
  · rw [h w (by rw [hm]; rintro (h | ⟨_, h⟩) <;> cases h), hm]
    rw [hm] at hw
    exact hf a w₁ hw
  · rw [h w (by rw [hm]; rintro (h | ⟨_, h⟩) <;> cases h), hm]
  · rw [hm] at hw
    rw [h w (by
      rw [hm]
      rintro (h | ⟨k, h⟩) <;> cases h
      · exact hw (.inl rfl)
      · exact hw (.inr ⟨k, rfl⟩)), hm]

private theorem Follows.onThrow {α : Type} {m m' : M V G α} {k k' : M V G Unit} (h : Follows m m') (hk : Follows k k') :
    Follows (onThrow m k) (onThrow m' k') := by
  intro w hw
  unfold Model.onThrow at hw ⊢
  rcases hm : m w with ⟨a | e | a, w₁⟩
  · rw [h w (by rw [hm]; rintro (h | ⟨_, h⟩) <;> cases h), hm]
  · rw [h w (by rw [hm]; rintro (h | ⟨_, h⟩) <;> cases h), hm]
    rw [hm] at hw
    dsimp only at hw ⊢
    rw [hk w₁ ?_]
    rcases hk' : k w₁ with ⟨a | e | a, w₂⟩ <;> rw [hk'] at hw
    · rintro (h | ⟨_, h⟩) <;> cases h
    · rintro (h | ⟨_, h⟩) <;> cases h
    · rintro (h | ⟨k, h⟩) <;> cases h
      · exact hw (.inl rfl)
      · exact hw (.inr ⟨k, rfl⟩)
  · rw [hm] at hw
    rw [h w (by
      rw [hm]
      rintro (h | ⟨k, h⟩) <;> cases h
      · exact hw (.inl rfl)
      · exact hw (.inr ⟨k, rfl⟩)), hm]

private theorem Follows.noexceptIf {α : Type} {m m' : M V G α} (b : Bool) (h : Follows m m') :
    Follows (noexceptIf b m) (noexceptIf b m') := by
  intro w hw
  unfold Model.noexceptIf at hw ⊢
  rw [h w ?_]
  rcases hm : m w with ⟨a | e | a, w₁⟩ <;> rw [hm] at hw
  · rintro (h | ⟨_, h⟩) <;> cases h
  · rintro (h | ⟨_, h⟩) <;> cases h
  · exact hw

/-- Evaluating the condition of an assertion either has no effect or is undefined. -/
private def Quiet (c : M V G Bool) : Prop := ∀ w, (∃ b, c w = (.ok b, w)) ∨ ∃ k w', c w = (.abort (.ub k), w')

private theorem Follows.assertM {nd : Bool} {c : M V G Bool} (hc : Quiet c) : Follows (assertM nd c) (assertM true c) := by
  cases nd
  · intro w hw
    have h1 : (Model.assertM false c : M V G Unit) = M.bind c fun b => if b then M.pure () else abortM .assertFail := rfl
    have h2 : (Model.assertM true c : M V G Unit) w = (.ok (), w) := rfl
    rw [h1] at hw ⊢
    rw [h2]
    unfold M.bind at hw ⊢
    rcases hc w with ⟨b, hb⟩ | ⟨k, w', hk⟩
    · rw [hb] at hw ⊢
      cases b
      · exact absurd (.inl rfl) hw
      · rfl
    · rw [hk] at hw
      exact absurd (.inr ⟨k, rfl⟩) hw
  · exact Follows.refl _

private theorem hasValue_quiet (x : Nat) : Quiet (hasValue Γ x) := by
  intro w
  rcases hm : w.mem x with _ | s
  · exact .inr ⟨.noOptional, w, by unfold hasValue; rw [bind_abort (readStorage_none hm)]⟩
  · rcases he : (Γ x).cfg.isEmpty s with k | b
    · refine .inr ⟨k, w, ?_⟩
      unfold hasValue
      rw [bind_ok (readStorage_ok hm), he]
      rfl
    · exact .inl ⟨!b, hasValue_run hm he⟩

private theorem quiet_bind {c : M V G Bool} {f : Bool → M V G Bool} (hc : Quiet c) (hf : ∀ b, Quiet (f b)) : Quiet (c >>= f) := by
  intro w
  rcases hc w with ⟨b, hb⟩ | ⟨k, w', hk⟩
  · rw [bind_ok hb]; exact hf b w
  · exact .inr ⟨k, w', by rw [bind_abort hk]⟩

private theorem quiet_pure (b : Bool) : Quiet (pure b : M V G Bool) := fun _ => .inl ⟨b, rfl⟩

private theorem follows_lockstep (Γ : Env V G) : Lockstep (V := V) (G := G) Follows Γ (release Γ) where
  refl := Follows.refl
  bind := Follows.bind
  onThrow := Follows.onThrow
  noexceptIf := Follows.noexceptIf
  ops _ := rfl
  hasValue _ := .of_eq rfl
  assertHas x _ := Follows.assertM (quiet_bind (hasValue_quiet x) fun _ => quiet_pure _)
  assertSame x y := Follows.assertM (quiet_bind (hasValue_quiet x) fun _ => quiet_bind (hasValue_quiet y) fun _ => quiet_pure _)
  init _ := .of_eq rfl
  inval _ _ := .of_eq rfl
  destroy _ _ := .of_eq rfl
  newPayload _ _ := .of_eq rfl
  setPayload _ _ := .of_eq rfl

private theorem Follows.attempt {α : Type} {m m' : M V G α} (h : Follows m m') : Follows (attempt m) (attempt m') := by
  intro w hw
  unfold Model.attempt at hw ⊢
  rw [h w ?_]
  rcases hm : m w with ⟨a | e | a, w₁⟩ <;> rw [hm] at hw
  · rintro (h | ⟨_, h⟩) <;> cases h
  · rintro (h | ⟨_, h⟩) <;> cases h
  · rintro (h | ⟨k, h⟩) <;> cases h
    · exact hw (.inl rfl)
    · exact hw (.inr ⟨k, rfl⟩)

/-- C44. One call, in any world: if the debug build is not stopped by an assertion or undefined behaviour, the release build
has the same result and leaves the same world (memory, objects, log of lifetimes, user state). -/
theorem C44_call (Γ : Env V G) (op : Op V G) (w : World V G) (h : ¬ Tripped (execOp Γ op w).1) :
    execOp (release Γ) op w = execOp Γ op w :=
  (follows_lockstep Γ).execOp op w h

/-- C44. Any history from any world: if no call trips in the debug build, results and final world are the same in the
release build. -/
theorem C44_run (Γ : Env V G) (h : List (Op V G)) (w : World V G) (hr : ∀ r ∈ (run Γ h w).1, ¬ Tripped r) :
    run (release Γ) h w = run Γ h w := by
  induction h generalizing w with
  | nil => rfl
  | cons op rest ih =>
    have hop : ¬ Tripped (execOp Γ op w).1 := by
      intro ht
      rcases he : execOp Γ op w with ⟨r, w₁⟩
      rw [he] at ht
      apply hr r _ ht
      simp only [run, he]
      rcases r with _ | _ | _ <;> simp
    simp only [run]
    rw [C44_call Γ op w hop]
    rcases he : execOp Γ op w with ⟨r, w₁⟩
    rcases r with a | e | a
    · simp only [run, he] at hr
      simp only
      rw [ih w₁ (fun r hm => hr r (by simp [hm]))]
    · simp only [run, he] at hr
      simp only
      rw [ih w₁ (fun r hm => hr r (by simp [hm]))]
    · rfl

/-- C44. If the debug build is stopped, all calls before had the same results in the release build: the debug results
without the last one (the stop) are the beginning of the release results. -/
theorem C44_until_stop (Γ : Env V G) (h : List (Op V G)) (w : World V G) :
    (run Γ h w).1.dropLast <+: (run (release Γ) h w).1 := by
  induction h generalizing w with
  | nil => simp [run]
  | cons op rest ih =>
    by_cases ht : Tripped (execOp Γ op w).1
    · have : (run Γ (op :: rest) w).1.dropLast = [] := by
        rcases he : execOp Γ op w with ⟨r, w₁⟩
        rw [he] at ht
        simp only [run, he]
        rcases ht with rfl | ⟨k, rfl⟩ <;> rfl
      rw [this]; exact List.nil_prefix
    · simp only [run]
      rw [C44_call Γ op w ht]
      rcases he : execOp Γ op w with ⟨r, w₁⟩
      rcases r with a | e | a
      · have := ih w₁
        simp only
        rcases hl : (run Γ rest w₁).1 with _ | ⟨b, l⟩
        · simp
        · rw [hl] at this
          rw [List.dropLast_cons_of_ne_nil (by simp)]
          exact (List.prefix_cons_inj _).2 this
      · have := ih w₁
        simp only
        rcases hl : (run Γ rest w₁).1 with _ | ⟨b, l⟩
        · simp
        · rw [hl] at this
          rw [List.dropLast_cons_of_ne_nil (by simp)]
          exact (List.prefix_cons_inj _).2 this
      · simp

/-- A history that is not legal (42 is the reserved value of variable 20): the debug build stops at the second call, the
release build goes on. Before that the results agree. -/
example : (run exEnv [.ctorDefault 21, .ctorInPlace 20 (lit 42#8), .hasValue 20] (.init [])).1
      = [.ok .unit, .abort .assertFail] ∧
    (run (release exEnv) [.ctorDefault 21, .ctorInPlace 20 (lit 42#8), .hasValue 20] (.init [])).1
      = [.ok .unit, .ok .unit, .ok (.bool false)] := ⟨rfl, rfl⟩

/-- A history with exceptions in which nothing trips, so that `C44_run` applies; `C44_call` for its first call. -/
example : run (release exEnv) [.ctorDefault 21, .emplace 21 boom, .value 21, .emplace 21 (lit 5#8)] (.init []) =
      run exEnv [.ctorDefault 21, .emplace 21 boom, .value 21, .emplace 21 (lit 5#8)] (.init []) ∧
    execOp (release exEnv) (.ctorDefault 21) (.init []) = execOp exEnv (.ctorDefault 21) (.init []) := by
  refine ⟨C44_run _ _ _ ?_, C44_call _ _ _ (by
    rw [show (execOp exEnv (.ctorDefault 21) (.init [])).1 = .ok .unit from rfl]
    rintro (h | ⟨_, h⟩) <;> cases h)⟩
  have : (run exEnv [.ctorDefault 21, .emplace 21 boom, .value 21, .emplace 21 (lit 5#8)] (.init [])).1 =
    [.ok .unit, .throw (.user 1), .throw .badOptionalAccess, .ok (.val 5#8)] := rfl
  rw [this]
  intro r hr
  simp only [List.mem_cons, List.not_mem_nil, or_false] at hr
  rcases hr with rfl | rfl | rfl | rfl <;> rintro (h | ⟨_, h⟩) <;> cases h

/-- C44. Programs whose user code (constructors, destructors, callables, comparisons) calls the library again, in any world. -/
theorem C44_reentrant (Γ : Env V G) {α : Type} (p : Prog V G α) (w : World V G) (h : ¬ Tripped (runProg Γ p w).1) :
    runProg (release Γ) p w = runProg Γ p w :=
  LockstepRe.runProg (Q := Follows) { follows_lockstep Γ with attempt := Follows.attempt } p w h

/-- The constructor of a payload fills another optional and then throws; the exception is caught. `k` is the value of the other one. -/
private def fillsOther (k : BitVec 8) : Prog (BitVec 8) (List String) (Obs (BitVec 8)) :=
  .call (.ctorDefault 20) fun _ => .construct 21 false (.call (.emplace 20 (lit k)) fun _ => .ret (.error (.user 3))) fun _ =>
  .call (.hasValue 20) fun r => .ret r

/-- With 5 nothing trips. 42 is the reserved value of variable 20: only the debug build notices. -/
example : runProg (release exEnv) (fillsOther 5#8) (.init []) = runProg exEnv (fillsOther 5#8) (.init []) ∧
    (runProg exEnv (fillsOther 5#8) (.init [])).1 = .ok (.bool true) ∧
    (runProg exEnv (fillsOther 42#8) (.init [])).1 = .abort .assertFail ∧
    (runProg (release exEnv) (fillsOther 42#8) (.init [])).1 = .ok (.bool false) := by
  have h : (runProg exEnv (fillsOther 5#8) (.init [])).1 = .ok (.bool true) := by decide +kernel
  refine ⟨C44_reentrant _ _ _ ?_, h, by decide +kernel, by decide +kernel⟩
  rw [h]
  rintro (h | ⟨_, h⟩) <;> cases h

/-! ### C47 -/

/-- The variables in `S` with an explicit sentinel use `sentinel_flag_manipulator` with the same sentinel instead. -/
def viaSentinelManipulator (S : Nat → Bool) (Γ : Env V G) : Env V G := fun x =>
  { Γ x with cfg := { (Γ x).cfg with manip :=
    match (Γ x).cfg.manip with
    | .assign sv eq => if S x then sentinelFlagManipulator sv eq else .assign sv eq
    | m => m } }

private theorem via_isEmpty (S : Nat → Bool) (Γ : Env V G) (x : Nat) (s : Storage V) :
    (viaSentinelManipulator S Γ x).cfg.isEmpty s = (Γ x).cfg.isEmpty s := by
  unfold Config.isEmpty viaSentinelManipulator
  cases hm : (Γ x).cfg.manip <;> try rfl
  dsimp only
  cases S x <;> rfl

private theorem via_initFlag (S : Nat → Bool) (Γ : Env V G) (x id : Nat) (s : Storage V) :
    (viaSentinelManipulator S Γ x).cfg.initFlag id s = (Γ x).cfg.initFlag id s := by
  unfold Config.initFlag viaSentinelManipulator
  cases hm : (Γ x).cfg.manip <;> try rfl
  dsimp only
  cases S x <;> rfl

private theorem via_hasValue (S : Nat → Bool) (Γ : Env V G) (x : Nat) :
    hasValue (viaSentinelManipulator S Γ) x = hasValue Γ x := by
  unfold hasValue
  simp only [via_isEmpty]

private theorem eq_lockstep (S : Nat → Bool) (Γ : Env V G) :
    Lockstep (V := V) (G := G) (fun m m' => m' = m) Γ (viaSentinelManipulator S Γ) where
  refl _ := rfl
  bind h1 h2 := by rw [h1, funext h2]
  onThrow h1 h2 := by rw [h1, h2]
  noexceptIf _ h := by rw [h]
  ops _ := rfl
  hasValue x := via_hasValue S Γ x
  assertHas x b := by unfold assertHas; rw [via_hasValue]; rfl
  assertSame x y := by unfold assertSame; rw [via_hasValue, via_hasValue]; rfl
  init x := by unfold initEmptyFlag; simp only [via_initFlag]
  inval x d := by
    unfold invalidateEmptyFlag viaSentinelManipulator
    cases hm : (Γ x).cfg.manip <;> try rfl
    dsimp only
    cases S x <;> rfl
  destroy _ _ := rfl
  newPayload _ _ := rfl
  setPayload _ _ := rfl

/-- C47. Every history from any world has the same results and leaves the same world (every byte, object, event and the
user state), whichever of the two ways is used to specify the sentinels of the variables. -/
theorem C47_run (S : Nat → Bool) (Γ : Env V G) (h : List (Op V G)) (w : World V G) :
    run (viaSentinelManipulator S Γ) h w = run Γ h w := by
  induction h generalizing w with
  | nil => rfl
  | cons op rest ih =>
    simp only [run]
    rw [(eq_lockstep S Γ).execOp op]
    simp only [ih]

/-- C47. The same for what comparisons and hashing use. -/
theorem C47_observers (S : Nat → Bool) (Γ : Env V G) (x : Nat) :
    hasValue (viaSentinelManipulator S Γ) x = hasValue Γ x ∧ deref (viaSentinelManipulator S Γ) x = deref Γ x ∧
    tinyOpt (viaSentinelManipulator S Γ) x = tinyOpt Γ x := by
  have h1 := (eq_lockstep S Γ).hasValue x
  have h2 := (eq_lockstep S Γ).deref x
  refine ⟨h1, h2, ?_⟩
  unfold tinyOpt
  rw [h1, h2]

/-- C47. Programs whose user code calls the library again. -/
theorem C47_reentrant (S : Nat → Bool) (Γ : Env V G) {α : Type} (p : Prog V G α) : runProg (viaSentinelManipulator S Γ) p = runProg Γ p :=
  LockstepRe.runProg (Q := fun m m' => m' = m) { eq_lockstep S Γ with attempt := fun h => by rw [h] } p

example : (runProg (viaSentinelManipulator (fun _ => true) exEnv) (fillsOther 5#8) (.init [])).1 = .ok (.bool true) := by
  rw [C47_reentrant]; decide +kernel

/-- Variable 20 has the sentinel 42 in `exEnv` and the manipulator in the other environment; the two configurations are
different, and optional 20 goes through empty and non-empty states. -/
example : (exEnv 20).cfg.manip = .assign 42#8 (· == ·) ∧
    (viaSentinelManipulator (fun _ => true) exEnv 20).cfg.manip = sentinelFlagManipulator 42#8 (· == ·) ∧
    (run (viaSentinelManipulator (fun _ => true) exEnv)
      [.ctorDefault 20, .hasValue 20, .emplace 20 (lit 5#8), .reset 20, .hasValue 20] (.init [])).1
      = [.ok .unit, .ok (.bool false), .ok (.val 5#8), .ok .unit, .ok (.bool false)] := ⟨rfl, rfl, rfl⟩

end Verif.Props
