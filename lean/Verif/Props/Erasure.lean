import Verif.Lemmas.Erasure
import Verif.Props.Growth

/-!
# C93: erasing an element of a vector of optionals
-/

namespace Verif.Props
open Verif Verif.Model Verif.Spec
variable {V G : Type} {Γ : Env V G} {D : V → Prop}

private theorem shiftLeft_ok {N : Nat} (h : ∀ x y, x < N → y < N → Γ x = Γ y) : ∀ n i, i + n + 1 = N → ProgOK Γ (shiftLeft n i)
  | 0, _, _ => ⟨trivial, fun r => by cases r <;> exact trivial⟩
  | n + 1, i, hi => ⟨h _ _ (by omega) (by omega), fun r => by
    cases r with
    | ok _ => exact shiftLeft_ok h n (i + 1) (by omega)
    | error e => exact trivial⟩

/-- C93. The element `k` of a vector of `N` optionals is erased: either the elements behind it have moved up and the last one is destroyed; or a
move has thrown at an element `j`, then those before it have moved up, those behind `j + 1` are unchanged, and `j` and `j + 1` still have a value, or
still have none. In both cases the elements before `k` and all optionals outside of the vector are unchanged, and nothing is leaked. -/
theorem C93_erasure (hΓ : EnvWF Γ) {w : World V G} (hw : Reach Γ w) {N k : Nat} (hk : k < N) (hn : ∀ x y, x < N → y < N → Γ x = Γ y)
    (hf : ∀ x, x < N → Movable (Γ x).ops D) (hst : ∀ x, x < N → ∀ a, D a → (Γ x).cfg.Storable a)
    (hold : ∀ x, x < N → IsEmpty Γ x w ∨ ∃ a, Holds Γ x a w ∧ D a) :
    ((runProg Γ (erasure N k) w).1 = .ok () ∧ (∀ x, k ≤ x → x + 1 < N → SameState Γ (x + 1) w x (runProg Γ (erasure N k) w).2) ∧
        Absent (N - 1) (runProg Γ (erasure N k) w).2 ∨
      ∃ e j, (runProg Γ (erasure N k) w).1 = .throw e ∧ k ≤ j ∧ j + 1 < N ∧
        ((Γ j).ops.nothrowMoveAssign && (Γ j).ops.nothrowMoveCtor) = false ∧
        (∀ x, k ≤ x → x < j → SameState Γ (x + 1) w x (runProg Γ (erasure N k) w).2) ∧
        (∀ x, x = j ∨ x = j + 1 → (IsEmpty Γ x (runProg Γ (erasure N k) w).2 ↔ IsEmpty Γ x w) ∧
          (IsEmpty Γ x (runProg Γ (erasure N k) w).2 ∨ ∃ a, Holds Γ x a (runProg Γ (erasure N k) w).2 ∧ D a)) ∧
        ∀ x, j + 1 < x → SameState Γ x w x (runProg Γ (erasure N k) w).2) ∧
    (∀ x, x < k ∨ N ≤ x → SameState Γ x w x (runProg Γ (erasure N k) w).2) ∧ ∀ id, leaked (runProg Γ (erasure N k) w).2.log id = 0 := by
  obtain ⟨sw0, hsw⟩ := id hw
  have hs : Sees Γ w ⟨sw0.vars, sw0.user, []⟩ := (hsw.rel hΓ).1.sees hΓ
  have hv : ∀ z, z < N → ∃ o, sw0.vars z = some o ∧ ∀ a, o = some a → D a := fun z hz => by
    rcases hold z hz with h | ⟨b, hb, h⟩
    · exact ⟨none, (hs.2 z).2.1.1 h, nofun⟩
    · exact ⟨some b, ((hs.2 z).2.2 b).1 hb, fun a ha => by cases ha; exact h⟩
  obtain ⟨r, u, g', tr', h, ht, hr⟩ := shiftLeft_run (D := D) (ops := fun x => (Γ x).ops) (lim := exclusions Γ) hf (fun x _ => hΓ.ops x) hv
    (N - 1 - k) k ⟨sw0.vars, sw0.user, []⟩ (by omega) (Nat.le_refl k)
    ⟨fun _ _ => rfl, fun _ h h' => absurd h (by omega), by
      obtain ⟨o, h, h'⟩ := hv k hk
      exact ⟨o, h, by rw [h]; simp, h'⟩, fun _ _ => rfl⟩
  obtain ⟨h1, h2, h3⟩ := C62_program_partial hΓ hw hs (erasure N k) (shiftLeft_ok hn _ k (by omega)) h
    (by rcases hr with ⟨rfl, _⟩ | ⟨e, j, rfl, _⟩ <;> exact nofun) fun q hq => by
      rcases ht q hq with h | ⟨h, h'⟩
      · cases h
      · exact hst _ h _ h'
  have same : ∀ x y, u y = sw0.vars x → SameState Γ x w y (runProg Γ (erasure N k) w).2 := fun x y e => by
    refine ⟨?_, ?_, fun a => ?_⟩
    · rw [(h2.2 y).1, (hs.2 x).1]; simp only [e]
    · rw [(h2.2 y).2.1, (hs.2 x).2.1]; simp only [e]
    · rw [(h2.2 y).2.2 a, (hs.2 x).2.2 a]; simp only [e]
  rcases hr with ⟨rfl, hu⟩ | ⟨e, j, rfl, hj, hj', hnt, st⟩
  · refine ⟨.inl ⟨h1, fun x hx hx' => same (x + 1) x ?_, (h2.2 (N - 1)).1.2 ?_⟩, fun x hx => same x x ?_, h3⟩
    · simp [hu, hx', show ¬ x < k by omega]
    · simp [hu, show ¬ N - 1 < k by omega, show N - 1 + 1 = N by omega]
    · rcases hx with hx | hx
      · simp [hu, hx]
      · simp [hu, show ¬ x < k by omega, show ¬ x + 1 < N by omega, show x + 1 ≠ N by omega]
  · refine ⟨.inr ⟨e, j, h1, hj, hj', hnt, fun x hx hx' => same (x + 1) x (st.moved x hx hx'), fun x hx => ?_,
      fun x hx => same x x (st.behind x hx)⟩, fun x hx => ?_, h3⟩
    · obtain ⟨o, ho, he, hD⟩ := st.here x hx
      refine ⟨?_, ?_⟩
      · rw [(h2.2 x).2.1, (hs.2 x).2.1]
        simp only [ho, ← he, Option.some.injEq]
      · cases o with
        | none => exact .inl ((h2.2 x).2.1.2 ho)
        | some a => exact .inr ⟨a, ((h2.2 x).2.2 a).2 ho, hD a rfl⟩
    · rcases hx with hx | hx
      · exact same x x (st.before x hx)
      · exact same x x (st.behind x (by omega))

/-! ### Examples -/

open Verif.Examples

/-- A payload whose move assignment throws for 99, after both operands have been changed. -/
private def roughOps : Ops (BitVec 8) (List String) :=
  { throwingOps with
    moveAssign := fun _ s g => if s = 99#8 then (some (.user 99), 98#8, 97#8, g ++ ["move=!"]) else (none, s, 0#8, g ++ ["move="]) }
private theorem roughOps_lawful : roughOps.Lawful := by
  constructor <;> intro h <;> simp [roughOps, throwingOps] at h

private abbrev T : Env (BitVec 8) (List String) := fun _ => ⟨sentCfg false, roughOps⟩
private theorem T_wf : EnvWF T := ⟨fun _ => sentCfg_wf _, fun _ => roughOps_lawful⟩

private theorem T_movable : Movable roughOps fun v => v ≠ 42#8 where
  move a g b _ h := by
    simp only [roughOps, throwingOps] at h
    split at h <;> cases h
    rfl
  left a g _ := by
    simp only [roughOps, throwingOps]
    split <;> simp
  assign a b g _ _ h := by
    simp only [roughOps] at h ⊢
    split at h
    · cases h
    · rename_i hb
      simp [hb]
  target a b g _ hb := by
    simp only [roughOps]
    split
    · simp
    · exact hb
  source a b g _ _ := by
    simp only [roughOps]
    split <;> simp

private theorem storable {v : BitVec 8} (h : v ≠ 42#8) : (sentCfg false).Storable v := by
  simpa [Config.Storable, Config.loc, sentCfg] using h

/-- A vector with 5, an empty optional, 7, and `c`; another optional behind it. -/
private def four (c : BitVec 8) : Verif.Prog (BitVec 8) (List String) Unit :=
  .construct 0 true (.ret (.ok 5)) fun _ => .call (.ctorDefault 1) fun _ => .construct 2 true (.ret (.ok 7)) fun _ =>
  .construct 3 true (.ret (.ok c)) fun _ => .construct 4 true (.ret (.ok 1)) fun _ => .ret (.ok ())

private abbrev after (c : BitVec 8) : World (BitVec 8) (List String) := (runProg T (four c) (.init [])).2
private abbrev afterSpec (c : BitVec 8) : SWorld (BitVec 8) (List String) :=
  (specProg (fun x => (T x).ops) (exclusions T) [] (four c) (.init [])).2

private theorem reach {c : BitVec 8} (hc : c ≠ 42#8) (h : (specProg (fun x => (T x).ops) (exclusions T) [] (four c) (.init [])).1 ≠ .undef)
    (e : (afterSpec c).trace = [(0, 5#8), (2, 7#8), (3, c), (4, 1#8)]) : ReachAs T (after c) (afterSpec c) :=
  .program (four c) (.init []) (by simp [four, ProgOK, OpOK]) (Prod.eta _).symm h (by
    rw [e]
    intro q hq
    simp at hq
    rcases hq with rfl | rfl | rfl | rfl
    · exact storable (by decide)
    · exact storable (by decide)
    · exact storable hc
    · exact storable (by decide))

private theorem values {c : BitVec 8} (hc : c ≠ 42#8) (hr : ReachAs T (after c) (afterSpec c)) (h : (afterSpec c).vars 0 = some (some 5) ∧
    (afterSpec c).vars 1 = some none ∧ (afterSpec c).vars 2 = some (some 7) ∧ (afterSpec c).vars 3 = some (some c)) (x : Nat) (hx : x < 4) :
    IsEmpty T x (after c) ∨ ∃ a, Holds T x a (after c) ∧ a ≠ 42#8 := by
  have hs := ((hr.rel T_wf).1.sees T_wf).2
  have : x = 0 ∨ x = 1 ∨ x = 2 ∨ x = 3 := by omega
  rcases this with rfl | rfl | rfl | rfl
  · exact .inr ⟨5, ((hs 0).2.2 5).2 h.1, by decide⟩
  · exact .inl ((hs 1).2.1.2 h.2.1)
  · exact .inr ⟨7, ((hs 2).2.2 7).2 h.2.2.1, by decide⟩
  · exact .inr ⟨c, ((hs 3).2.2 c).2 h.2.2.2, hc⟩

private theorem reach_9 : ReachAs T (after 9) (afterSpec 9) := reach (by decide) (by decide +kernel) (by decide +kernel)
private theorem reach_99 : ReachAs T (after 99) (afterSpec 99) := reach (by decide) (by decide +kernel) (by decide +kernel)

/-- The first element is erased; all cases of move assignment but the one without values occur, nothing throws. -/
example := C93_erasure T_wf ⟨_, reach_9⟩ (N := 4) (k := 0) (D := fun v => v ≠ 42#8) (by omega) (fun _ _ _ _ => rfl) (fun _ _ => T_movable)
  (fun _ _ _ h => storable h) (values (by decide) reach_9 (by decide +kernel))
example : (runProg T (erasure 4 0) (after 9)).1 = .ok () ∧ (hasValue T 0 (runProg T (erasure 4 0) (after 9)).2).1 = .ok false ∧
    [1, 2, 4].map (fun x => (deref T x (runProg T (erasure 4 0) (after 9)).2).1) = [.ok 7#8, .ok 9#8, .ok 1#8] := by decide +kernel

/-- The last move throws (`j = 2`): 2 and 3 keep a value, but not theirs. -/
example := C93_erasure T_wf ⟨_, reach_99⟩ (N := 4) (k := 0) (D := fun v => v ≠ 42#8) (by omega) (fun _ _ _ _ => rfl) (fun _ _ => T_movable)
  (fun _ _ _ h => storable h) (values (by decide) reach_99 (by decide +kernel))
example : (runProg T (erasure 4 0) (after 99)).1 = .throw (.user 99) ∧ (hasValue T 0 (runProg T (erasure 4 0) (after 99)).2).1 = .ok false ∧
    [1, 2, 3, 4].map (fun x => (deref T x (runProg T (erasure 4 0) (after 99)).2).1) = [.ok 7#8, .ok 98#8, .ok 97#8, .ok 1#8] := by decide +kernel

end Verif.Props
