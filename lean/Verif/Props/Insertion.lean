import Verif.Lemmas.Insertion
import Verif.Props.Growth

/-!
# C94: inserting an element into a vector of optionals
-/

namespace Verif.Props
open Verif Verif.Model Verif.Spec
variable {V G : Type} {Γ : Env V G} {D : V → Prop}

private theorem shiftRight_ok {t N k : Nat} (h : ∀ x y, x ≤ N ∨ x = t → y ≤ N ∨ y = t → Γ x = Γ y) : ∀ n, k + n < N → ProgOK Γ (shiftRight t k n)
  | 0, _ => ⟨h _ _ (by omega) (.inr rfl), fun r => by cases r <;> exact trivial⟩
  | n + 1, hi => ⟨h _ _ (by omega) (by omega), fun r => by
    cases r with
    | ok _ => exact shiftRight_ok h n (by omega)
    | error e => exact trivial⟩

/-- C94. The optional `t` is inserted before the element `k` of a vector of `N` optionals, which has room for another one: either `k` is as `t` was, and
the elements from `k` on have moved down; or a move has thrown, then all elements still exist (the new one behind the others only if its move
constructor did not throw) and are empty or have a value of `D`. In both cases `t` still exists and has no value that can not be stored, the elements
before `k` and all other optionals outside of the vector are unchanged, and nothing is leaked. -/
theorem C94_insertion (hΓ : EnvWF Γ) {w : World V G} (hw : Reach Γ w) {t N k : Nat} (hk : k < N) (ht : N < t)
    (hn : ∀ x y, x ≤ N ∨ x = t → y ≤ N ∨ y = t → Γ x = Γ y)
    (hf : ∀ x, x ≤ N → Movable (Γ x).ops D) (hst : ∀ x, x ≤ N ∨ x = t → ∀ a, D a → (Γ x).cfg.Storable a)
    (hold : ∀ x, x < N ∨ x = t → IsEmpty Γ x w ∨ ∃ a, Holds Γ x a w ∧ D a) (hnew : Absent N w) :
    ((runProg Γ (insertion t N k) w).1 = .ok () ∧ SameState Γ t w k (runProg Γ (insertion t N k) w).2 ∧
        (∀ x, k ≤ x → x < N → SameState Γ x w (x + 1) (runProg Γ (insertion t N k) w).2) ∧
        (IsEmpty Γ t (runProg Γ (insertion t N k) w).2 ↔ IsEmpty Γ t w) ∨
      ∃ e j, (runProg Γ (insertion t N k) w).1 = .throw e ∧ j ≤ N ∧ ((Γ j).ops.nothrowMoveAssign && (Γ j).ops.nothrowMoveCtor) = false ∧
        ∀ x, k ≤ x → x ≤ N → x = N ∧ Absent x (runProg Γ (insertion t N k) w).2 ∨
          IsEmpty Γ x (runProg Γ (insertion t N k) w).2 ∨ ∃ a, Holds Γ x a (runProg Γ (insertion t N k) w).2 ∧ D a) ∧
    (IsEmpty Γ t (runProg Γ (insertion t N k) w).2 ∨ ∃ a, Holds Γ t a (runProg Γ (insertion t N k) w).2 ∧ D a) ∧
    (∀ x, x < k ∨ N < x ∧ x ≠ t → SameState Γ x w x (runProg Γ (insertion t N k) w).2) ∧
    ∀ id, leaked (runProg Γ (insertion t N k) w).2.log id = 0 := by
  obtain ⟨sw0, hsw⟩ := id hw
  have hs : Sees Γ w ⟨sw0.vars, sw0.user, []⟩ := (hsw.rel hΓ).1.sees hΓ
  have hv : ∀ z, z < N ∨ z = t → Sound D (sw0.vars z) := fun z hz => by
    rcases hold z hz with h | ⟨b, hb, h⟩
    · exact ⟨none, (hs.2 z).2.1.1 h, nofun⟩
    · exact ⟨some b, ((hs.2 z).2.2 b).1 hb, fun a ha => by cases ha; exact h⟩
  obtain ⟨r, u, g', tr', h, had, hr⟩ := insertion_run (D := D) (ops := fun x => (Γ x).ops) (lim := exclusions Γ) hk ht hf (fun x _ => hΓ.ops x)
    (w := ⟨sw0.vars, sw0.user, []⟩) (fun z hz => hv z (.inl hz)) ((hs.2 N).1.1 hnew) (hv t (.inr rfl))
  obtain ⟨h1, h2, h3⟩ := C62_program_partial hΓ hw hs (insertion t N k)
    ⟨hn _ _ (by omega) (by omega), fun r => by
      cases r with
      | ok _ => exact shiftRight_ok hn _ (by omega)
      | error e => exact trivial⟩ h
    (by rcases hr with ⟨rfl, _⟩ | ⟨e, j, rfl, _⟩ <;> exact nofun) fun q hq => by
      rcases had q hq with h | ⟨h, h'⟩
      · cases h
      · exact hst _ h _ h'
  have same : ∀ x y, u y = sw0.vars x → SameState Γ x w y (runProg Γ (insertion t N k) w).2 := fun x y e => by
    refine ⟨?_, ?_, fun a => ?_⟩
    · rw [(h2.2 y).1, (hs.2 x).1]; simp only [e]
    · rw [(h2.2 y).2.1, (hs.2 x).2.1]; simp only [e]
    · rw [(h2.2 y).2.2 a, (hs.2 x).2.2 a]; simp only [e]
  have fine : ∀ x, Sound D (u x) →
      IsEmpty Γ x (runProg Γ (insertion t N k) w).2 ∨ ∃ a, Holds Γ x a (runProg Γ (insertion t N k) w).2 ∧ D a := fun x ⟨o, ho, hD⟩ => by
    cases o with
    | none => exact .inl ((h2.2 x).2.1.2 ho)
    | some a => exact .inr ⟨a, ((h2.2 x).2.2 a).2 ho, hD a rfl⟩
  rcases hr with ⟨rfl, hu, hut, hte⟩ | ⟨e, j, rfl, hj, hnt, br⟩
  · refine ⟨.inl ⟨h1, same t k ?_, fun x hx hx' => same x (x + 1) ?_, ?_⟩, fine t hut, fun x hx => same x x ?_, h3⟩
    · rw [hu k (by omega)]; simp
    · rw [hu (x + 1) (by omega)]; simp [show ¬ x + 1 < k by omega, show x + 1 ≠ k by omega, show x + 1 ≤ N by omega]
    · rw [(h2.2 t).2.1, (hs.2 t).2.1]; exact hte
    · rcases hx with hx | ⟨hx, hx'⟩
      · rw [hu x (by omega)]; simp [hx]
      · rw [hu x hx']; simp [show ¬ x < k by omega, show x ≠ k by omega, show ¬ x ≤ N by omega]
  · refine ⟨.inr ⟨e, j, h1, hj, hnt, fun x hx hx' => ?_⟩, fine t br.temp, fun x hx => same x x ?_, h3⟩
    · by_cases hxN : x = N
      · subst hxN
        rcases br.last with h | h
        · exact .inl ⟨rfl, (h2.2 x).1.2 h⟩
        · exact .inr (fine x h)
      · exact .inr (fine x (br.fine x hx (by omega)))
    · rcases hx with hx | ⟨hx, hx'⟩
      · exact br.before x hx
      · exact br.behind x hx hx'

/-! ### Examples -/

open Verif.Examples

/-- A payload whose move assignment throws for 99, after both operands have been changed. -/
private def roughOps : Ops (BitVec 8) (List String) :=
  { throwingOps with
    moveAssign := fun _ s g => if s = 99#8 then (some (.user 99), 98#8, 97#8, g ++ ["move=!"]) else (none, s, 0#8, g ++ ["move="]) }
private theorem roughOps_lawful : roughOps.Lawful := by
  constructor <;> intro h <;> simp [roughOps, throwingOps] at h

private abbrev T : Env (BitVec 8) (List String) := fun _ => ⟨sentCfg false, roughOps⟩
private theorem T_wf : EnvWF T := ⟨fun _ => sentCfg_wf _, fun _ => roughOps_lawful⟩

private theorem T_movable : Movable roughOps fun v => v ≠ 42#8 where
  move a g b _ h := by
    simp only [roughOps, throwingOps] at h
    split at h <;> cases h
    rfl
  left a g _ := by
    simp only [roughOps, throwingOps]
    split <;> simp
  assign a b g _ _ h := by
    simp only [roughOps] at h ⊢
    split at h
    · cases h
    · rename_i hb
      simp [hb]
  target a b g _ hb := by
    simp only [roughOps]
    split
    · simp
    · exact hb
  source a b g _ _ := by
    simp only [roughOps]
    split <;> simp

private theorem storable {v : BitVec 8} (h : v ≠ 42#8) : (sentCfg false).Storable v := by
  simpa [Config.Storable, Config.loc, sentCfg] using h

/-- A vector with 5, an empty optional, and `c`; the new element 1 is in optional 4. -/
private def three (c : BitVec 8) : Verif.Prog (BitVec 8) (List String) Unit :=
  .construct 0 true (.ret (.ok 5)) fun _ => .call (.ctorDefault 1) fun _ => .construct 2 true (.ret (.ok c)) fun _ =>
  .construct 4 true (.ret (.ok 1)) fun _ => .ret (.ok ())

private abbrev after (c : BitVec 8) : World (BitVec 8) (List String) := (runProg T (three c) (.init [])).2
private abbrev afterSpec (c : BitVec 8) : SWorld (BitVec 8) (List String) :=
  (specProg (fun x => (T x).ops) (exclusions T) [] (three c) (.init [])).2

private theorem reach {c : BitVec 8} (hc : c ≠ 42#8) (h : (specProg (fun x => (T x).ops) (exclusions T) [] (three c) (.init [])).1 ≠ .undef)
    (e : (afterSpec c).trace = [(0, 5#8), (2, c), (4, 1#8)]) : ReachAs T (after c) (afterSpec c) :=
  .program (three c) (.init []) (by simp [three, ProgOK, OpOK]) (Prod.eta _).symm h (by
    rw [e]
    intro q hq
    simp at hq
    rcases hq with rfl | rfl | rfl
    · exact storable (by decide)
    · exact storable hc
    · exact storable (by decide))

private theorem values {c : BitVec 8} (hc : c ≠ 42#8) (hr : ReachAs T (after c) (afterSpec c)) (h : (afterSpec c).vars 0 = some (some 5) ∧
    (afterSpec c).vars 1 = some none ∧ (afterSpec c).vars 2 = some (some c) ∧ (afterSpec c).vars 4 = some (some 1)) (x : Nat) (hx : x < 3 ∨ x = 4) :
    IsEmpty T x (after c) ∨ ∃ a, Holds T x a (after c) ∧ a ≠ 42#8 := by
  have hs := ((hr.rel T_wf).1.sees T_wf).2
  have : x = 0 ∨ x = 1 ∨ x = 2 ∨ x = 4 := by omega
  rcases this with rfl | rfl | rfl | rfl
  · exact .inr ⟨5, ((hs 0).2.2 5).2 h.1, by decide⟩
  · exact .inl ((hs 1).2.1.2 h.2.1)
  · exact .inr ⟨c, ((hs 2).2.2 c).2 h.2.2.1, hc⟩
  · exact .inr ⟨1, ((hs 4).2.2 1).2 h.2.2.2, by decide⟩

private theorem reach_9 : ReachAs T (after 9) (afterSpec 9) := reach (by decide) (by decide +kernel) (by decide +kernel)
private theorem reach_99 : ReachAs T (after 99) (afterSpec 99) := reach (by decide) (by decide +kernel) (by decide +kernel)

/-- 1 is inserted at the front. -/
example := C94_insertion T_wf ⟨_, reach_9⟩ (t := 4) (N := 3) (k := 0) (D := fun v => v ≠ 42#8) (by omega) (by omega) (fun _ _ _ _ => rfl)
  (fun _ _ => T_movable) (fun _ _ _ h => storable h) (values (by decide) reach_9 (by decide +kernel))
  (((reach_9.rel T_wf).1.sees T_wf).2 3 |>.1.2 (by decide +kernel))
example : (runProg T (insertion 4 3 0) (after 9)).1 = .ok () ∧ (hasValue T 2 (runProg T (insertion 4 3 0) (after 9)).2).1 = .ok false ∧
    [0, 1, 3, 4].map (fun x => (deref T x (runProg T (insertion 4 3 0) (after 9)).2).1) = [.ok 1#8, .ok 5#8, .ok 9#8, .ok 0#8] := by decide +kernel

/-- The move constructor throws. -/
example := C94_insertion T_wf ⟨_, reach_99⟩ (t := 4) (N := 3) (k := 0) (D := fun v => v ≠ 42#8) (by omega) (by omega) (fun _ _ _ _ => rfl)
  (fun _ _ => T_movable) (fun _ _ _ h => storable h) (values (by decide) reach_99 (by decide +kernel))
  (((reach_99.rel T_wf).1.sees T_wf).2 3 |>.1.2 (by decide +kernel))
example : (runProg T (insertion 4 3 0) (after 99)).1 = .throw (.user 99) ∧ (hasValue T 2 (runProg T (insertion 4 3 0) (after 99)).2).1 = .ok true ∧
    [0, 2, 4].map (fun x => (deref T x (runProg T (insertion 4 3 0) (after 99)).2).1) = [.ok 5#8, .ok 98#8, .ok 1#8] := by decide +kernel

end Verif.Props
