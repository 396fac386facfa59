import Verif.Lemmas.Growth
import Verif.Props.Reentrant
import Verif.Examples

/-!
# C92: growing a vector of optionals has the strong exception guarantee
-/

namespace Verif.Props
open Verif Verif.Model Verif.Spec
variable {V G : Type} {Γ : Env V G} {D : V → Prop}

/-- The optional `y` of `w'` is as the optional `x` of `w`. -/
def SameState (Γ : Env V G) (x : Nat) (w : World V G) (y : Nat) (w' : World V G) : Prop :=
  (Absent y w' ↔ Absent x w) ∧ (IsEmpty Γ y w' ↔ IsEmpty Γ x w) ∧ ∀ a, Holds Γ y a w' ↔ Holds Γ x a w

private theorem destroyAll_ok (x : Nat) {k : Verif.Prog V G Unit} (hk : ProgOK Γ k) : ∀ n, ProgOK Γ (destroyAll x n k)
  | 0 => hk
  | n + 1 => ⟨trivial, fun r => by
    cases r with
    | ok _ => exact destroyAll_ok x hk n
    | error e => exact trivial⟩

private theorem fillBuffer_ok {N : Nat} {nt : Bool} (h : ∀ x y, x < N + N → y < N + N → Γ x = Γ y) :
    ∀ n i, i + n = N → ProgOK Γ (fillBuffer nt N n i)
  | 0, _, _ => destroyAll_ok (Γ := Γ) 0 (k := .ret (.ok ())) trivial N
  | n + 1, i, hi => ⟨by cases nt <;> exact h _ _ (by omega) (by omega), fun r => by
    cases r with
    | ok _ => exact fillBuffer_ok h n (i + 1) (by omega)
    | error e => exact destroyAll_ok (Γ := Γ) N (k := .ret (.error e)) trivial i⟩

/-- C92. A vector of `N` optionals gets a new buffer: either every element is in the new one, as it was in the old one, and the old ones are
destroyed; or an exception leaves the function, every optional of the program is as it was before, and the move constructor of the payload may
throw. In both cases optionals outside of the two buffers are unchanged and nothing is leaked. -/
theorem C92_growth (hΓ : EnvWF Γ) {w : World V G} (hw : Reach Γ w) {N : Nat} (hn : ∀ x y, x < N + N → y < N + N → Γ x = Γ y) {nt : Bool}
    (hnt : ∀ x, x < N + N → (Γ x).ops.nothrowMoveCtor = nt) (hf : ∀ x, x < N + N → Faithful (Γ x).ops D)
    (hst : ∀ x, x < N + N → ∀ a, D a → (Γ x).cfg.Storable a)
    (hold : ∀ x, x < N → IsEmpty Γ x w ∨ ∃ a, Holds Γ x a w ∧ D a) (hnew : ∀ x, N ≤ x → x < N + N → Absent x w) :
    ((runProg Γ (growth nt N) w).1 = .ok () ∧
        (∀ x, x < N → SameState Γ x w (N + x) (runProg Γ (growth nt N) w).2 ∧ Absent x (runProg Γ (growth nt N) w).2) ∧
        (∀ x, N + N ≤ x → SameState Γ x w x (runProg Γ (growth nt N) w).2) ∨
      nt = false ∧ (∃ e, (runProg Γ (growth nt N) w).1 = .throw e) ∧ ∀ x, SameState Γ x w x (runProg Γ (growth nt N) w).2) ∧
    ∀ id, leaked (runProg Γ (growth nt N) w).2.log id = 0 := by
  obtain ⟨sw0, hsw⟩ := id hw
  have hs : Sees Γ w ⟨sw0.vars, sw0.user, []⟩ := (hsw.rel hΓ).1.sees hΓ
  have hv : ∀ z, z < N → ∃ o, sw0.vars z = some o ∧ ∀ a, o = some a → D a := fun z hz => by
    rcases hold z hz with h | ⟨b, hb, h⟩
    · exact ⟨none, (hs.2 z).2.1.1 h, nofun⟩
    · exact ⟨some b, ((hs.2 z).2.2 b).1 hb, fun a ha => by cases ha; exact h⟩
  have hfree : ∀ z, N ≤ z → z < N + N → sw0.vars z = none := fun z hz hz' => (hs.2 z).1.1 (hnew z hz hz')
  obtain ⟨r, u, g', tr', h, ht, hr⟩ := fillBuffer_run (D := D) (ops := fun x => (Γ x).ops) (lim := exclusions Γ) hf
    (fun e x hx => (hΓ.ops x).moveCtor ((hnt x hx).trans e)) hv hfree N 0 ⟨sw0.vars, sw0.user, []⟩ (by omega)
    ⟨fun _ _ _ => rfl, fun z hz => (hv z hz).imp fun _ h => h.1, fun _ _ _ => rfl, fun _ h => absurd h (by omega),
      fun z _ hz => hfree (N + z) (by omega) (by omega), fun _ _ => rfl⟩
  obtain ⟨h1, h2, h3⟩ := C62_program_partial hΓ hw hs (growth nt N) (fillBuffer_ok hn N 0 (by omega)) h
    (by rcases hr with ⟨rfl, _⟩ | ⟨_, _, e, rfl⟩ <;> exact nofun) fun q hq => by
      rcases ht q hq with h | ⟨h, h'⟩
      · cases h
      · exact hst _ h _ h'
  have same : ∀ x y, u y = sw0.vars x → SameState Γ x w y (runProg Γ (growth nt N) w).2 := fun x y e => by
    refine ⟨?_, ?_, fun a => ?_⟩
    · rw [(h2.2 y).1, (hs.2 x).1]; simp only [e]
    · rw [(h2.2 y).2.1, (hs.2 x).2.1]; simp only [e]
    · rw [(h2.2 y).2.2 a, (hs.2 x).2.2 a]; simp only [e]
  refine ⟨?_, h3⟩
  rcases hr with ⟨rfl, hu⟩ | ⟨hf, hu, e, rfl⟩
  · refine .inl ⟨h1, fun x hx => ⟨same x (N + x) ?_, (h2.2 x).1.2 ?_⟩, fun x hx => same x x ?_⟩
    · simp [hu, hx]
    · simp [hu, hx]
    · simp [hu, show ¬ x < N by omega, show ¬ x < N + N by omega]
  · exact .inr ⟨hf, ⟨e, h1⟩, fun x => same x x (by rw [hu])⟩

/-- C92, for payloads that can not be copied: they are moved, even if this may throw. Then the old elements still have a value, or still have none,
the new ones are gone, and all other optionals are unchanged. -/
theorem C92_basic (hΓ : EnvWF Γ) {w : World V G} (hw : Reach Γ w) {N : Nat} (hn : ∀ x y, x < N + N → y < N + N → Γ x = Γ y)
    (hf : ∀ x, x < N + N → Moves (Γ x).ops D) (hst : ∀ x, x < N + N → ∀ a, D a → (Γ x).cfg.Storable a)
    (hold : ∀ x, x < N → IsEmpty Γ x w ∨ ∃ a, Holds Γ x a w ∧ D a) (hnew : ∀ x, N ≤ x → x < N + N → Absent x w) :
    ((runProg Γ (growth true N) w).1 = .ok () ∧
        (∀ x, x < N → SameState Γ x w (N + x) (runProg Γ (growth true N) w).2 ∧ Absent x (runProg Γ (growth true N) w).2) ∧
        (∀ x, N + N ≤ x → SameState Γ x w x (runProg Γ (growth true N) w).2) ∨
      (∃ e, (runProg Γ (growth true N) w).1 = .throw e) ∧
        (∀ x, x < N → (IsEmpty Γ x (runProg Γ (growth true N) w).2 ↔ IsEmpty Γ x w) ∧
          (IsEmpty Γ x (runProg Γ (growth true N) w).2 ∨ ∃ a, Holds Γ x a (runProg Γ (growth true N) w).2 ∧ D a)) ∧
        ∀ x, N ≤ x → SameState Γ x w x (runProg Γ (growth true N) w).2) ∧
    ∀ id, leaked (runProg Γ (growth true N) w).2.log id = 0 := by
  obtain ⟨sw0, hsw⟩ := id hw
  have hs : Sees Γ w ⟨sw0.vars, sw0.user, []⟩ := (hsw.rel hΓ).1.sees hΓ
  have hv : ∀ z, z < N → ∃ o, sw0.vars z = some o ∧ ∀ a, o = some a → D a := fun z hz => by
    rcases hold z hz with h | ⟨b, hb, h⟩
    · exact ⟨none, (hs.2 z).2.1.1 h, nofun⟩
    · exact ⟨some b, ((hs.2 z).2.2 b).1 hb, fun a ha => by cases ha; exact h⟩
  have hfree : ∀ z, N ≤ z → z < N + N → sw0.vars z = none := fun z hz hz' => (hs.2 z).1.1 (hnew z hz hz')
  obtain ⟨r, u, g', tr', h, ht, hr⟩ := moveBuffer_run (D := D) (ops := fun x => (Γ x).ops) (lim := exclusions Γ) hf
    hv hfree N 0 ⟨sw0.vars, sw0.user, []⟩ (by omega)
    ⟨fun _ _ _ => rfl, fun z hz => (hv z hz).imp fun _ h => h.1, fun _ _ _ => rfl, fun _ h => absurd h (by omega),
      fun z _ hz => hfree (N + z) (by omega) (by omega), fun _ _ => rfl⟩
    (fun z hz => (hv z hz).imp fun o h => ⟨h.1, by rw [h.1]; simp, h.2⟩)
  obtain ⟨h1, h2, h3⟩ := C62_program_partial hΓ hw hs (growth true N) (fillBuffer_ok hn N 0 (by omega)) h
    (by rcases hr with ⟨rfl, _⟩ | ⟨⟨e, rfl⟩, _⟩ <;> exact nofun) fun q hq => by
      rcases ht q hq with h | ⟨h, h'⟩
      · cases h
      · exact hst _ h _ h'
  have same : ∀ x y, u y = sw0.vars x → SameState Γ x w y (runProg Γ (growth true N) w).2 := fun x y e => by
    refine ⟨?_, ?_, fun a => ?_⟩
    · rw [(h2.2 y).1, (hs.2 x).1]; simp only [e]
    · rw [(h2.2 y).2.1, (hs.2 x).2.1]; simp only [e]
    · rw [(h2.2 y).2.2 a, (hs.2 x).2.2 a]; simp only [e]
  refine ⟨?_, h3⟩
  rcases hr with ⟨rfl, hu⟩ | ⟨⟨e, rfl⟩, hu, hu'⟩
  · refine .inl ⟨h1, fun x hx => ⟨same x (N + x) ?_, (h2.2 x).1.2 ?_⟩, fun x hx => same x x ?_⟩
    · simp [hu, hx]
    · simp [hu, hx]
    · simp [hu, show ¬ x < N by omega, show ¬ x < N + N by omega]
  · refine .inr ⟨⟨e, h1⟩, fun x hx => ?_, fun x hx => same x x (hu' x hx)⟩
    obtain ⟨o, ho, he, hD⟩ := hu x hx
    refine ⟨?_, ?_⟩
    · rw [(h2.2 x).2.1, (hs.2 x).2.1]
      simp only [ho, ← he, Option.some.injEq]
    · cases o with
      | none => exact .inl ((h2.2 x).2.1.2 ho)
      | some a => exact .inr ⟨a, ((h2.2 x).2.2 a).2 ho, hD a rfl⟩

/-! ### Examples -/

open Verif.Examples

private abbrev T : Env (BitVec 8) (List String) := fun _ => ⟨sentCfg false, throwingOps⟩
private abbrev L : Env (BitVec 8) (List String) := fun _ => ⟨sentCfg false, loggingOps⟩
private theorem T_wf : EnvWF T := ⟨fun _ => sentCfg_wf _, fun _ => throwingOps_lawful⟩
private theorem L_wf : EnvWF L := ⟨fun _ => sentCfg_wf _, fun _ => loggingOps_lawful⟩

private theorem T_faithful : Faithful throwingOps fun v => v ≠ 42#8 where
  copy a g b _ h := by
    simp only [throwingOps] at h
    split at h <;> cases h
    rfl
  move a g b _ h := by
    simp only [throwingOps] at h
    split at h <;> cases h
    rfl
  left a g _ := by
    simp only [throwingOps]
    split <;> simp
private theorem L_faithful : Faithful loggingOps fun v => v ≠ 42#8 where
  copy a g b _ h := by
    simp only [loggingOps] at h
    split at h <;> cases h
    rfl
  move a g b _ h := by
    simp only [loggingOps] at h
    cases h
    rfl
  left a g _ := by simp [loggingOps]

private theorem storable {v : BitVec 8} (h : v ≠ 42#8) : (sentCfg false).Storable v := by
  simpa [Config.Storable, Config.loc, sentCfg] using h

/-- A vector with 5, an empty optional, and `c`. -/
private def three (c : BitVec 8) : Verif.Prog (BitVec 8) (List String) Unit :=
  .construct 0 true (.ret (.ok 5)) fun _ => .call (.ctorDefault 1) fun _ => .construct 2 true (.ret (.ok c)) fun _ => .ret (.ok ())

private theorem three_ok (Γ : Env (BitVec 8) (List String)) (c : BitVec 8) : ProgOK Γ (three c) := by simp [three, ProgOK, OpOK]

private abbrev after (Γ : Env (BitVec 8) (List String)) (c : BitVec 8) : World (BitVec 8) (List String) := (runProg Γ (three c) (.init [])).2
private abbrev afterSpec (Γ : Env (BitVec 8) (List String)) (c : BitVec 8) : SWorld (BitVec 8) (List String) :=
  (specProg (fun x => (Γ x).ops) (exclusions Γ) [] (three c) (.init [])).2

private theorem T_reach : ReachAs T (after T 13) (afterSpec T 13) :=
  .program (three 13) (.init []) (three_ok T 13) (Prod.eta _).symm (by decide +kernel) (by
    have e : (afterSpec T 13).trace = [(0, 5#8), (2, 13#8)] := by decide +kernel
    rw [e]
    intro q hq
    simp at hq
    rcases hq with rfl | rfl <;> exact storable (by decide))
private theorem L_reach : ReachAs L (after L 13) (afterSpec L 13) :=
  .program (three 13) (.init []) (three_ok L 13) (Prod.eta _).symm (by decide +kernel) (by
    have e : (afterSpec L 13).trace = [(0, 5#8), (2, 13#8)] := by decide +kernel
    rw [e]
    intro q hq
    simp at hq
    rcases hq with rfl | rfl <;> exact storable (by decide))

private theorem T_sees : Sees T (after T 13) ⟨(afterSpec T 13).vars, (afterSpec T 13).user, []⟩ := (T_reach.rel T_wf).1.sees T_wf
private theorem L_sees : Sees L (after L 13) ⟨(afterSpec L 13).vars, (afterSpec L 13).user, []⟩ := (L_reach.rel L_wf).1.sees L_wf

private theorem old {Γ : Env (BitVec 8) (List String)} {w : World (BitVec 8) (List String)} {s : SWorld (BitVec 8) (List String)} (hs : Sees Γ w s)
    {c : BitVec 8} (hc : c ≠ 42#8) (h : s.vars 0 = some (some 5) ∧ s.vars 1 = some none ∧ s.vars 2 = some (some c)) (x : Nat) (hx : x < 3) :
    IsEmpty Γ x w ∨ ∃ a, Holds Γ x a w ∧ a ≠ 42#8 := by
  have : x = 0 ∨ x = 1 ∨ x = 2 := by omega
  rcases this with rfl | rfl | rfl
  · exact .inr ⟨5, ((hs.2 0).2.2 5).2 h.1, by decide⟩
  · exact .inl ((hs.2 1).2.1.2 h.2.1)
  · exact .inr ⟨c, ((hs.2 2).2.2 c).2 h.2.2, hc⟩

private theorem free {Γ : Env (BitVec 8) (List String)} {w : World (BitVec 8) (List String)} {s : SWorld (BitVec 8) (List String)} (hs : Sees Γ w s)
    (h : s.vars 3 = none ∧ s.vars 4 = none ∧ s.vars 5 = none) (x : Nat) (hx : 3 ≤ x) (hx' : x < 3 + 3) : Absent x w := by
  have : x = 3 ∨ x = 4 ∨ x = 5 := by omega
  rcases this with rfl | rfl | rfl
  · exact (hs.2 3).1.2 h.1
  · exact (hs.2 4).1.2 h.2.1
  · exact (hs.2 5).1.2 h.2.2

/-- The move constructor may throw: the elements are copied, the copy of 13 throws. -/
example := C92_growth T_wf ⟨_, T_reach⟩ (N := 3) (D := fun v => v ≠ 42#8) (fun _ _ _ _ => rfl) (nt := false) (fun _ _ => rfl) (fun _ _ => T_faithful)
  (fun _ _ _ h => storable h) (old T_sees (c := 13) (by decide) (by decide +kernel)) (free T_sees (by decide +kernel))
example : (runProg T (growth false 3) (after T 13)).1 = .throw (.user 13) ∧
    (runProg T (growth false 3) (after T 13)).2.user = ["copy", "copy!", "dtor"] := by decide +kernel

/-- The move constructor is `noexcept`: the elements are moved. -/
example := C92_growth L_wf ⟨_, L_reach⟩ (N := 3) (D := fun v => v ≠ 42#8) (fun _ _ _ _ => rfl) (nt := true) (fun _ _ => rfl) (fun _ _ => L_faithful)
  (fun _ _ _ h => storable h) (old L_sees (c := 13) (by decide) (by decide +kernel)) (free L_sees (by decide +kernel))
example : (runProg L (growth true 3) (after L 13)).1 = .ok () ∧
    (deref L 5 (runProg L (growth true 3) (after L 13)).2).1 = .ok 13#8 := by decide +kernel

private theorem T_reach_99 : ReachAs T (after T 99) (afterSpec T 99) :=
  .program (three 99) (.init []) (three_ok T 99) (Prod.eta _).symm (by decide +kernel) (by
    have e : (afterSpec T 99).trace = [(0, 5#8), (2, 99#8)] := by decide +kernel
    rw [e]
    intro q hq
    simp at hq
    rcases hq with rfl | rfl <;> exact storable (by decide))
private theorem T_sees_99 : Sees T (after T 99) ⟨(afterSpec T 99).vars, (afterSpec T 99).user, []⟩ := (T_reach_99.rel T_wf).1.sees T_wf

/-- The elements are moved, the move of 99 throws. -/
example := C92_basic T_wf ⟨_, T_reach_99⟩ (N := 3) (D := fun v => v ≠ 42#8) (fun _ _ _ _ => rfl) (fun _ _ => T_faithful.toMoves)
  (fun _ _ _ h => storable h) (old T_sees_99 (c := 99) (by decide) (by decide +kernel)) (free T_sees_99 (by decide +kernel))

/-- C92. The exception specification of the move constructor matters: if the library declared it `noexcept` for every payload, as the vector
then moves, an exception would leave the old elements changed. -/
theorem C92_needed : ∃ Γ : Env (BitVec 8) (List String), EnvWF Γ ∧ (∀ x, (Γ x).ops.nothrowMoveCtor = false ∧ Faithful (Γ x).ops fun v => v ≠ 42#8) ∧
    ∃ w, Reach Γ w ∧ Holds Γ 0 5 w ∧ (runProg Γ (growth true 3) w).1 = .throw (.user 99) ∧
      (deref Γ 0 (runProg Γ (growth true 3) w).2).1 = .ok 0#8 := by
  exact ⟨T, T_wf, fun _ => ⟨rfl, T_faithful⟩, _, ⟨_, T_reach_99⟩, ((T_sees_99.2 0).2.2 5).2 (by decide +kernel), by decide +kernel, by decide +kernel⟩

end Verif.Props
