import Verif.Lemmas.Rearrange
import Verif.Props.Reentrant
import Verif.Examples

/-!
# C91: in-place algorithms permute optionals
-/

namespace Verif.Props
open Verif Verif.Model Verif.Spec
variable {V G α : Type} {Γ : Env V G} {A : Nat → Prop} {D : V → Prop}

/-- Every optional of `w'` is as another one was in `w`, one to one; those outside `A` are unchanged. -/
def Rearranged (Γ : Env V G) (A : Nat → Prop) (w w' : World V G) : Prop :=
  ∃ τ : Equiv.Perm Nat, (∀ x, ¬ A x → τ x = x) ∧ ∀ x, (Absent x w' ↔ Absent (τ x) w) ∧ (IsEmpty Γ x w' ↔ IsEmpty Γ (τ x) w) ∧
    ∀ a, Holds Γ x a w' ↔ Holds Γ (τ x) a w

/-- C91. For every program that changes the optionals in `A` only by swapping them, from every reachable world: it has the result that it has with
`std::optional` (also if it throws), nothing is lost or duplicated, nothing is leaked. That no reserved value gets stored follows from the
values that are there at the beginning. -/
theorem C91_permutes (hΓ : EnvWF Γ) {w : World V G} (hw : Reach Γ w) {v : Nat → Option (Option V)} {g : G} (hs : Sees Γ w ⟨v, g, []⟩)
    (ho : ∀ x, A x → Exchanges (Γ x).ops D) (hD : ∀ x, A x → ∀ a, Holds Γ x a w → D a) (hst : ∀ x, A x → ∀ a, D a → (Γ x).cfg.Storable a)
    {p : Verif.Prog V G α} (hi : p.InPlace A) (hp : ProgOK Γ p)
    (hu : (specProg (fun x => (Γ x).ops) (exclusions Γ) [] p ⟨v, g, []⟩).1 ≠ .undef) :
    (runProg Γ p w).1 = SResToRes (specProg (fun x => (Γ x).ops) (exclusions Γ) [] p ⟨v, g, []⟩).1 ∧
      Rearranged Γ A w (runProg Γ p w).2 ∧ ∀ id, leaked (runProg Γ p w).2.log id = 0 := by
  obtain ⟨⟨τ, t1, t2⟩, ht⟩ := Arranges.prog (D := D) (ops := fun x => (Γ x).ops) (lim := exclusions Γ) ho p (B := []) hi ⟨v, g, []⟩
    (fun x hx a ha => hD x hx a (((hs.2 x).2.2 a).2 ha)) hu
  obtain ⟨h1, h2, h3⟩ := C62_program_partial hΓ hw hs p hp (Prod.eta _).symm hu fun q hq => by
    rcases ht q hq with h | ⟨h, h'⟩
    · cases h
    · exact hst _ h _ h'
  refine ⟨h1, ⟨τ, t1, fun x => ⟨?_, ?_, fun a => ?_⟩⟩, h3⟩
  · rw [(h2.2 x).1, (hs.2 (τ x)).1, t2]
  · rw [(h2.2 x).2.1, (hs.2 (τ x)).2.1, t2]
  · rw [(h2.2 x).2.2 a, (hs.2 (τ x)).2.2 a, t2]

private theorem sink_ok {n : Nat} (h : ∀ x y, x < n → y < n → Γ x = Γ y) {r : V → V → Bool} {k : Verif.Prog V G Unit} (hk : ProgOK Γ k) :
    ∀ j, j < n → ProgOK Γ (sink r j k)
  | 0, _ => hk
  | j + 1, hj => by
    refine ⟨fun _ _ => trivial, fun q => ?_⟩
    rcases q with e | (_ | _)
    · exact trivial
    · exact hk
    · refine ⟨h _ _ hj (by omega), fun q => ?_⟩
      cases q with
      | ok _ => exact sink_ok h hk j (by omega)
      | error e => exact trivial

private theorem sort_ok {n : Nat} (h : ∀ x y, x < n → y < n → Γ x = Γ y) {r : V → V → Bool} :
    ∀ m i, i + m = n → ProgOK Γ (insertionSort r m i : Verif.Prog V G Unit)
  | 0, _, _ => trivial
  | m + 1, i, hi => sink_ok h (sort_ok h m (i + 1) (by omega)) i (by omega)

/-- C91. Insertion sort with `operator<` and `swap` sorts `n` optionals: it ends normally, the optionals are rearranged, and each optional after one
with a value has a value that is not less. -/
theorem C91_sort (hΓ : EnvWF Γ) {w : World V G} (hw : Reach Γ w) {n : Nat} (hn : ∀ x y, x < n → y < n → Γ x = Γ y)
    (ho : ∀ x, x < n → Exchanges (Γ x).ops D) (hst : ∀ x, x < n → ∀ a, D a → (Γ x).cfg.Storable a)
    (hc : ∀ x, x < n → IsEmpty Γ x w ∨ ∃ a, Holds Γ x a w ∧ D a) {r : V → V → Bool} (hr : StrictWeak r) :
    (runProg Γ (insertionSort r n 0) w).1 = .ok () ∧ Rearranged Γ (· < n) w (runProg Γ (insertionSort r n 0) w).2 ∧
      (∀ i j, i < j → j < n → ∀ a, Holds Γ i a (runProg Γ (insertionSort r n 0) w).2 →
        ∃ b, Holds Γ j b (runProg Γ (insertionSort r n 0) w).2 ∧ r b a = false) ∧
      ∀ id, leaked (runProg Γ (insertionSort r n 0) w).2.log id = 0 := by
  obtain ⟨sw0, hsw⟩ := id hw
  have hs : Sees Γ w ⟨sw0.vars, sw0.user, []⟩ := (hsw.rel hΓ).1.sees hΓ
  have hD : ∀ x, x < n → ∀ a, sw0.vars x = some (some a) → D a := fun x hx a ha => by
    rcases hc x hx with h | ⟨b, hb, h⟩
    · have := (hs.2 x).2.1.1 h
      rw [show sw0.vars x = some none from this] at ha
      cases ha
    · have := ((hs.2 x).2.2 b).1 hb
      rw [show sw0.vars x = some (some b) from this] at ha
      cases ha
      exact h
  have hl : Laid n sw0.vars fun x => (sw0.vars x).join := fun x hx => by
    rcases hc x hx with h | ⟨b, hb, _⟩
    · have : sw0.vars x = some none := (hs.2 x).2.1.1 h
      simp [this]
    · have : sw0.vars x = some (some b) := ((hs.2 x).2.2 b).1 hb
      simp [this]
  obtain ⟨v', l', e'⟩ := ends_sort (lim := exclusions Γ) (ops := fun x => (Γ x).ops) ho r n 0 (by omega) sw0.vars _ hl hD
  obtain ⟨g', tr', h⟩ := e' sw0.user []
  have hi := sort_inPlace (G := G) (r := r) (n := n) n 0 (by omega)
  have hp := sort_ok (r := r) hn n 0 (by omega)
  obtain ⟨k1, k2, k3⟩ := C91_permutes hΓ hw hs ho (fun x hx a ha => hD x hx a (((hs.2 x).2.2 a).1 ha)) hst hi hp (by rw [h]; exact nofun)
  rw [h] at k1
  have ht : NoReserved Γ tr' := fun q hq => by
    have := (Arranges.prog (D := D) (ops := fun x => (Γ x).ops) (lim := exclusions Γ) ho _ (B := []) hi ⟨sw0.vars, sw0.user, []⟩ hD
      (by rw [h]; exact nofun)).2
    rw [h] at this
    rcases this q hq with h0 | ⟨h1, h2⟩
    · cases h0
    · exact hst _ h1 _ h2
  obtain ⟨-, hs', -⟩ := C62_program_partial hΓ hw hs _ hp h nofun ht
  refine ⟨k1, k2, fun i j hij hj a ha => ?_, k3⟩
  have so := sorted_sorted (hr.opt) n 0 (fun x => (sw0.vars x).join) (fun _ _ _ h => by omega) i j hij (by omega)
  have hia : v' i = some (some a) := ((hs'.2 i).2.2 a).1 ha
  rw [l' i (by omega)] at hia
  have hja := l' j hj
  rw [Option.some.inj hia] at so
  rcases hb : sorted (optLt r) n 0 (fun x => (sw0.vars x).join) j with _ | b
  · rw [hb] at so; cases so
  · rw [hb] at so hja
    exact ⟨b, ((hs'.2 j).2.2 b).2 hja, so⟩

/-! ### Examples -/

open Verif.Examples

/-- A payload that is 0 after it has been moved from; swaps are counted. -/
private def movingOps : Ops (BitVec 8) Nat :=
  { (scalarOps : Ops (BitVec 8) Nat) with moveCtor := fun v g => (.ok v, 0, g + 1), swap := fun a b g => (none, b, a, g + 1) }
private theorem movingOps_lawful : movingOps.Lawful := by
  constructor <;> intro h <;> simp [movingOps, scalarOps]

private abbrev W : Env (BitVec 8) Nat := fun _ => ⟨sentCfg false, movingOps⟩
private theorem W_wf : EnvWF W := ⟨fun _ => sentCfg_wf _, fun _ => movingOps_lawful⟩

private theorem W_exchanges : Exchanges movingOps fun v => v ≠ 42#8 :=
  ⟨fun _ _ g _ _ => ⟨g + 1, rfl⟩, fun _ g _ => ⟨g, rfl⟩, fun _ g _ => ⟨0, g + 1, rfl, by decide⟩⟩

private theorem W_storable {v : BitVec 8} (h : v ≠ 42#8) : (sentCfg false).Storable v := by
  simpa [Config.Storable, Config.loc, sentCfg] using h

/-- Five optionals, two of which are empty. -/
private def five : Verif.Prog (BitVec 8) Nat Unit :=
  .construct 0 true (.ret (.ok 7)) fun _ => .call (.ctorDefault 1) fun _ => .construct 2 true (.ret (.ok 3)) fun _ =>
  .call (.ctorDefault 3) fun _ => .construct 4 true (.ret (.ok 5)) fun _ => .ret (.ok ())

private abbrev start : World (BitVec 8) Nat := (runProg W five (.init 0)).2
private abbrev startSpec : SWorld (BitVec 8) Nat := (specProg (fun x => (W x).ops) (exclusions W) [] five (.init 0)).2

private theorem start_reach : ReachAs W start startSpec :=
  .program five (.init 0) (by simp [five, ProgOK, OpOK]) (Prod.eta _).symm (by decide +kernel) (by
    have e : startSpec.trace = [(0, 7#8), (2, 3#8), (4, 5#8)] := by decide +kernel
    rw [e]
    intro q hq
    simp at hq
    rcases hq with rfl | rfl | rfl <;> exact W_storable (by decide))

private theorem start_sees : Sees W start ⟨startSpec.vars, startSpec.user, []⟩ := (start_reach.rel W_wf).1.sees W_wf

private theorem start_values (x : Nat) (hx : x < 5) : IsEmpty W x start ∨ ∃ a, Holds W x a start ∧ a ≠ 42#8 := by
  have h := start_sees.2 x
  have : x = 0 ∨ x = 1 ∨ x = 2 ∨ x = 3 ∨ x = 4 := by omega
  rcases this with rfl | rfl | rfl | rfl | rfl
  · exact .inr ⟨7, (h.2.2 7).2 (by decide +kernel), by decide⟩
  · exact .inl (h.2.1.2 (by decide +kernel))
  · exact .inr ⟨3, (h.2.2 3).2 (by decide +kernel), by decide⟩
  · exact .inl (h.2.1.2 (by decide +kernel))
  · exact .inr ⟨5, (h.2.2 5).2 (by decide +kernel), by decide⟩

private theorem ult_weak : StrictWeak (BitVec.ult : BitVec 8 → BitVec 8 → Bool) where
  asymm a b := by simp [BitVec.ult]; omega
  negTrans a b c := by simp [BitVec.ult]; omega

example := C91_sort W_wf ⟨_, start_reach⟩ (n := 5) (fun _ _ _ _ => rfl) (fun _ _ => W_exchanges) (fun _ _ _ h => W_storable h) start_values ult_weak

/-- The result: two empty optionals, 3, 5, 7. -/
example : [0, 1, 2, 3, 4].map (fun x => (hasValue W x (runProg W (insertionSort BitVec.ult 5 0) start).2).1) =
      [.ok false, .ok false, .ok true, .ok true, .ok true] ∧
    [2, 3, 4].map (fun x => (deref W x (runProg W (insertionSort BitVec.ult 5 0) start).2).1) = [.ok 3#8, .ok 5#8, .ok 7#8] := by decide +kernel

/-- A program that throws between two swaps: rotate, and compare with an operator that throws. -/
private def rotate : Verif.Prog (BitVec 8) Nat Unit :=
  .call (.swap 0 1) fun _ => .call (.swap 1 2) fun _ => .compare (.rel .lt) 2 4 (fun _ _ => .ret (.error (.user 9))) fun
    | .ok _ => .call (.swap 2 3) fun _ => .ret (.ok ())
    | .error e => .ret (.error e)

private theorem rotate_throws : (specProg (fun x => (W x).ops) (exclusions W) [] rotate ⟨startSpec.vars, startSpec.user, []⟩).1 = .throw (.user 9) := by
  decide +kernel

example := C91_permutes W_wf ⟨_, start_reach⟩ start_sees (A := (· < 5)) (D := fun v => v ≠ 42#8) (fun _ _ => W_exchanges)
  (fun x hx a ha => by
    rcases start_values x hx with h | ⟨b, hb, h⟩
    · exact absurd (((start_sees.2 x).2.1.1 h).symm.trans (((start_sees.2 x).2.2 a).1 ha)) nofun
    · have := (((start_sees.2 x).2.2 b).1 hb).symm.trans (((start_sees.2 x).2.2 a).1 ha)
      cases this
      exact h)
  (fun _ _ _ h => W_storable h) (p := rotate)
  ⟨by decide, by decide, fun _ => ⟨by decide, by decide, fun _ => ⟨fun _ _ => trivial, fun r => by
    cases r with
    | ok _ => exact ⟨by decide, by decide, fun _ => trivial⟩
    | error e => exact trivial⟩⟩⟩
  ⟨rfl, fun _ => ⟨rfl, fun _ => ⟨fun _ _ => trivial, fun r => by
    cases r with
    | ok _ => exact ⟨rfl, fun _ => trivial⟩
    | error e => exact trivial⟩⟩⟩
  (by rw [rotate_throws]; exact nofun)

/-- A payload that has the reserved value 42 after it has been moved from. -/
private def badOps : Ops (BitVec 8) Nat := { movingOps with moveCtor := fun v g => (.ok v, 42, g) }

/-- 7 and an empty optional are sorted, then destroyed. -/
private def sortTwo : Verif.Prog (BitVec 8) Nat Unit :=
  .construct 0 true (.ret (.ok 7)) fun _ => .call (.ctorDefault 1) fun _ => sink BitVec.ult 1 <|
  .call (.dtor 1) fun _ => .call (.dtor 0) fun _ => .ret (.ok ())

/-- C91. The condition on moved-from values is needed: otherwise the sort seems to succeed, no assertion fails even in builds with asserts, but a
payload is never destroyed. With `movingOps` nothing is leaked. -/
theorem C91_needed : ∃ o : Ops (BitVec 8) Nat, o.Lawful ∧ (runProg (fun _ => ⟨sentCfg false, o⟩) sortTwo (.init 0)).1 = .ok () ∧
    ∃ id, leaked (runProg (fun _ => ⟨sentCfg false, o⟩) sortTwo (.init 0)).2.log id = 1 :=
  ⟨badOps, by constructor <;> intro h <;> simp [badOps, movingOps, scalarOps], by decide +kernel, 1, by decide +kernel⟩

example : (runProg W sortTwo (.init 0)).1 = .ok () ∧ (List.range 9).all (fun id => leaked (runProg W sortTwo (.init 0)).2.log id = 0) := by
  decide +kernel

end Verif.Props
