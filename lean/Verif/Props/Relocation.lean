import Verif.Spec.Relocation
import Verif.Props.FlatMemory

/-! # C83: relocation -/

namespace Verif.Props
open Verif Verif.Model
open Verif.Spec (OwnByte ShareByte Agrees Act calls perform Room moved memmove)

section
variable {V G : Type} {Γ : Env V G} {pos : Placement}

/-- C83. Copying the bytes of an optional to a free place, and using it there: it is the same optional. -/
theorem C83_move {f : FlatWorld V G} {w : World V G} (h : Agrees Γ pos f w) {x a n : Nat} (hn : extent (Γ x).cfg ≤ n)
    (hfree : ∀ y, y ≠ x → (w.mem y).isSome → ∀ b, a ≤ b ∧ b < a + n → ¬ OwnByte Γ pos y b) :
    Agrees Γ (moved pos x a) (memmove f a (pos x) n) w := by
  have hpx : moved pos x a x = a := if_pos rfl
  have hpy : ∀ {y}, y ≠ x → moved pos x a y = pos y := fun hy => if_neg hy
  have hsep : ∀ y, y ≠ x → (w.mem y).isSome → ¬ ShareByte Γ (moved pos x a) x y := by
    rintro y hy he ⟨b, ⟨h1, h2⟩, h3⟩
    rw [hpx] at h1 h2
    refine hfree y hy he b ⟨h1, by omega⟩ ?_
    unfold OwnByte at h3 ⊢
    rw [hpy hy] at h3
    exact h3
  refine ⟨h.objs, ?_, ?_, h.nextObj, h.log, h.user⟩
  · intro y s hs j hj
    by_cases hy : y = x
    · subst hy
      rw [hpx]
      show (if a ≤ a + j ∧ a + j < a + n then f.bytes (pos y + (a + j - a)) else _) = _
      rw [if_pos ⟨Nat.le_add_right _ _, by omega⟩, Nat.add_sub_cancel_left]
      exact h.bytes y s hs j hj
    · rw [hpy hy]
      show (if a ≤ pos y + j ∧ pos y + j < a + n then _ else f.bytes (pos y + j)) = _
      rw [if_neg fun hb => hfree y hy (by rw [hs]; rfl) _ hb ⟨Nat.le_add_right _ _, by omega⟩]
      exact h.bytes y s hs j hj
  · intro y z hyz hy hz
    by_cases ey : y = x
    · rw [ey]
      exact hsep z (fun e => hyz (ey.trans e.symm)) hz
    · by_cases ez : z = x
      · rw [ez]
        rintro ⟨b, h1, h2⟩
        exact hsep y ey hy ⟨b, h2, h1⟩
      · rintro ⟨b, h1, h2⟩
        unfold OwnByte at h1 h2
        rw [hpy ey] at h1
        rw [hpy ez] at h2
        exact h.apart y z hyz hy hz ⟨b, h1, h2⟩

/-- C83. Relocations at any time change no outcome of any call, and the optionals are the same at the end. -/
theorem C83_same (hΓ : ∀ x, (Γ x).cfg.WF) (l : List (Act V G)) (pos : Placement) {f : FlatWorld V G} {w : World V G} (h : Agrees Γ pos f w)
    (hc : ¬ f.clash) (hr : Room Γ l pos w) :
    (perform Γ l pos f).1 = (run Γ (calls l) w).1 ∧
    Agrees Γ (perform Γ l pos f).2.1 (perform Γ l pos f).2.2 (run Γ (calls l) w).2 := by
  induction l generalizing pos f w with
  | nil => exact ⟨rfl, h⟩
  | cons act rest ih =>
    cases act with
    | relocate x a n => exact ih (moved pos x a) (C83_move h hr.1 hr.2.1) hc hr.2.2
    | call op =>
      have hno : ¬ ((Steps.execCall Γ (.op op)).flat Γ pos (ShareByte Γ pos) f).2.clash :=
        flat_no_clash (R := (· ∈ op.reads)) (W := (· ∈ op.writes)) (E := fun x => x ∈ op.writes ∨ (f.objs x).isSome) (fun _ => .inl)
          (fun x y hx hy hne => hr.1 x y hx (hy.imp id fun e => by rw [h.objs y] at e; simpa using e) (Ne.symm hne))
          (Fits.execCall Γ (.op op) (fun _ => .inl) fun _ => id) (fun _ => .inr) hc
      have L := Flatly.traverse (Γ := Γ) (pos := pos) (W := (· ∈ op.writes)) hΓ (· ∈ op.reads)
      rcases L.execCall (.op op) (fun _ => .inl) (fun _ => id) f w h with h' | ⟨h1, h2, _⟩
      · exact absurd h' hno
      rw [show (Steps.execCall Γ (.op op)).exec w = execOp Γ op w from congrFun (toM_execCall Γ (.op op)) w] at h1 h2
      have h3 := hr.2
      unfold perform calls run
      revert h1 h2 hno
      rcases (Steps.execCall Γ (.op op)).flat Γ pos (ShareByte Γ pos) f with ⟨r, f'⟩
      revert h3
      rcases execOp Γ op w with ⟨r', w'⟩
      intro h3 hno h1 h2
      dsimp only at h1 h2 h3 hno
      subst h1
      cases r with
      | ok v =>
        obtain ⟨i1, i2⟩ := ih pos h2 hno h3
        exact ⟨congrArg _ i1, i2⟩
      | throw e =>
        obtain ⟨i1, i2⟩ := ih pos h2 hno h3
        exact ⟨congrArg _ i1, i2⟩
      | abort k => exact ⟨rfl, h2⟩

/-- C83. With relocations at any time, legal calls have the results that they have with `std::optional` without relocations, and the
optionals are in the same states at the end. -/
theorem C83_drop_in (hΓ : EnvWF Γ) {l : List (Act V G)} {g : G} {rs : List (Spec.SRes (Obs V))} {sw : Spec.SWorld V G}
    (hL : Legal Γ g (calls l) rs sw) (bytes : Nat → Option Byte) (hr : Room Γ l pos (.init g)) :
    (perform Γ l pos (.init bytes g)).1 = rs.map SResToRes ∧
    ∃ w, Sees Γ w sw ∧ Agrees Γ (perform Γ l pos (.init bytes g)).2.1 (perform Γ l pos (.init bytes g)).2.2 w := by
  have h0 : Agrees Γ pos (.init bytes g) (.init g : World V G) := ⟨fun _ => rfl, nofun, nofun, rfl, rfl, rfl⟩
  obtain ⟨h1, h2⟩ := C83_same hΓ.cfg l pos h0 id hr
  obtain ⟨d1, d2⟩ := C01_drop_in hΓ hL
  exact ⟨h1.trans d1, _, d2, h2⟩

end

/-! ### Concrete cases -/

section
open Verif.Examples

private abbrev G := List String

/-- Optional 0 gets the value 5 at address 100, is copied to 101 (one byte further, overlapping its old place) and read there; then it is made
empty, copied to 300, and asked. -/
private def ride : List (Act (BitVec 8) G) :=
  [.call (.ctorInPlace 0 (lit 5#8)), .relocate 0 101 2, .call (.deref 0), .call (.reset 0), .relocate 0 300 2, .call (.hasValue 0)]

/-- If only optional `x` is used, there is always room. -/
theorem room_alone {V G : Type} (Γ : Env V G) (x : Nat) (l : List (Act V G)) (pos : Placement) (w : World V G)
    (hw : ∀ y, y ≠ x → w.mem y = none) (hl : ∀ op, .call op ∈ l → ∀ z ∈ op.writes, z = x)
    (hm : ∀ z a n, .relocate z a n ∈ l → z = x ∧ extent (Γ x).cfg ≤ n) : Room Γ l pos w := by
  induction l generalizing pos w with
  | nil => trivial
  | cons act rest ih =>
    have hl' : ∀ op, .call op ∈ rest → ∀ z ∈ op.writes, z = x := fun op ho => hl op (List.mem_cons_of_mem _ ho)
    have hm' : ∀ z a n, .relocate z a n ∈ rest → z = x ∧ extent (Γ x).cfg ≤ n := fun z a n ho => hm z a n (List.mem_cons_of_mem _ ho)
    cases act with
    | relocate z a n =>
      obtain ⟨rfl, hn⟩ := hm z a n (List.mem_cons_self ..)
      exact ⟨hn, fun y hy he => (by rw [hw y hy] at he; cases he), ih _ _ hw hl' hm'⟩
    | call op =>
      have ho := hl op (List.mem_cons_self ..)
      refine ⟨fun u v hu hv hne => ?_, ih _ _ (fun y hy => ?_) hl' hm'⟩
      · have hvx : v ≠ x := fun e => hne ((ho u hu).trans e.symm)
        rcases hv with hv | hv
        · exact absurd (ho v hv) hvx
        · rw [hw v hvx] at hv; cases hv
      · rw [← hw y hy]
        exact C36_frame Γ op w y fun hz => hy (ho y hz)

private theorem ride_room : Room exEnv ride (fun _ => 100) (.init []) := by
  refine room_alone exEnv 0 _ _ _ (fun _ _ => rfl) ?_ ?_
  · intro op ho
    simp [ride] at ho
    rcases ho with rfl | rfl | rfl | rfl <;> simp [Op.writes, lit, Arg.writes]
  · intro z a n ho
    simp [ride] at ho
    rcases ho with ⟨rfl, _, rfl⟩ | ⟨rfl, _, rfl⟩ <;> exact ⟨rfl, by decide⟩

example : (perform exEnv ride (fun _ => 100) (.init (fun _ => some 7#8) [])).1 = [.ok .unit, .ok (.val 5#8), .ok .unit, .ok (.bool false)] := rfl

private theorem ride_legal : ∃ rs sw, Legal exEnv [] (calls ride) rs sw := by
  refine ⟨_, _, ?_, rfl, ?_, ?_⟩ <;> intro p hp <;> simp [Spec.SWorld.init, ride, calls] at hp
  · rcases hp with rfl | rfl | rfl | rfl <;> first | exact trivial | exact lit_lawful _
  · subst hp
    simp [Config.Storable, env, sepCfg]
  · rcases hp with rfl | rfl | rfl | rfl <;> trivial

/-- The hypotheses of `C83_drop_in` can be met. -/
example : ∃ rs : List (Spec.SRes (Obs (BitVec 8))), (perform exEnv ride (fun _ => 100) (.init (fun _ => some 7#8) [])).1 = rs.map SResToRes :=
  let ⟨_, _, hL⟩ := ride_legal
  ⟨_, (C83_drop_in exEnv_wf hL (fun _ => some 7#8) ride_room).1⟩

example := C83_same exEnv_wf.cfg ride (fun _ => 100) (f := .init (fun _ => some 7#8) []) (w := .init [])
  ⟨fun _ => rfl, nofun, nofun, rfl, rfl, rfl⟩ id ride_room

/-- It is necessary that all bytes are copied: without the flag, it is unknown whether there is a value. -/
example : (perform exEnv [.call (.ctorInPlace 0 (lit 5#8)), .relocate 0 101 1, .call (.hasValue 0)] (fun _ => 100)
    (.init (fun _ => none) [])).1 = [.ok .unit, .abort (.ub .indeterminate)] := rfl

/-- And that the place is free: otherwise the optional that was there is no longer what it was, namely empty. -/
example : (perform exEnv [.call (.ctorInPlace 0 (lit 5#8)), .call (.ctorDefault 1), .relocate 0 102 2, .call (.hasValue 1)]
    (fun x => 100 + 2 * x) (.init (fun _ => some 7#8) [])).1 = [.ok .unit, .ok .unit, .ok (.bool true)] := rfl

end
end Verif.Props
