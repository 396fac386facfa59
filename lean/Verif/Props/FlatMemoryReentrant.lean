import Verif.Lemmas.FlatMemoryReentrant
import Verif.Spec.RelocationReentrant
import Verif.Props.FlatMemory
import Verif.Props.Relocation
import Verif.Props.Reentrant

/-! # C82, C83: one memory, and relocation, with user code that calls the library -/

namespace Verif.Props
open Verif Verif.Model Verif.Spec

section
variable {V G α : Type} {Γ : Env V G} {pos : Placement} {R W : Nat → Prop}

/-- The program in one memory. Optionals that have a byte in common must not exist at the same time. -/
abbrev progInFlat (Γ : Env V G) (pos : Placement) (p : Prog V G α) (f : FlatWorld V G) : Res α × FlatWorld V G :=
  (Steps.runProg Γ p).flat Γ pos (ShareByte Γ pos) f

/-- C82. In one memory every program, with the user code in it that calls the library at any time and to any depth, has the results that it
has with separate memories, unless at some time two optionals exist that have a byte in common. -/
theorem C82_same_reentrant (hΓ : ∀ x, (Γ x).cfg.WF) (p : Prog V G α) {f : FlatWorld V G} {w : World V G} (h : Agrees Γ pos f w)
    (hc : ¬ (progInFlat Γ pos p f).2.clash) :
    (progInFlat Γ pos p f).1 = (runProg Γ p w).1 ∧ Agrees Γ pos (progInFlat Γ pos p f).2 (runProg Γ p w).2 := by
  rcases (Flatly.traverseRe (W := fun _ => True) hΓ fun _ => True).runProg p p.within_all f w h with h' | ⟨h1, h2, _⟩
  · exact absurd h' hc
  · rw [← toM_runProg]
    exact ⟨h1, h2⟩

/-- C82. No byte is changed except those of the optionals that the program or its user code may modify. -/
theorem C82_foreign_reentrant (hΓ : ∀ x, (Γ x).cfg.WF) (p : Prog V G α) (hp : p.Within R W) {f : FlatWorld V G} {w : World V G}
    (h : Agrees Γ pos f w) (hc : ¬ (progInFlat Γ pos p f).2.clash) (a : Nat) (ha : ∀ x, W x → ¬ OwnByte Γ pos x a) :
    (progInFlat Γ pos p f).2.bytes a = f.bytes a := by
  rcases (Flatly.traverseRe (pos := pos) hΓ R).runProg p hp f w h with h' | ⟨_, _, h3⟩
  · exact absurd h' hc
  · exact h3 a ha

/-- C82. No conflict arises if the optionals that the program or its user code may modify have no byte in common with each other or with
those that exist at the start. -/
theorem C82_apart_reentrant (p : Prog V G α) (hp : p.Within R W) {f : FlatWorld V G} (hc : ¬ f.clash)
    (hd : ∀ x y, W x → (W y ∨ (f.objs y).isSome) → x ≠ y → ¬ ShareByte Γ pos x y) : ¬ (progInFlat Γ pos p f).2.clash :=
  flat_no_clash (R := R) (W := W) (E := fun x => W x ∨ (f.objs x).isSome) (fun _ => .inl) (fun x y hx hy hne => hd x y hx hy (Ne.symm hne))
    (Fits.runProg Γ p hp) (fun _ => .inr) hc

/-- C82 and C62. Anywhere in one memory with arbitrary contents, a program that has a meaning for `std::optional` (with the exceptions of C62)
has the outcome that `std::optional` prescribes, all optionals are in the prescribed state, and no byte is changed that does not belong to
an optional that the program or its user code modifies. -/
theorem C82_drop_in_reentrant (hΓ : EnvWF Γ) (p : Prog V G α) (hp : ProgOK Γ p) (g : G) {r : SRes α} {sw : SWorld V G}
    (hs : specProg (fun x => (Γ x).ops) (exclusions Γ) [] p (.init g) = (r, sw)) (hu : r ≠ .undef) (ht : NoReserved Γ sw.trace)
    (hw : p.Within R W) (bytes : Nat → Option Byte) (hd : ∀ x y, W x → W y → x ≠ y → ¬ ShareByte Γ pos x y) :
    (progInFlat Γ pos p (.init bytes g)).1 = SResToRes r ∧
    (∃ w, Sees Γ w sw ∧ Agrees Γ pos (progInFlat Γ pos p (.init bytes g)).2 w) ∧
    ∀ a, (∀ x, W x → ¬ OwnByte Γ pos x a) → (progInFlat Γ pos p (.init bytes g)).2.bytes a = bytes a := by
  have h0 : Agrees Γ pos (.init bytes g) (.init g : World V G) := ⟨fun _ => rfl, nofun, nofun, rfl, rfl, rfl⟩
  have hc : ¬ (progInFlat Γ pos p (.init bytes g)).2.clash :=
    C82_apart_reentrant p hw id fun x y hx hy hne => hd x y hx (hy.resolve_right nofun) hne
  obtain ⟨h1, h2⟩ := C82_same_reentrant hΓ.cfg p h0 hc
  obtain ⟨d1, d2, _⟩ := C62_reentrant_partial hΓ p hp g hs hu ht
  exact ⟨h1.trans d1, ⟨_, d2, h2⟩, fun a ha => C82_foreign_reentrant hΓ.cfg p hw h0 hc a ha⟩

/-- C83. Relocations between programs change no outcome of them, whatever user code in them does, and the optionals are the same at the
end. -/
theorem C83_same_reentrant (hΓ : ∀ x, (Γ x).cfg.WF) (l : List (Ride V G)) (pos : Placement) {f : FlatWorld V G} {w : World V G}
    (h : Agrees Γ pos f w) (hc : ¬ f.clash) (hr : RideRoom Γ l pos w) :
    (ride Γ l pos f).1 = (ridePrograms Γ l w).1 ∧
    Agrees Γ (ride Γ l pos f).2.1 (ride Γ l pos f).2.2 (ridePrograms Γ l w).2 := by
  induction l generalizing pos f w with
  | nil => exact ⟨rfl, h⟩
  | cons act rest ih =>
    cases act with
    | relocate x a n => exact ih (moved pos x a) (C83_move h hr.1 hr.2.1) hc hr.2.2
    | program p =>
      obtain ⟨⟨R, W, hp, hd⟩, hr'⟩ := hr
      have hno : ¬ (progInFlat Γ pos p f).2.clash :=
        C82_apart_reentrant p hp hc fun x y hx hy hne => hd x y hx (hy.imp id fun e => by rw [h.objs y] at e; simpa using e) hne
      obtain ⟨h1, h2⟩ := C82_same_reentrant hΓ p h hno
      simp only [ride, ridePrograms]
      rcases hq : (Steps.runProg Γ p).flat Γ pos (ShareByte Γ pos) f with ⟨r, f'⟩
      rcases hq' : runProg Γ p w with ⟨r', w'⟩
      simp only [progInFlat] at h1 h2 hno
      rw [hq, hq'] at h1 h2
      rw [hq] at hno
      rw [hq'] at hr'
      dsimp only at h1 h2 hno hr'
      subst h1
      obtain ⟨i1, i2⟩ := ih pos h2 hno hr'
      cases r with
      | ok u => exact ⟨congrArg _ i1, i2⟩
      | throw e => exact ⟨congrArg _ i1, i2⟩
      | abort k => exact ⟨rfl, h2⟩

end

/-! ### Concrete cases -/

section
open Verif.Examples

private abbrev P (α : Type) := Prog (BitVec 8) (List String) α

/-- Every optional has two bytes. -/
private def array : Placement := fun x => 1000 + 2 * x

private theorem ext_two (x : Nat) (h : x < 40) : extent (exEnv x).cfg ≤ 2 := by
  simp only [env]
  split
  · decide
  split
  · decide
  split <;> decide

/-- The constructor of the payload of 20 makes another optional at 0, whose payload's constructor throws; it catches the exception, makes 21
and returns 5. Then 20 is emptied; the destructor of its payload reads 21 and empties it. -/
private def nest : P Unit :=
  .construct 20 false (.construct 0 false (.ret (.error (.user 3))) fun _ => .construct 21 true (.ret (.ok 7#8)) fun _ => .ret (.ok 5#8)) fun _ =>
    .reset 20 (fun _ => .call (.deref 21) fun _ => .reset 21 (fun _ => .user (· ++ ["inner"]) fun _ => .ret (.ok ())) fun r => .ret r) fun r => .ret r

private def uses (x : Nat) : Prop := x = 0 ∨ x = 20 ∨ x = 21

private theorem nest_within : nest.Within (fun _ => False) uses := by
  simp [nest, Prog.Within, uses, Op.reads, Op.writes]

private theorem array_apart (x y : Nat) (hx : uses x) (hy : uses y) (h : x ≠ y) : ¬ ShareByte exEnv array x y := by
  rintro ⟨a, ⟨h1, h2⟩, ⟨h3, h4⟩⟩
  have ex := ext_two x (by rcases hx with rfl | rfl | rfl <;> decide)
  have ey := ext_two y (by rcases hy with rfl | rfl | rfl <;> decide)
  unfold array at h1 h2 h3 h4
  omega

private def full : Nat → Option Byte := fun a => some (BitVec.ofNat 8 a)

private theorem start_agrees : Agrees exEnv array (.init full []) (.init [] : World (BitVec 8) (List String)) :=
  ⟨fun _ => rfl, nofun, nofun, rfl, rfl, rfl⟩

private theorem nest_ok : ¬ (progInFlat exEnv array nest (.init full [])).2.clash :=
  C82_apart_reentrant nest nest_within id fun x y hx hy h => array_apart x y hx (hy.resolve_right nofun) h

example := C82_same_reentrant exEnv_wf.cfg nest start_agrees nest_ok

/-- The byte behind 20. -/
example : (progInFlat exEnv array nest (.init full [])).2.bytes 1041 = some 17#8 :=
  C82_foreign_reentrant exEnv_wf.cfg nest nest_within start_agrees nest_ok 1041 fun x hx h => by
    have h1 : 1000 + 2 * x ≤ 1041 ∧ 1041 < 1000 + 2 * x + extent (exEnv x).cfg := h
    have h2 : extent (exEnv 20).cfg = 1 := rfl
    have h3 := ext_two x (by rcases hx with rfl | rfl | rfl <;> decide)
    rcases hx with rfl | rfl | rfl <;> omega

private def nestSpec := specProg (fun x => (exEnv x).ops) (exclusions exEnv) [] nest (.init [])

private theorem nestSpec_trace : nestSpec.2.trace = [(21, 7#8), (20, 5#8)] := by decide +kernel

/-- The hypotheses of `C82_drop_in_reentrant` can be met. -/
example := C82_drop_in_reentrant (pos := array) exEnv_wf nest (by simp [nest, ProgOK, OpOK]) [] (r := nestSpec.1) (sw := nestSpec.2)
  (Prod.eta nestSpec).symm (by decide +kernel)
  (by rw [nestSpec_trace]; simp [NoReserved, Config.Storable, Config.loc, env, sentCfg])
  nest_within full array_apart

/-- 20 is made, and 21 while the payload of 20 is constructed. 20 is copied to address 500. Then both are compared, by an operator that looks at
20 meanwhile. -/
private def trip : List (Ride (BitVec 8) (List String)) :=
  [.program (.construct 20 false (.construct 21 true (.ret (.ok 7#8)) fun _ => .ret (.ok 5#8)) fun _ => .ret (.ok .unit)),
   .relocate 20 500 1,
   .program (.compare (.rel .lt) 20 21 (fun a b => .call (.hasValue 20) fun _ => .ret (.ok (a.ult b))) fun r => .ret (r.map .bool))]

private theorem trip_room : RideRoom exEnv trip array (.init []) := by
  refine ⟨⟨fun _ => False, uses, by simp [Prog.Within, uses], fun x y hx hy h => array_apart x y hx (hy.resolve_right nofun) h⟩, by decide, ?_,
    ⟨(· ≠ 22), fun _ => False, by simp [Prog.Within, Op.reads, Op.writes], fun _ _ h => h.elim⟩, trivial⟩
  rintro y - - b ⟨h1, h2⟩ ⟨h3, h4⟩
  unfold array at h3
  omega

example := C83_same_reentrant exEnv_wf.cfg trip array start_agrees id trip_room

example : (ride exEnv trip array (.init full [])).1 = [.ok .unit, .ok (.bool true)] := by decide +kernel

end
end Verif.Props
