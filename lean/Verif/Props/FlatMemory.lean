import Verif.Lemmas.FlatMemory
import Verif.Props.Lifetime
import Verif.Props.Threads

/-! # C82: optionals in one memory -/

namespace Verif.Props
open Verif Verif.Model
open Verif.Spec (OwnByte ShareByte Agrees)

section
variable {V G α : Type} {Γ : Env V G} {pos : Placement} {R W : Nat → Prop}

/-- Program `P` in the memory `f`, in which two optionals must not exist at the same time if they have a byte in common. -/
def inFlat (Γ : Env V G) (pos : Placement) (P : TProg V G α) (f : FlatWorld V G) : Res α × FlatWorld V G :=
  (Steps.execProg Γ P).flat Γ pos (ShareByte Γ pos) f

/-- C82. In one memory every program has the results that it has with separate memories, unless at some time two optionals exist that
have a byte in common: for all programs, all placements, all starting states. -/
theorem C82_same (hΓ : ∀ x, (Γ x).cfg.WF) (P : TProg V G α) {f : FlatWorld V G} {w : World V G} (h : Agrees Γ pos f w)
    (hc : ¬ (inFlat Γ pos P f).2.clash) :
    (inFlat Γ pos P f).1 = (execProg Γ P w).1 ∧ Agrees Γ pos (inFlat Γ pos P f).2 (execProg Γ P w).2 := by
  have hw : P.Within (fun _ => True) (fun _ => True) := by
    clear hc
    induction P with
    | ret a => trivial
    | call c k ih => exact ⟨fun _ _ => .inl trivial, fun _ _ => trivial, fun r => ih r⟩
    | own g k ih => exact fun r => ih r
  rcases (Flatly.traverse (W := fun _ => True) hΓ (fun _ => True)).execProg P hw f w h with h' | ⟨h1, h2, _⟩
  · exact absurd h' hc
  · rw [← toM_execProg]
    exact ⟨h1, h2⟩

/-- C82. A program changes no byte except those of the optionals that it may modify (`W`). Bytes between optionals, in the padding behind
a separate flag, and of optionals that are only read keep their values. -/
theorem C82_foreign (hΓ : ∀ x, (Γ x).cfg.WF) (P : TProg V G α) (hP : P.Within R W) {f : FlatWorld V G} {w : World V G}
    (h : Agrees Γ pos f w) (hc : ¬ (inFlat Γ pos P f).2.clash) (a : Nat) (ha : ∀ x, W x → ¬ OwnByte Γ pos x a) :
    (inFlat Γ pos P f).2.bytes a = f.bytes a := by
  rcases (Flatly.traverse (pos := pos) hΓ R).execProg P hP f w h with h' | ⟨_, _, h3⟩
  · exact absurd h' hc
  · exact h3 a ha

/-- C82. Programs whose optionals have no byte in common never bring two of them into conflict (whether or not they ever exist at the same
time, whatever the calls do). -/
theorem C82_apart (P : TProg V G α) (hP : P.Within R W) {f : FlatWorld V G} (hc : ¬ f.clash)
    (hd : ∀ x y, W x → (W y ∨ (f.objs y).isSome) → x ≠ y → ¬ ShareByte Γ pos x y) :
    ¬ (inFlat Γ pos P f).2.clash :=
  flat_no_clash (R := R) (W := W) (E := fun x => W x ∨ (f.objs x).isSome) (fun _ => .inl) (fun x y hx hy hne => hd x y hx hy (Ne.symm hne))
    (Fits.execProg Γ P hP) (fun _ => .inr) hc

/-- C82. The elements of an array, and objects in it at the same place of each element, have no byte in common. -/
theorem C82_array {base stride : Nat} (hs : ∀ x, extent (Γ x).cfg ≤ stride) (hpos : ∀ x, pos x = base + stride * x) (x y : Nat) (h : x ≠ y) :
    ¬ ShareByte Γ pos x y := by
  rintro ⟨a, ⟨h1, h2⟩, ⟨h3, h4⟩⟩
  rw [hpos] at h1 h2 h3 h4
  have hx := hs x
  have hy := hs y
  rcases Nat.lt_or_gt_of_ne h with hl | hl
  · have := Nat.mul_le_mul_left stride (Nat.succ_le_of_lt hl)
    rw [Nat.mul_succ] at this
    omega
  · have := Nat.mul_le_mul_left stride (Nat.succ_le_of_lt hl)
    rw [Nat.mul_succ] at this
    omega

/-- C82. When a conflict can arise: the condition is about the same program with separate memories. Whenever a call is made, the optionals that it
creates or changes must have no byte in common with those that exist then. In particular the memory of an optional can be used again after
its end. -/
theorem C82_when (hΓ : ∀ x, (Γ x).cfg.WF) (h : List (Op V G)) (pre : List (Res (Obs V))) {f : FlatWorld V G} {w : World V G}
    (hA : Agrees Γ pos f w) (hc : ¬ f.clash)
    (hd : ∀ h₁ op h₂, h = h₁ ++ op :: h₂ → ∀ x y, x ∈ op.writes → (y ∈ op.writes ∨ ((run Γ h₁ w).2.mem y).isSome) → x ≠ y → ¬ ShareByte Γ pos x y) :
    ¬ (inFlat Γ pos (ofHistory h pre) f).2.clash := by
  induction h generalizing pre f w with
  | nil => exact hc
  | cons op rest ih =>
    have hno : ¬ ((Steps.attempt (Steps.execCall Γ (.op op))).flat Γ pos (ShareByte Γ pos) f).2.clash :=
      flat_no_clash (R := (· ∈ op.reads)) (W := (· ∈ op.writes)) (E := fun x => x ∈ op.writes ∨ (f.objs x).isSome) (fun _ => .inl)
        (fun x y hx hy hne => hd [] op rest rfl x y hx (hy.imp id fun e => by rw [hA.objs y] at e; simpa [run] using e) (Ne.symm hne))
        (Fits.attempt (Fits.execCall Γ (.op op) (fun _ => .inl) fun _ => id)) (fun _ => .inr) hc
    have L := Flatly.traverse (Γ := Γ) (pos := pos) (W := (· ∈ op.writes)) hΓ (· ∈ op.reads)
    rcases L.attempt (L.execCall (.op op) (fun _ => .inl) fun _ => id) f w hA with h' | ⟨h1, h2, _⟩
    · exact absurd h' hno
    have he : (Steps.attempt (Steps.execCall Γ (.op op))).exec w = attempt (execOp Γ op) w :=
      congrFun ((toM_attempt _).trans (congrArg attempt (toM_execCall Γ (.op op)))) w
    have hrest : ∀ {w'}, (∀ l, (run Γ (op :: l) w).2 = (run Γ l w').2) → ∀ h₁ op' h₂, rest = h₁ ++ op' :: h₂ → ∀ x y, x ∈ op'.writes →
        (y ∈ op'.writes ∨ ((run Γ h₁ w').2.mem y).isSome) → x ≠ y → ¬ ShareByte Γ pos x y := by
      intro w' hr h₁ op' h₂ e x y hx hy
      refine hd (op :: h₁) op' h₂ (by rw [e]; rfl) x y hx (hy.imp id fun e => ?_)
      rw [hr]
      exact e
    rw [he] at h1 h2
    show ¬ (Steps.M.flat Γ pos (ShareByte Γ pos) (Steps.M.andThen (Steps.attempt (Steps.execCall Γ (.op op))) _) f).2.clash
    rw [flat_andThen, h1]
    rcases hw : execOp Γ op w with ⟨r | e | k, w'⟩
    · rw [attempt_run (r := .ok r) hw] at h2 ⊢
      exact ih _ h2 hno (hrest fun l => by simp [run, hw])
    · rw [attempt_run (r := .error e) hw] at h2 ⊢
      exact ih _ h2 hno (hrest fun l => by simp [run, hw])
    · rw [show attempt (execOp Γ op) w = (.abort k, w') by simp [attempt, hw]]
      exact hno

/-- C82. Anywhere in one memory with arbitrary contents, and with the memory of one optional used again for another, a legal history has
the results that it has with `std::optional`, all optionals are in the state in which those of `std::optional` are, and no byte is changed
that belongs to none of the optionals of the history. -/
theorem C82_drop_in (hΓ : EnvWF Γ) {h : List (Op V G)} {g : G} {rs : List (Spec.SRes (Obs V))} {sw : Spec.SWorld V G}
    (hL : Legal Γ g h rs sw) (bytes : Nat → Option Byte) (hc : ¬ (inFlat Γ pos (ofHistory h []) (.init bytes g)).2.clash) :
    (inFlat Γ pos (ofHistory h []) (.init bytes g)).1 = .ok (rs.map SResToRes) ∧
    (∃ w, Sees Γ w sw ∧ Agrees Γ pos (inFlat Γ pos (ofHistory h []) (.init bytes g)).2 w) ∧
    ∀ a, (∀ x, HistoryUses h x → ¬ OwnByte Γ pos x a) → (inFlat Γ pos (ofHistory h []) (.init bytes g)).2.bytes a = bytes a := by
  have h0 : Agrees Γ pos (.init bytes g) (.init g : World V G) := ⟨fun _ => rfl, nofun, nofun, rfl, rfl, rfl⟩
  obtain ⟨h1, h2⟩ := C82_same hΓ.cfg _ h0 hc
  rw [ofHistory_run h [] _ (C02_no_abort hΓ hL).2] at h1 h2
  obtain ⟨d1, d2⟩ := C01_drop_in hΓ hL
  refine ⟨by rw [h1, d1]; rfl, ⟨_, d2, h2⟩, fun a ha => ?_⟩
  exact C82_foreign hΓ.cfg _ (ofHistory_within (R := fun _ => False) (W := HistoryUses h) h [] fun _ => id) h0 hc a ha

end

/-! ### Concrete cases -/

section
open Verif.Examples

private abbrev G := List String

private theorem ext_le (x : Nat) : extent (exEnv x).cfg ≤ 2 := by
  have : extent (exEnv x).cfg = if x < 10 then 2 else if x < 40 then 1 else extent (memCfg false) := by
    simp only [env]
    split
    · rfl
    split
    · rw [if_pos (by omega)]; rfl
    split
    · rw [if_pos (by omega)]; rfl
    split
    · rfl
    · rfl
  rw [this]
  split
  · exact Nat.le_refl _
  split
  · decide
  · decide

/-- An array of optionals without gaps: two bytes for each. -/
private def array : Placement := fun x => 1000 + 2 * x

/-- Memory full of other objects. -/
private def full : Nat → Option Byte := fun a => some (BitVec.ofNat 8 a)

private theorem array_apart (x y : Nat) (h : x ≠ y) : ¬ ShareByte exEnv array x y := C82_array ext_le (fun _ => rfl) x y h

private theorem array_ok : ¬ (inFlat exEnv array (ofHistory exHist []) (.init full [])).2.clash :=
  C82_apart (R := fun _ => False) (W := HistoryUses exHist) _ (ofHistory_within _ _ fun _ => id) (f := .init full []) id
    fun x y _ _ h => array_apart x y h

/-- The history that makes the example world, in the array: the hypotheses of `C82_drop_in` can be met. -/
example := C82_drop_in exEnv_wf ex_legal full array_ok

/-- What is in the memory then: optional 0 (value 42, flag), then optional 1 (no value, flag), then what was there before. Optionals 20
and 21 have one byte each, and the byte behind it (padding of the array element, in which another object may be) is unchanged. -/
example : ([1000, 1001, 1002, 1003, 1004, 1040, 1041, 1042, 1043]).map (inFlat exEnv array (ofHistory exHist []) (.init full [])).2.bytes =
    [some 42#8, some 0#8, none, some 1#8, full 1004, some 5#8, full 1041, some 42#8, full 1043] := by
  simp only [inFlat, List.map, List.cons.injEq, and_true]
  refine ⟨?_, ?_, ?_, ?_, ?_, ?_, ?_, ?_, ?_⟩ <;> rfl

private theorem start_agrees (pos : Placement) : Agrees exEnv pos (.init full []) (.init [] : World (BitVec 8) G) :=
  ⟨fun _ => rfl, nofun, nofun, rfl, rfl, rfl⟩

example := C82_same exEnv_wf.cfg _ (start_agrees array) array_ok

/-- `C82_foreign` for the byte behind optional 20: it belongs to no optional. -/
example : (inFlat exEnv array (ofHistory exHist []) (.init full [])).2.bytes 1041 = some 17#8 :=
  C82_foreign exEnv_wf.cfg _ (ofHistory_within (R := fun _ => False) (W := HistoryUses exHist) exHist [] fun _ => id) (start_agrees array)
    array_ok 1041 fun x _ h => by
      have h1 : 1000 + 2 * x ≤ 1041 ∧ 1041 < 1000 + 2 * x + extent (exEnv x).cfg := h
      have h2 := ext_le x
      have h3 : x = 20 := by omega
      subst h3
      have h4 : extent (exEnv 20).cfg = 1 := rfl
      omega

/-- Both optionals 20 and 0 at address 7, one after the other: no conflict, although they share a byte. -/
private def again : List (Op (BitVec 8) G) := [.ctorInPlace 20 (lit 5#8), .dtor 20, .ctorInPlace 0 (lit 6#8), .hasValue 0]

private theorem again_ok : ¬ (inFlat exEnv (fun _ => 7) (ofHistory again []) (.init full [])).2.clash := by
  refine C82_when exEnv_wf.cfg again [] (start_agrees _) id ?_
  intro h₁ op h₂ e x y hx hy hne
  exfalso
  have frame : ∀ l : List (Op (BitVec 8) G), (∀ op ∈ l, y ∉ op.writes) → (run exEnv l (.init [])).2.mem y = none := fun l hl =>
    C36_frame_history exEnv l _ y hl
  rcases h₁ with _ | ⟨o1, _ | ⟨o2, _ | ⟨o3, _ | ⟨o4, l⟩⟩⟩⟩ <;> simp [again] at e
  · obtain ⟨rfl, _⟩ := e
    simp [Op.writes, lit, Arg.writes] at hx hy
    rcases hy with hy | hy
    · exact hne (hx.trans hy.symm)
    · cases hy
  · obtain ⟨rfl, rfl, _⟩ := e
    simp [Op.writes] at hx hy
    rcases hy with hy | hy
    · exact hne (hx.trans hy.symm)
    · rw [frame _ fun op ho => by simp at ho; subst ho; simpa [Op.writes, lit, Arg.writes] using fun e => hne (hx.trans e.symm)] at hy
      cases hy
  · obtain ⟨rfl, rfl, rfl, _⟩ := e
    simp [Op.writes, lit, Arg.writes] at hx hy
    rcases hy with hy | hy
    · exact hne (hx.trans hy.symm)
    · by_cases h20 : y = 20
      · subst h20
        revert hy
        exact nofun
      · rw [frame _ fun op ho => by simp at ho; rcases ho with rfl | rfl <;> simpa [Op.writes, lit, Arg.writes] using h20] at hy
        cases hy
  · obtain ⟨rfl, rfl, rfl, rfl, _⟩ := e
    simp [Op.writes] at hx

/-- The hypotheses of `C82_drop_in` and `C82_when` can be met with memory that is used again. -/
example := again_ok

/-- They do share a byte. -/
example : ShareByte exEnv (fun _ => 7) 20 0 := ⟨7, ⟨Nat.le_refl _, by decide⟩, ⟨Nat.le_refl _, by decide⟩⟩

/-- The condition is needed: if the flag of 0 is where the payload of 1 is, then creating 1 makes it indeterminate whether 0 has a value,
and asking for it is undefined behaviour; with separate memories it has one. -/
private def mixed : List (Op (BitVec 8) G) := [.ctorInPlace 0 (lit 5#8), .ctorDefault 1, .hasValue 0]

example : (inFlat exEnv (fun x => 100 + x) (ofHistory mixed []) (.init full [])).1 = .abort (.ub .indeterminate) := rfl

example : (run exEnv mixed (.init [])).1 = [.ok .unit, .ok .unit, .ok (.bool true)] := rfl

end
end Verif.Props
