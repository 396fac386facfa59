import Verif.Lemmas.Handover
import Verif.Props.ThreadsReentrant

/-! # C88: optionals handed over between threads -/

namespace Verif.Props
open Verif Verif.Model Verif.Spec

section
variable {T V G α : Type} [DecidableEq T] {Γ : Env V G}

/-- What the atomic machine says about state `S`: threads outside of sections, and optionals that no running section may modify, are
as in `A`; the results of the running sections are already known in `A`. -/
def AsAtomic (S : Sharing T V G α) (A : Atomic T V G α) : Prop :=
  (∀ t, S.busy t = none → S.own t = A.own t ∧ S.results t = A.results t) ∧
  (∀ x, (∀ t s, S.busy t = some s → ¬s.W x) → S.mem x = A.mem x) ∧
  ∀ t s, S.busy t = some s → ∃ r, A.results t = S.results t ++ [r] ∧ ∀ q, s.prog = .done q → q = r

omit [DecidableEq T] in
private theorem asAtomic {S : Sharing T V G α} {A : Atomic T V G α} (h : Ahead S A) : AsAtomic S A :=
  ⟨fun t ht => ⟨(h.idle t ht).1.symm, (h.idle t ht).2.symm⟩, fun x hx => (h.free x hx).symm,
    fun t s hs => ⟨_, h.results t s hs, fun q hq => by rw [hq]; rfl⟩⟩

/-- C88. Whatever the interleaving: at every moment, the state is that of the execution in which every section ran in one go when it
began. -/
theorem C88_atomic {S : Sharing T V G α} (h0 : AllIdle S) {es : List (Turn T G (TProg V G α))}
    (hd : Disciplined TProg.Within (Steps.execProg Γ) S es) :
    AsAtomic (S.turns (Steps.execProg Γ) es) (Atomic.turns (execProg Γ) ⟨S.mem, S.own, S.results⟩ es) :=
  asAtomic ((Ahead.start h0).turns (toM_execProg Γ) (fun h => Fits.execProg Γ _ h) es hd)

/-- C88. When all sections have ended, memory, results, user states and objects are all the same. -/
theorem C88_atomic_end {S : Sharing T V G α} (h0 : AllIdle S) {es : List (Turn T G (TProg V G α))}
    (hd : Disciplined TProg.Within (Steps.execProg Γ) S es) (he : AllIdle (S.turns (Steps.execProg Γ) es)) :
    let S' := S.turns (Steps.execProg Γ) es
    (⟨S'.mem, S'.own, S'.results⟩ : Atomic T V G α) = Atomic.turns (execProg Γ) ⟨S.mem, S.own, S.results⟩ es := by
  intro S'
  obtain ⟨h1, h2, -⟩ := C88_atomic h0 hd
  have e1 : S'.mem = (Atomic.turns (execProg Γ) ⟨S.mem, S.own, S.results⟩ es).mem :=
    funext fun x => h2 x fun t s hs => by rw [he t] at hs; cases hs
  have e2 : S'.own = (Atomic.turns (execProg Γ) ⟨S.mem, S.own, S.results⟩ es).own := funext fun t => (h1 t (he t)).1
  have e3 : S'.results = (Atomic.turns (execProg Γ) ⟨S.mem, S.own, S.results⟩ es).results := funext fun t => (h1 t (he t)).2
  rw [e1, e2, e3]

/-- C88. No data race occurs. -/
theorem C88_no_race {S : Sharing T V G α} (h0 : AllIdle S) {es : List (Turn T G (TProg V G α))}
    (hd : Disciplined TProg.Within (Steps.execProg Γ) S es) : ¬RaceIn (S.turns (Steps.execProg Γ) es) :=
  ((Ahead.start h0).turns (toM_execProg Γ) (fun h => Fits.execProg Γ _ h) es hd).no_race

/-- C88. A running section comes to its end by its own steps: nothing in the library waits. -/
theorem C88_ends (S : Sharing T V G α) {t : T} {s : Running V G α} (hs : S.busy t = some s) :
    ∃ n r, (S.turns (Steps.execProg Γ) (List.replicate n (.step t))).busy t = some ⟨.done r, s.R, s.W⟩ :=
  ends (Steps.execProg Γ) t s.prog S s.R s.W hs

/-- C88, with user code that calls the library. -/
theorem C88_atomic_reentrant {S : Sharing T V G α} (h0 : AllIdle S) {es : List (Turn T G (Verif.Prog V G α))}
    (hd : Disciplined (fun R W p => Prog.Within R W p) (Steps.runProg Γ) S es) :
    AsAtomic (S.turns (Steps.runProg Γ) es) (Atomic.turns (runProg Γ) ⟨S.mem, S.own, S.results⟩ es) ∧
      ¬RaceIn (S.turns (Steps.runProg Γ) es) :=
  have h := (Ahead.start h0).turns (toM_runProg Γ) (fun h => Fits.runProg Γ _ h) es hd
  ⟨asAtomic h, h.no_race⟩

/-- C88 with C01. Sections that are legal in the order in which they begin: whatever the interleaving, every thread gets the results
that `std::optional` prescribes for this order; when all sections have ended, the optionals are as `std::optional`s would be. -/
theorem C88_std (hΓ : EnvWF Γ) {g : T → G} {es : List (Turn T G (List (Op V G)))} {s : SSharing T V G}
    (hL : LegalTurns Γ ⟨fun _ => none, g, fun _ => []⟩ es s) :
    let code := fun h : List (Op V G) => Steps.execProg Γ (ofHistory h [])
    let S₀ : Sharing T V G (List (Res (Obs V))) := ⟨fun _ => none, fun t => ⟨0, [], g t⟩, fun _ => none, fun _ => []⟩
    Disciplined (fun R W h => TProg.Within R W (ofHistory (V := V) (G := G) h [])) code S₀ es →
    let S := S₀.turns code es
    ¬RaceIn S ∧
    (∀ t, S.busy t = none → S.results t = (s.results t).map (fun rs => .ok (rs.map SResToRes)) ∧ (S.own t).user = s.user t) ∧
    (AllIdle S → ∀ t, Sees Γ ((S.own t).view S.mem) ⟨s.vars, s.user t, []⟩) := by
  intro code S₀ hd S
  have h := (Ahead.start (S := S₀) fun _ => rfl).turns (whole := fun h => execProg Γ (ofHistory h []))
    (fun p => toM_execProg Γ (ofHistory p [])) (fun h => Fits.execProg Γ _ h) es hd
  have hm := Mirrors.turns hΓ hL (A := ⟨fun _ => none, fun t => ⟨0, [], g t⟩, fun _ => []⟩)
    ⟨fun t => R_init (g t), fun _ => rfl⟩
  refine ⟨h.no_race, fun t ht => ?_, fun hi t => ?_⟩
  · obtain ⟨e1, e2⟩ := h.idle t ht
    rw [← e1, ← e2]
    exact ⟨hm.results t, (hm.world t).user⟩
  · have e : S.mem = (Atomic.turns (fun h => execProg Γ (ofHistory h [])) ⟨S₀.mem, S₀.own, S₀.results⟩ es).mem :=
      funext fun x => (h.free x fun t s hs => by rw [hi t] at hs; cases hs).symm
    rw [e, ← (h.idle t (hi t)).1]
    exact (hm.world t).sees hΓ

end

/-! ### Concrete cases -/

section
open Verif.Examples

private abbrev G := List String
private abbrev H := List (Op (BitVec 8) G)

private def only (n : Nat) : Nat → Prop := fun x => x = n
private def nothing : Nat → Prop := fun _ => False

private def both {P : Type u} : Nat → List (Turn Bool G P)
  | 0 => []
  | n + 1 => .step true :: .step false :: both n

/-- Thread `true` makes the optional 20, thread `false` the optional 10, at the same time. Then thread `false` hears of it and takes the
value of 20 and clears it, while thread `true` asks for 10. -/
private def exTurns : List (Turn Bool G H) :=
  [.enter true [.ctorInPlace 20 (lit 5#8)] nothing (only 20), .enter false [.ctorDefault 10, .emplace 10 (lit 7#8)] nothing (only 10)] ++
  (both 30 ++ ([.leave true, .leave false, .talk true true fun g _ => g ++ ["20 is ready"], .talk false true fun g g' => g ++ g',
    .enter false [.value 20, .assignNullopt 20] nothing (only 20), .enter true [.hasValue 10] (only 10) nothing] ++
  (both 30 ++ [.leave false, .leave true])))

private abbrev exCode (h : H) : Steps.M (BitVec 8) G (List (Res (Obs (BitVec 8)))) := Steps.execProg exEnv (ofHistory h [])

private def exStart : Sharing Bool (BitVec 8) G (List (Res (Obs (BitVec 8)))) :=
  ⟨fun _ => none, fun _ => ⟨0, [], []⟩, fun _ => none, fun _ => []⟩

private def exAfter : Sharing Bool (BitVec 8) G (List (Res (Obs (BitVec 8)))) := exStart.turns exCode exTurns

/-- The hand-over has the intended effect. -/
example : exAfter.results true = [.ok [.ok .unit], .ok [.ok (.bool true)]] ∧
    exAfter.results false = [.ok [.ok .unit, .ok (.val 7#8)], .ok [.ok (.val 5#8), .ok .unit]] ∧ (exAfter.own false).user = ["20 is ready", "dtor"] := by
  decide +kernel

private theorem disciplined_append {P : Type u} {Within : (Nat → Prop) → (Nat → Prop) → P → Prop} {V G α : Type} {code : P → Steps.M V G α}
    (es fs : List (Turn Bool G P)) : ∀ {S : Sharing Bool V G α}, Disciplined Within code S es → Disciplined Within code (S.turns code es) fs →
      Disciplined Within code S (es ++ fs) := by
  induction es with
  | nil => exact fun _ h => h
  | cons e es ih => exact fun h h' => ⟨h.1, ih h.2 h'⟩

private theorem disciplined_both {Within : (Nat → Prop) → (Nat → Prop) → H → Prop} (n : Nat) :
    ∀ {S : Sharing Bool (BitVec 8) G (List (Res (Obs (BitVec 8))))}, Disciplined Within exCode S (both n) := by
  induction n with
  | zero => exact trivial
  | succ n ih => exact ⟨trivial, trivial, ih⟩

private abbrev exWithin (R W : Nat → Prop) (h : H) : Prop := TProg.Within R W (ofHistory (V := BitVec 8) (G := G) h [])

private theorem apart_only {m n : Nat} (h : m ≠ n) : Apart nothing (only m) nothing (only n) :=
  fun _ => ⟨fun e => ⟨id, fun e' => h (e.symm.trans e')⟩, fun e => ⟨id, fun e' => h (e'.symm.trans e)⟩⟩

private theorem not_some {β : Type} {o : Option β} (h : o.isNone = true) {b : β} (hs : o = some b) : False := by rw [hs] at h; cases h

private theorem ex_disciplined : Disciplined exWithin exCode exStart exTurns := by
  unfold exTurns
  refine disciplined_append _ _ ⟨⟨rfl, ?_, nofun⟩, ⟨rfl, ?_, ?_⟩, trivial⟩ (disciplined_append _ _ (disciplined_both _)
    (disciplined_append _ _ ⟨trivial, trivial, ⟨?_, ?_⟩, ⟨?_, ?_⟩, ⟨?_, ?_, ?_⟩, ⟨?_, ?_, ?_⟩, trivial⟩
      (disciplined_append _ _ (disciplined_both _) ⟨trivial, trivial, trivial⟩)))
  · exact ofHistory_within _ _ (by simp [HistoryUses, only, Op.reads, Op.writes, lit, Arg.reads, Arg.writes])
  · exact ofHistory_within _ _ (by simp [HistoryUses, only, Op.reads, Op.writes, lit, Arg.reads, Arg.writes])
  · rintro (_ | _) s hs
    · cases hs
    · cases hs; exact apart_only (by decide)
  iterate 5 exact Option.isNone_iff_eq_none.mp (by decide +kernel)
  · exact ofHistory_within _ _ (by simp [HistoryUses, only, Op.reads, Op.writes])
  · rintro u s hs
    refine (not_some ?_ hs).elim
    cases u <;> decide +kernel
  · exact Option.isNone_iff_eq_none.mp (by decide +kernel)
  · exact ⟨by simp [LibCall.reads, Op.reads, only], by simp [LibCall.writes, Op.writes], fun _ => trivial⟩
  · rintro (_ | _) s hs
    · cases hs
      exact fun x => ⟨nofun, fun (e : x = 20) => ⟨fun (e' : x = 10) => by omega, id⟩⟩
    · refine (not_some ?_ hs).elim
      decide +kernel

private theorem legal_both {s s' : SSharing Bool (BitVec 8) G} {es : List (Turn Bool G H)} (n : Nat) (h : LegalTurns exEnv s es s') :
    LegalTurns exEnv s (both n ++ es) s' := by
  induction n with
  | zero => exact h
  | succ n ih => exact .step _ (.step _ ih)

private theorem ex_legal : ∃ s, LegalTurns exEnv ⟨fun _ => none, fun _ => [], fun _ => []⟩ exTurns s := by
  refine ⟨_, .enter _ _ _ ?_ rfl ?_ ?_ (.enter _ _ _ ?_ rfl ?_ ?_ (legal_both _ (.leave _ (.leave _ (.talk _ _ _ (.talk _ _ _ (.enter _ _ _ ?_ rfl ?_ ?_
    (.enter _ _ _ ?_ rfl ?_ ?_ (legal_both _ (.leave _ (.leave _ (.nil _))))))))))))⟩
  all_goals intro p hp
  all_goals simp at hp
  all_goals first
    | (subst hp; first | exact trivial | exact lit_lawful _ | simp [Config.Storable, env, sentCfg, patCfg, Config.loc, byteRepr])
    | (rcases hp with rfl | rfl <;> first | exact trivial | exact lit_lawful _)

/-- `C88_std` applies to the example, at the end of which all threads are idle. -/
example := C88_std exEnv_wf ex_legal.choose_spec ex_disciplined

example : AllIdle exAfter := by
  intro t
  refine Option.isNone_iff_eq_none.mp ?_
  cases t <;> decide +kernel

/-- `C88_atomic`, `C88_atomic_end` and `C88_no_race`: thread `true` compares two optionals, of which thread `false` may read one at the
same time. -/
private def exPrograms : List (Turn Bool G (TProg (BitVec 8) G Bool)) :=
  [.enter true (.call (.rel 20 22 .lt fun _ a b g => (.ok (a.ult b), g)) fun r => .ret (match r with | .ok b => b | .error _ => false))
      (fun x => x = 20 ∨ x = 22) nothing,
    .step true, .enter false (.call (.relNullopt 20 .eq) fun r => .ret (match r with | .ok b => b | .error _ => true)) (only 20) nothing,
    .step false, .step true]

private def exShared : Sharing Bool (BitVec 8) G Bool := ⟨exWorld.mem, fun _ => ⟨100, [], []⟩, fun _ => none, fun _ => []⟩

private theorem exPrograms_disciplined : Disciplined TProg.Within (Steps.execProg exEnv) exShared exPrograms := by
  refine ⟨⟨rfl, ⟨by simp [LibCall.reads], by simp [LibCall.writes], fun _ => trivial⟩, nofun⟩, trivial,
    ⟨rfl, ⟨by simp [LibCall.reads, only], by simp [LibCall.writes], fun _ => trivial⟩, ?_⟩, trivial, trivial, trivial⟩
  rintro (_ | _) s hs
  · cases hs
  · cases hs
    exact fun x => ⟨nofun, nofun⟩

example := C88_atomic (S := exShared) (fun _ => rfl) exPrograms_disciplined
example := C88_no_race (S := exShared) (fun _ => rfl) exPrograms_disciplined
example := C88_ends (Γ := exEnv) (exShared.turns (Steps.execProg exEnv) exPrograms) (t := true) rfl

/-- Thread `false` transforms the optional 20 with a callable that resets 22; thread `true` waits with its use of 22 until then. -/
private def exReentrant : List (Turn Bool G (Verif.Prog (BitVec 8) G Unit)) :=
  [.enter false (.transform false 20 25 (.call (.reset 22) fun _ => .ret (.ok 9#8)) fun r => .ret r) (only 20) (fun x => x = 25 ∨ x = 22)] ++
    (List.replicate 60 (.step false) ++ [.leave false, .enter true (.call (.reset 22) fun _ => .ret (.ok ())) nothing (only 22), .step true])

private theorem disciplined_replicate {P : Type u} {Within : (Nat → Prop) → (Nat → Prop) → P → Prop} {V G α : Type} {code : P → Steps.M V G α} (t : Bool)
    (n : Nat) : ∀ {S : Sharing Bool V G α}, Disciplined Within code S (List.replicate n (.step t)) := by
  induction n with
  | zero => exact trivial
  | succ n ih => exact ⟨trivial, ih⟩

private def exFull : List (Turn Bool G (TProg (BitVec 8) G Bool)) :=
  exPrograms ++ (List.replicate 10 (.step true) ++ (List.replicate 10 (.step false) ++ [.leave true, .leave false]))

private theorem exFull_disciplined : Disciplined TProg.Within (Steps.execProg exEnv) exShared exFull :=
  disciplined_append _ _ exPrograms_disciplined (disciplined_append _ _ (disciplined_replicate _ _)
    (disciplined_append _ _ (disciplined_replicate _ _) ⟨trivial, trivial, trivial⟩))

example := C88_atomic_end (S := exShared) (fun _ => rfl) exFull_disciplined fun t =>
  Option.isNone_iff_eq_none.mp (by cases t <;> decide +kernel)

private def exSharedUnit : Sharing Bool (BitVec 8) G Unit := ⟨exWorld.mem, fun _ => ⟨100, [], []⟩, fun _ => none, fun _ => []⟩

private theorem exReentrant_disciplined :
    Disciplined (fun R W p => Prog.Within R W p) (Steps.runProg exEnv) exSharedUnit exReentrant := by
  refine disciplined_append _ _ ⟨⟨rfl, ?_, nofun⟩, trivial⟩ (disciplined_append _ _ (disciplined_replicate _ _)
    ⟨trivial, ⟨Option.isNone_iff_eq_none.mp (by decide +kernel), ?_, fun u s hs => ?_⟩, trivial, trivial⟩)
  · simp [Prog.Within, only, Op.reads, Op.writes]
  · simp [Prog.Within, only, Op.reads, Op.writes]
  · refine (not_some ?_ hs).elim
    cases u <;> decide +kernel

example := C88_atomic_reentrant (S := exSharedUnit) (fun _ => rfl) exReentrant_disciplined


private def exFilled : Sharing Bool (BitVec 8) G (List (Res (Obs (BitVec 8)))) := ⟨exWorld.mem, fun _ => ⟨100, [], []⟩, fun _ => none, fun _ => []⟩

/-- C88. The discipline is needed: two sections that use the same optional at the same time can end in undefined behaviour, which
happens in neither of the two orders in which they can be executed. -/
theorem C88_needed : ∃ (S : Sharing Bool (BitVec 8) G (List (Res (Obs (BitVec 8))))) (a b : H) (W : Nat → Prop) (es : List (Turn Bool G H)),
    AllIdle S ∧ exWithin nothing W a ∧ exWithin nothing W b ∧ (∀ e ∈ es, e = .step true ∨ e = .step false) ∧
    (S.turns exCode (.enter true a nothing W :: .enter false b nothing W :: es ++ [.leave true, .leave false])).results false =
      [.abort (.ub .noObject)] ∧
    (Atomic.turns (fun h => execProg exEnv (ofHistory h [])) ⟨S.mem, S.own, S.results⟩
      [.enter true a nothing W, .enter false b nothing W]).results false = [.ok [.ok (.val 0#8)]] ∧
    (Atomic.turns (fun h => execProg exEnv (ofHistory h [])) ⟨S.mem, S.own, S.results⟩
      [.enter false b nothing W, .enter true a nothing W]).results false = [.ok [.ok (.val 5#8)]] := by
  refine ⟨exFilled, [.reset 20], [.valueOr false 20 fun g => (.ok 0#8, g)], only 20,
    .step false :: List.replicate 20 (.step true) ++ List.replicate 20 (.step false), fun _ => rfl, ?_, ?_, ?_, ?_, ?_, ?_⟩
  · exact ofHistory_within _ _ (by simp [HistoryUses, only, Op.reads, Op.writes])
  · exact ofHistory_within _ _ (by simp [HistoryUses, only, Op.reads, Op.writes])
  · intro e he
    simp only [List.cons_append, List.mem_cons, List.mem_append, List.mem_replicate] at he
    rcases he with h | ⟨-, h⟩ | ⟨-, h⟩ <;> simp [h]
  all_goals decide +kernel

end
end Verif.Props
