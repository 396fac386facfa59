import Verif.Lemmas.Weak
import Verif.Props.Handover

/-! # C89: weak memory -/

namespace Verif.Props
open Verif Verif.Model Verif.Spec

section
variable {T V G α : Type} [DecidableEq T] {Γ : Env V G}

/-- C89. Whatever the threads see of memory that their sections do not use, and whenever their writes become visible: the state is that
of the execution in which every section ran in one go when it began, and no data race occurs. -/
theorem C89_atomic {S : Weak T V G α} (h0 : AllIdle S.toSharing) {es : List (WTurn T V G (TProg V G α))}
    (hd : WDisciplined TProg.Within (Steps.execProg Γ) S es) :
    AsAtomic (S.turns (Steps.execProg Γ) es).toSharing (Atomic.turns (execProg Γ) ⟨S.mem, S.own, S.results⟩ (visible es)) ∧
      ¬RaceIn (S.turns (Steps.execProg Γ) es).toSharing := by
  have h := (WAhead.start h0).turns (toM_execProg Γ) (fun h => Fits.execProg Γ _ h) es hd
  exact ⟨⟨fun t ht => ⟨(h.idle t ht).1.symm, (h.idle t ht).2.symm⟩, fun x hx => (h.free x hx).symm,
    fun t s hs => ⟨_, h.results t s hs, fun q hq => by rw [hq]; rfl⟩⟩, h.no_race⟩

/-- C89, with user code that calls the library. -/
theorem C89_atomic_reentrant {S : Weak T V G α} (h0 : AllIdle S.toSharing) {es : List (WTurn T V G (Verif.Prog V G α))}
    (hd : WDisciplined (fun R W p => Prog.Within R W p) (Steps.runProg Γ) S es) :
    AsAtomic (S.turns (Steps.runProg Γ) es).toSharing (Atomic.turns (runProg Γ) ⟨S.mem, S.own, S.results⟩ (visible es)) ∧
      ¬RaceIn (S.turns (Steps.runProg Γ) es).toSharing := by
  have h := (WAhead.start h0).turns (toM_runProg Γ) (fun h => Fits.runProg Γ _ h) es hd
  exact ⟨⟨fun t ht => ⟨(h.idle t ht).1.symm, (h.idle t ht).2.symm⟩, fun x hx => (h.free x hx).symm,
    fun t s hs => ⟨_, h.results t s hs, fun q hq => by rw [hq]; rfl⟩⟩, h.no_race⟩

/-- C89. The threads cannot tell the memory from the one of C88, which all of them see in the same way: with the same turns, every thread
is at the same place of its section, with the same user state, objects and results; optionals that no running section may modify have
the same memory. -/
theorem C89_same {S : Weak T V G α} (h0 : AllIdle S.toSharing) {es : List (WTurn T V G (TProg V G α))}
    (hd : WDisciplined TProg.Within (Steps.execProg Γ) S es) :
    let S' := S.turns (Steps.execProg Γ) es
    let Q := S.toSharing.turns (Steps.execProg Γ) (visible es)
    Disciplined TProg.Within (Steps.execProg Γ) S.toSharing (visible es) ∧ S'.own = Q.own ∧ S'.busy = Q.busy ∧ S'.results = Q.results ∧
      ∀ x, (∀ t s, Q.busy t = some s → ¬s.W x) → S'.mem x = Q.mem x := by
  intro S' Q
  have hs : Same S S.toSharing := ⟨rfl, rfl, rfl, fun t s hs => (by rw [h0 t] at hs; cases hs), fun _ _ => rfl⟩
  obtain ⟨h, hd'⟩ := hs.turns (WAhead.start h0) (toM_execProg Γ) (fun h => Fits.execProg Γ _ h) es hd
  exact ⟨hd', h.own.symm, h.busy.symm, h.results.symm, fun x hx => h.free x fun t s hs => hx t s (by rw [h.busy]; exact hs)⟩

/-- C89 with C01: every thread gets the results that `std::optional` prescribes for the order in which the sections begin; when all
sections have ended, the published optionals are as `std::optional`s would be. -/
theorem C89_std (hΓ : EnvWF Γ) {g : T → G} {es : List (WTurn T V G (List (Op V G)))} {s : SSharing T V G}
    (hL : LegalTurns Γ ⟨fun _ => none, g, fun _ => []⟩ (visible es) s) (cache : T → Nat → Option (Storage V)) :
    let code := fun h : List (Op V G) => Steps.execProg Γ (ofHistory h [])
    let S₀ : Weak T V G (List (Res (Obs V))) := ⟨⟨fun _ => none, fun t => ⟨0, [], g t⟩, fun _ => none, fun _ => []⟩, cache⟩
    WDisciplined (fun R W h => TProg.Within R W (ofHistory (V := V) (G := G) h [])) code S₀ es →
    let S := S₀.turns code es
    (∀ t, S.busy t = none → S.results t = (s.results t).map (fun rs => .ok (rs.map SResToRes)) ∧ (S.own t).user = s.user t) ∧
    (AllIdle S.toSharing → ∀ t, Sees Γ ((S.own t).view S.mem) ⟨s.vars, s.user t, []⟩) := by
  intro code S₀ hd S
  have h := (WAhead.start (S := S₀) fun _ => rfl).turns (whole := fun h => execProg Γ (ofHistory h []))
    (fun p => toM_execProg Γ (ofHistory p [])) (fun h => Fits.execProg Γ _ h) es hd
  have hm := Mirrors.turns hΓ hL (A := ⟨fun _ => none, fun t => ⟨0, [], g t⟩, fun _ => []⟩)
    ⟨fun t => R_init (g t), fun _ => rfl⟩
  refine ⟨fun t ht => ?_, fun hi t => ?_⟩
  · obtain ⟨e1, e2⟩ := h.idle t ht
    rw [← e1, ← e2]
    exact ⟨hm.results t, (hm.world t).user⟩
  · have e : S.mem = (Atomic.turns (fun h => execProg Γ (ofHistory h [])) ⟨S₀.mem, S₀.own, S₀.results⟩ (visible es)).mem :=
      funext fun x => (h.free x fun t s hs => by rw [hi t] at hs; cases hs).symm
    rw [e, ← (h.idle t (hi t)).1]
    exact (hm.world t).sees hΓ

end

/-! ### Concrete cases -/

section
open Verif.Examples

private abbrev G := List String
private abbrev H := List (Op (BitVec 8) G)

private abbrev exCode (h : H) : Steps.M (BitVec 8) G (List (Res (Obs (BitVec 8)))) := Steps.execProg exEnv (ofHistory h [])
private abbrev exWithin (R W : Nat → Prop) (h : H) : Prop := TProg.Within R W (ofHistory (V := BitVec 8) (G := G) h [])

/-- Thread `true` makes the optional 20, its write becomes visible in between already; thread `false` believes in something else until it
begins its section, in which it takes the value of 20. Both see nonsense in 10. -/
private def exTurns : List (WTurn Bool (BitVec 8) G H) :=
  [.stale false 20 (some .raw), .turn (.enter true [.ctorInPlace 20 (lit 5#8)] (fun _ => False) (· = 20)), .stale true 10 (some .raw),
    .turn (.step true), .turn (.step true), .turn (.step true), .publish true 20] ++
  (List.replicate 30 (.turn (.step true)) ++ ([.publish true 20, .turn (.leave true),
    .turn (.enter false [.value 20, .assignNullopt 20] (fun _ => False) (· = 20)), .stale false 10 none] ++
  (List.replicate 30 (.turn (.step false)) ++ [.publish false 20, .turn (.leave false)])))

private def exStart : Weak Bool (BitVec 8) G (List (Res (Obs (BitVec 8)))) :=
  ⟨⟨fun _ => none, fun _ => ⟨0, [], []⟩, fun _ => none, fun _ => []⟩, fun _ _ => some .raw⟩

example : (exStart.turns exCode exTurns).results false = [.ok [.ok (.val 5#8), .ok .unit]] := by decide +kernel

private theorem append {P : Type u} {Within : (Nat → Prop) → (Nat → Prop) → P → Prop} {V G α : Type} {code : P → Steps.M V G α}
    (es fs : List (WTurn Bool V G P)) : ∀ {S : Weak Bool V G α}, WDisciplined Within code S es → WDisciplined Within code (S.turns code es) fs →
      WDisciplined Within code S (es ++ fs) := by
  induction es with
  | nil => exact fun _ h => h
  | cons e es ih => exact fun h h' => ⟨h.1, ih h.2 h'⟩

private theorem replicate {P : Type u} {Within : (Nat → Prop) → (Nat → Prop) → P → Prop} {V G α : Type} {code : P → Steps.M V G α} (t : Bool)
    (n : Nat) : ∀ {S : Weak Bool V G α}, WDisciplined Within code S (List.replicate n (.turn (.step t))) := by
  induction n with
  | zero => exact trivial
  | succ n ih => exact ⟨trivial, ih⟩

private theorem not_some {β : Type} {o : Option β} (h : o.isNone = true) {b : β} (hs : o = some b) : False := by rw [hs] at h; cases h

private theorem still_busy {V G α : Type} {P : Type u} (code : P → Steps.M V G α) (t : Bool) (n : Nat) : ∀ {S : Weak Bool V G α} {s : Running V G α},
    S.busy t = some s → ∃ q, (S.turns code (List.replicate n (.turn (.step t)))).busy t = some ⟨q, s.R, s.W⟩ := by
  induction n with
  | zero => exact fun {S s} h => ⟨s.prog, h⟩
  | succ n ih =>
    intro S s h
    have : (S.turn code (.turn (.step t))).busy t = some ⟨(s.prog.step ((S.own t).view (S.cache t))).1, s.R, s.W⟩ := by
      simp only [Weak.turn, h, upd1_same]
    obtain ⟨q, hq⟩ := ih this
    exact ⟨q, hq⟩

/-- After `publish`, the section may end. -/
private theorem may_leave {S : Weak Bool (BitVec 8) G (List (Res (Obs (BitVec 8))))} {t : Bool} {q R} (h : S.busy t = some ⟨q, R, (· = 20)⟩) :
    WPermitted exWithin (S.turn exCode (.publish t 20)) (.turn (.leave t)) := by
  intro s hs x hx
  rw [show (S.turn exCode (.publish t 20)).busy t = _ from h] at hs
  cases hs
  cases hx
  simp [Weak.turn]

private theorem ex_disciplined : WDisciplined exWithin exCode exStart exTurns := by
  have h1 := still_busy exCode true 30 (S := exStart.turns exCode [.stale false 20 (some .raw),
    .turn (.enter true [.ctorInPlace 20 (lit 5#8)] (fun _ => False) (· = 20)), .stale true 10 (some .raw),
    .turn (.step true), .turn (.step true), .turn (.step true), .publish true 20]) (s := ⟨_, fun _ => False, (· = 20)⟩) rfl
  obtain ⟨q, h1⟩ := h1
  refine append _ _ ⟨nofun, ⟨rfl, ?_, nofun⟩, ?_, trivial, trivial, trivial, ⟨⟨_, fun _ => False, (· = 20)⟩, rfl, rfl⟩, trivial⟩
    (append _ _ (replicate _ _) (append _ _ ⟨⟨_, h1, rfl⟩, may_leave h1, ⟨?_, ?_, ?_⟩, ?_, trivial⟩
      (append _ _ (replicate _ _) ?_)))
  · exact ofHistory_within _ _ (by simp [HistoryUses, Op.reads, Op.writes, lit, Arg.reads, Arg.writes])
  · rintro s hs
    cases hs
    exact ⟨id, by decide⟩
  · exact Option.isNone_iff_eq_none.mp (by decide +kernel)
  · exact ofHistory_within _ _ (by simp [HistoryUses, Op.reads, Op.writes])
  · intro u s hs
    refine (not_some ?_ hs).elim
    cases u <;> decide +kernel
  · intro s hs
    cases hs
    exact ⟨id, by decide⟩
  · obtain ⟨q', h2⟩ := still_busy exCode false 30 (S := ((exStart.turns exCode [.stale false 20 (some .raw),
      .turn (.enter true [.ctorInPlace 20 (lit 5#8)] (fun _ => False) (· = 20)), .stale true 10 (some .raw),
      .turn (.step true), .turn (.step true), .turn (.step true), .publish true 20]).turns exCode (List.replicate 30 (.turn (.step true)))).turns exCode
      [.publish true 20, .turn (.leave true), .turn (.enter false [.value 20, .assignNullopt 20] (fun _ => False) (· = 20)), .stale false 10 none])
      (s := ⟨_, fun _ => False, (· = 20)⟩) rfl
    exact ⟨⟨_, h2, rfl⟩, may_leave h2, trivial⟩

private theorem ex_legal : ∃ s, LegalTurns exEnv ⟨fun _ => none, fun _ => [], fun _ => []⟩ (visible exTurns) s := by
  have rep : ∀ (t : Bool) (n : Nat) (es : List (WTurn Bool (BitVec 8) G H)) {s s'}, LegalTurns exEnv s (visible es) s' →
      LegalTurns exEnv s (visible (List.replicate n (.turn (.step t)) ++ es)) s' := by
    intro t n es s s' h
    induction n with
    | zero => exact h
    | succ n ih => exact .step _ ih
  refine ⟨_, .enter _ _ _ ?_ rfl ?_ ?_ (.step _ (.step _ (.step _ (rep _ _ _ (.leave _ (.enter _ _ _ ?_ rfl ?_ ?_ (rep _ _ _ (.leave _ (.nil _)))))))))⟩
  all_goals intro p hp
  all_goals simp at hp
  all_goals first
    | (subst hp; first | exact trivial | exact lit_lawful _ | simp [Config.Storable, env, sentCfg, Config.loc])
    | (rcases hp with rfl | rfl <;> first | exact trivial | exact lit_lawful _)

example := C89_std exEnv_wf ex_legal.choose_spec (fun _ _ => some .raw) ex_disciplined

private def exPrograms : List (WTurn Bool (BitVec 8) G (TProg (BitVec 8) G Bool)) :=
  [.turn (.enter true (.call (.rel 20 22 .lt fun _ a b g => (.ok (a.ult b), g)) fun r => .ret (match r with | .ok b => b | .error _ => false))
      (fun x => x = 20 ∨ x = 22) (fun _ => False)),
    .turn (.step true), .stale true 24 none,
    .turn (.enter false (.call (.op (.reset 24)) fun _ => .ret true) (fun _ => False) (· = 24)),
    .turn (.step false), .stale false 20 none, .turn (.step true), .publish false 24]

private def exShared : Weak Bool (BitVec 8) G Bool := ⟨⟨exWorld.mem, fun _ => ⟨100, [], []⟩, fun _ => none, fun _ => []⟩, fun _ => exWorld.mem⟩

private theorem exPrograms_disciplined : WDisciplined TProg.Within (Steps.execProg exEnv) exShared exPrograms := by
  refine ⟨⟨rfl, ⟨by simp [LibCall.reads], by simp [LibCall.writes], fun _ => trivial⟩, nofun⟩, trivial, ?_,
    ⟨rfl, ⟨by simp [LibCall.reads, Op.reads], by simp [LibCall.writes, Op.writes], fun _ => trivial⟩, ?_⟩, trivial, ?_, trivial,
    ⟨⟨_, fun _ => False, (· = 24)⟩, rfl, rfl⟩, trivial⟩
  · rintro s hs
    cases hs
    exact ⟨by decide, id⟩
  · rintro (_ | _) s hs
    · cases hs
    · cases hs
      exact fun x => ⟨fun (e : x = 24) => ⟨by simp [e], id⟩, nofun⟩
  · rintro s hs
    cases hs
    exact ⟨id, by decide⟩

example := C89_atomic (S := exShared) (fun _ => rfl) exPrograms_disciplined
example := C89_same (S := exShared) (fun _ => rfl) exPrograms_disciplined

private def exReentrant : List (WTurn Bool (BitVec 8) G (Verif.Prog (BitVec 8) G Unit)) :=
  [.turn (.enter false (.transform false 20 25 (.call (.reset 22) fun _ => .ret (.ok 9#8)) fun r => .ret r) (· = 20) (fun x => x = 25 ∨ x = 22)),
    .stale false 24 none, .turn (.step false), .turn (.step false), .publish false 22]

private def exSharedUnit : Weak Bool (BitVec 8) G Unit := ⟨⟨exWorld.mem, fun _ => ⟨100, [], []⟩, fun _ => none, fun _ => []⟩, fun _ _ => none⟩

private theorem exReentrant_disciplined :
    WDisciplined (fun R W p => Prog.Within R W p) (Steps.runProg exEnv) exSharedUnit exReentrant := by
  refine ⟨⟨rfl, by simp [Prog.Within, Op.reads, Op.writes], nofun⟩, ?_, trivial, trivial,
    ⟨⟨_, (· = 20), fun x => x = 25 ∨ x = 22⟩, rfl, .inr rfl⟩, trivial⟩
  rintro s hs
  cases hs
  exact ⟨by decide, by decide⟩

example := C89_atomic_reentrant (S := exSharedUnit) (fun _ => rfl) exReentrant_disciplined

private theorem visible_replicate {P : Type u} {Within : (Nat → Prop) → (Nat → Prop) → P → Prop} {V G α : Type} {code : P → Steps.M V G α} (t : Bool)
    (n : Nat) (fs : List (WTurn Bool V G P)) : ∀ {S : Sharing Bool V G α},
      Disciplined Within code (S.turns code (List.replicate n (.step t))) (visible fs) →
      Disciplined Within code S (visible (List.replicate n (.turn (.step t)) ++ fs)) := by
  induction n with
  | zero => exact id
  | succ n ih => exact fun h => ⟨trivial, ih h⟩

/-- C89. That sections publish what they wrote before they end is needed: otherwise a thread may not find the optional that another thread
made before, and its access is undefined behaviour, unlike in the execution in which sections run in one go. -/
theorem C89_needed : ∃ (S : Weak Bool (BitVec 8) G (List (Res (Obs (BitVec 8))))) (es : List (WTurn Bool (BitVec 8) G H)),
    AllIdle S.toSharing ∧ Disciplined exWithin exCode S.toSharing (visible es) ∧ (∀ e ∈ es, ∃ e', e = .turn e') ∧
    (S.turns exCode es).results false = [.abort (.ub .noOptional)] ∧
    (Atomic.turns (fun h => execProg exEnv (ofHistory h [])) ⟨S.mem, S.own, S.results⟩ (visible es)).results false =
      [.ok [.ok (.bool true)]] := by
  refine ⟨exStart, .turn (.enter true [.ctorInPlace 20 (lit 5#8)] (fun _ => False) (· = 20)) :: (List.replicate 30 (.turn (.step true)) ++
    (.turn (.leave true) :: .turn (.enter false [.hasValue 20] (fun _ => False) (· = 20)) :: (List.replicate 30 (.turn (.step false)) ++
    [.turn (.leave false)]))), fun _ => rfl, ?_, ?_, ?_, ?_⟩
  · refine ⟨⟨rfl, ?_, nofun⟩, ?_⟩
    · exact ofHistory_within _ _ (by simp [HistoryUses, Op.reads, Op.writes, lit, Arg.reads, Arg.writes])
    · refine visible_replicate _ _ _ ⟨trivial, ⟨?_, ?_, fun u s hs => ?_⟩, visible_replicate _ _ _ ⟨trivial, trivial⟩⟩
      · exact Option.isNone_iff_eq_none.mp (by decide +kernel)
      · exact ofHistory_within _ _ (by simp [HistoryUses, Op.reads, Op.writes])
      · refine (not_some ?_ hs).elim
        cases u <;> decide +kernel
  · intro e he
    simp only [List.mem_cons, List.mem_append, List.mem_replicate, List.not_mem_nil, or_false] at he
    rcases he with h | ⟨-, h⟩ | h | h | ⟨-, h⟩ | h <;> exact ⟨_, h⟩
  all_goals decide +kernel

end
end Verif.Props
