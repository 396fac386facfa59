import Verif.Lemmas.Threads
import Verif.Props.Refinement

/-! # C61: threads -/

namespace Verif.Props
open Verif Verif.Model

section
variable {V G α : Type} {Γ : Env V G}

/-- C61. The code that runs in single steps is the code of all other claims: without interruption, every call has the outcome and
the effect that it has there. -/
theorem C61_same_code (Γ : Env V G) (c : LibCall V G α) (w : World V G) : (Steps.execCall Γ c).exec w = execCall Γ c w :=
  congrFun (toM_execCall Γ c) w

/-- C61. A call touches no memory except that of the optionals that it was given, and writes only to those that it may modify:
at every step, whatever other threads do to the memory meanwhile. -/
theorem C61_footprint (Γ : Env V G) (c : LibCall V G α) {q : Steps.M V G α} (h : Later (Steps.execCall Γ c) q) (x : Nat) :
    (q.reads = some x → x ∈ c.reads ∨ x ∈ c.writes) ∧ (q.writes = some x → x ∈ c.writes) := by
  have hf := Fits.later h (Fits.execCall (R := (· ∈ c.reads)) (W := (· ∈ c.writes)) Γ c (fun _ => .inl) fun _ => id)
  cases q with
  | read y k => exact ⟨fun e => Option.some.inj e ▸ hf.1, nofun⟩
  | write y s k => exact ⟨nofun, fun e => Option.some.inj e ▸ hf.1⟩
  | done r => exact ⟨nofun, nofun⟩
  | fresh k => exact ⟨nofun, nofun⟩
  | event e k => exact ⟨nofun, nofun⟩
  | user f k => exact ⟨nofun, nofun⟩

/-- C61. Const member functions, comparisons and `std::hash` write to no optional at all. -/
theorem C61_const (Γ : Env V G) (c : LibCall V G α) (hc : c.writes = []) {q : Steps.M V G α} (h : Later (Steps.execCall Γ c) q) :
    q.writes = none := by
  rcases e : q.writes with _ | x
  · rfl
  · have := (C61_footprint Γ c h x).2 e
    rw [hc] at this
    cases this

/-- C61. The overloads of `and_then` for const optionals, which are separate code, do what the others do with a function that does
not change its argument. -/
theorem C61_and_then_const (hΓ : EnvWF Γ) {w : World V G} (hw : Reach Γ w) (x dst : Nat) (f : V → G → Except Exn (Option V) × G) :
    andThenConst Γ x dst f w = andThen Γ x dst (fun v g => ((f v g).1, v, (f v g).2)) w := by
  obtain ⟨sw, hR, _⟩ := hw.rel hΓ
  exact andThenConst_eq hΓ hR f

/-- C61. Likewise for `transform`. -/
theorem C61_transform_const (hΓ : EnvWF Γ) {w : World V G} (hw : Reach Γ w) (nt : Bool) (x dst : Nat) (f : V → G → Except Exn V × G) :
    transformConst Γ nt x dst f w = transform Γ nt x dst (fun v g => ((f v g).1, v, (f v g).2)) w := by
  obtain ⟨sw, hR, _⟩ := hw.rel hΓ
  exact transformConst_eq hΓ hR nt f
end

section
variable {T V G α : Type} [DecidableEq T] {Γ : Env V G} {R W : T → Nat → Prop}

/-- The threads at the start: `P t` is the program of thread `t`. -/
def start (Γ : Env V G) (P : T → TProg V G α) (mem : Nat → Option (Storage V)) (own : T → Own G) : Threads T V G α :=
  ⟨mem, fun t => Steps.execProg Γ (P t), own⟩

omit [DecidableEq T] in
private theorem start_fits {P : T → TProg V G α} (hP : ∀ t, (P t).Within (R t) (W t)) {mem own} (t : T) :
    Fits (R t) (W t) ((start Γ P mem own).prog t) := Fits.execProg Γ (P t) (hP t)

/-- C61. If no thread modifies what another one uses, then no data race occurs: for all programs, all starting states, all
schedules, at all times. -/
theorem C61_no_race (hc : Compatible R W) {P : T → TProg V G α} (hP : ∀ t, (P t).Within (R t) (W t)) (mem : Nat → Option (Storage V))
    (own : T → Own G) (σ : List T) : ¬Race ((start Γ P mem own).after σ) :=
  no_race hc (start_fits hP) σ

/-- C61. A thread that is finished has the result, the user state and the objects that it would have had if it had run alone, and
the optionals that it uses have the same contents; for all schedules. -/
theorem C61_isolated (hc : Compatible R W) {P : T → TProg V G α} (hP : ∀ t, (P t).Within (R t) (W t)) (mem : Nat → Option (Storage V))
    (own : T → Own G) (σ : List T) {t : T} {r : Res α} (hr : ((start Γ P mem own).after σ).prog t = .done r) :
    ∃ w, execProg Γ (P t) ((own t).view mem) = (r, w) ∧ w.own = ((start Γ P mem own).after σ).own t ∧
      ∀ x, R t x ∨ W t x → ((start Γ P mem own).after σ).mem x = w.mem x := by
  obtain ⟨w, h1, h2⟩ := isolated hc (start_fits hP) σ hr
  exact ⟨w, by rw [← toM_execProg]; exact h1, h2⟩

/-- C61. Every thread finishes after a fixed number of its own steps, whatever the others do: nothing waits. -/
theorem C61_finishes (hc : Compatible R W) {P : T → TProg V G α} (hP : ∀ t, (P t).Within (R t) (W t)) (mem : Nat → Option (Storage V))
    (own : T → Own G) (t : T) : ∃ n, ∀ σ : List T, n ≤ σ.count t → ∃ r, ((start Γ P mem own).after σ).prog t = .done r :=
  finishes hc (start_fits hP) t

/-- C61. Two schedules after which all threads are finished lead to the same state: same results, same contents of all optionals. -/
theorem C61_deterministic (hc : Compatible R W) {P : T → TProg V G α} (hP : ∀ t, (P t).Within (R t) (W t)) (mem : Nat → Option (Storage V))
    (own : T → Own G) (σ τ : List T) (hσ : ∀ t, ∃ r, ((start Γ P mem own).after σ).prog t = .done r)
    (hτ : ∀ t, ∃ r, ((start Γ P mem own).after τ).prog t = .done r) : (start Γ P mem own).after σ = (start Γ P mem own).after τ :=
  deterministic hc (start_fits hP) σ τ hσ hτ

/-- C61 with C01: threads that execute legal histories on optionals of their own get, under every schedule, the outcomes that
`std::optional` prescribes for each of them, and their optionals have the contents that it prescribes. -/
theorem C61_drop_in (hΓ : EnvWF Γ) {h : T → List (Op V G)} {g : T → G} {rs : T → List (Spec.SRes (Obs V))} {sw : T → Spec.SWorld V G}
    (hL : ∀ t, Legal Γ (g t) (h t) (rs t) (sw t)) (hd : ∀ t u x, t ≠ u → HistoryUses (h t) x → ¬HistoryUses (h u) x) :
    let S := start Γ (fun t => ofHistory (h t) []) (fun _ => none) fun t => ⟨0, [], g t⟩
    ∀ σ : List T, ¬Race (S.after σ) ∧ ∀ t, (∃ n, ∀ τ : List T, n ≤ τ.count t → ∃ r, (S.after τ).prog t = .done r) ∧
      ∀ r, (S.after σ).prog t = .done r → r = .ok ((rs t).map SResToRes) ∧ ((S.after σ).own t).user = (sw t).user ∧
        ∃ w, Sees Γ w (sw t) ∧ ∀ x, HistoryUses (h t) x → (S.after σ).mem x = w.mem x := by
  intro S σ
  have hc : Compatible (T := T) (fun _ _ => False) (fun t => HistoryUses (h t)) := fun t u htu x hx => ⟨id, hd t u x htu hx⟩
  have hP : ∀ t, (ofHistory (h t) [] : TProg V G _).Within (fun _ => False) (HistoryUses (h t)) :=
    fun t => ofHistory_within (h t) [] fun _ => id
  refine ⟨C61_no_race hc hP _ _ σ, fun t => ⟨C61_finishes hc hP _ _ t, fun r hr => ?_⟩⟩
  obtain ⟨w, h1, h2, h3⟩ := C61_isolated hc hP _ _ σ hr
  have hv : (Own.view ⟨0, [], g t⟩ fun _ => none : World V G) = .init (g t) := rfl
  rw [hv, ofHistory_run (h t) [] _ (C02_no_abort hΓ (hL t)).2] at h1
  obtain ⟨e1, e2⟩ := Prod.mk.inj h1
  obtain ⟨d1, d2⟩ := C01_drop_in hΓ (hL t)
  subst e2
  refine ⟨by rw [← e1, d1]; rfl, ?_, _, d2, fun x hx => h3 x (.inr hx)⟩
  rw [← h2]
  exact d2.1

end

/-! ### Concrete cases -/

section
open Verif.Examples

private abbrev G := List String

/-- Thread `false` compares the optional 20 with `std::nullopt` and hashes it; thread `true` asks for the value of 20 and changes
the payload of 24. Both use 20, none modifies it. -/
private def exProgs : Bool → TProg (BitVec 8) G Bool
  | false => .call (.relNullopt 20 .eq) fun r => .call (.hash 20 fun v g => (.ok v.toNat, g)) fun _ =>
      .ret (match r with | .ok b => b | .error _ => true)
  | true => .call (.op (.value 20)) fun r => .call (.op (.modify 24 fun v g => (none, v + 1, g))) fun _ =>
      .ret (match r with | .ok (.val v) => v == 5#8 | _ => false)

private def exR : Bool → Nat → Prop := fun _ x => x = 20

private def exW : Bool → Nat → Prop
  | false, _ => False
  | true, x => x = 24

private theorem ex_compatible : Compatible exR exW := by
  rintro (_ | _) (_ | _) h x hx <;> simp_all [exR, exW]

private theorem ex_within (t : Bool) : (exProgs t).Within (exR t) (exW t) := by
  cases t
  · refine ⟨by simp [LibCall.reads, exR], by simp [LibCall.writes], fun r => ⟨?_, ?_, fun _ => trivial⟩⟩
    · simp [LibCall.reads, exR]
    · simp [LibCall.writes]
  · refine ⟨by simp [LibCall.reads, Op.reads, exR], by simp [LibCall.writes, Op.writes], fun r => ⟨?_, ?_, fun _ => trivial⟩⟩
    · simp [LibCall.reads, Op.reads]
    · simp [LibCall.writes, Op.writes, exW]

private def exOwn (t : Bool) : Own G := ⟨if t then 100 else 200, [], []⟩

/-- The hypotheses of `C61_no_race`, `C61_isolated`, `C61_finishes` and `C61_deterministic` can be met, with an optional that both
threads use. -/
example (σ : List Bool) : ¬Race ((start exEnv exProgs exWorld.mem exOwn).after σ) := C61_no_race ex_compatible ex_within _ _ σ

/-- The steps of the two threads alternate. -/
private def exSchedule : List Bool := [true, false, true, false, true, false, true, false, true, false, true, false, true, false]

private theorem ex_done : ∀ t, ((start exEnv exProgs exWorld.mem exOwn).after exSchedule).prog t = .done (.ok t) := by
  rintro (_ | _) <;> rfl

example : ∃ w, execProg exEnv (exProgs true) ((exOwn true).view exWorld.mem) = (.ok true, w) ∧
    w.own = ((start exEnv exProgs exWorld.mem exOwn).after exSchedule).own true ∧
    ∀ x, exR true x ∨ exW true x → ((start exEnv exProgs exWorld.mem exOwn).after exSchedule).mem x = w.mem x :=
  C61_isolated ex_compatible ex_within _ _ exSchedule (ex_done true)

/-- One thread after the other. -/
private def exSequential : List Bool := List.replicate 12 false ++ List.replicate 12 true

example : (start exEnv exProgs exWorld.mem exOwn).after exSchedule = (start exEnv exProgs exWorld.mem exOwn).after exSequential :=
  C61_deterministic ex_compatible ex_within _ _ _ _ (fun t => ⟨_, ex_done t⟩) fun t => ⟨.ok t, by cases t <;> rfl⟩

example : ∃ n, ∀ σ : List Bool, n ≤ σ.count true → ∃ r, ((start exEnv exProgs exWorld.mem exOwn).after σ).prog true = .done r :=
  C61_finishes ex_compatible ex_within _ _ true

/-- A call with a footprint of two optionals, one of them for reading only. -/
example : (LibCall.op (.ctorCopy 25 20) : LibCall (BitVec 8) G _).reads = [20] ∧
    (LibCall.op (.ctorCopy 25 20) : LibCall (BitVec 8) G _).writes = [25] := ⟨rfl, rfl⟩
example := C61_footprint exEnv (.op (.ctorCopy 25 20)) (.step (.step .start exWorld) exWorld) 20

/-- `C61_const` applies to calls that really read. -/
example : (LibCall.rel 20 22 .lt fun _ a b g => (.ok (a.ult b), g) : LibCall (BitVec 8) G _).writes = [] ∧
    (Steps.execCall exEnv (.rel 20 22 .lt fun _ a b g => (.ok (a.ult b), g))).reads = some 22 := ⟨rfl, rfl⟩
example := C61_const exEnv (.rel 20 22 .lt fun _ a b g => (.ok (a.ult b), g)) rfl (.step (.step .start exWorld) exWorld)

/-- `C61_and_then_const` and `C61_transform_const` in a reachable world, for an optional with a value. -/
example : transformConst exEnv false 20 25 (fun v g => (.ok (v + 1), g ++ ["f"])) exWorld =
    transform exEnv false 20 25 (fun v g => (.ok (v + 1), v, g ++ ["f"])) exWorld :=
  C61_transform_const exEnv_wf ex_reach false 20 25 _

example : andThenConst exEnv 20 25 (fun v g => (.ok (some (v + 1)), g ++ ["f"])) exWorld =
    andThen exEnv 20 25 (fun v g => (.ok (some (v + 1)), v, g ++ ["f"])) exWorld :=
  C61_and_then_const exEnv_wf ex_reach 20 25 _

/-- The hypothesis `Compatible` is needed: if one thread resets the optional that the other one looks at, there is a race. -/
example : ∃ σ, Race ((start exEnv (fun t => if t then .call (.op (.reset 20)) fun _ => .ret () else .call (.op (.hasValue 20)) fun _ => .ret ())
    exWorld.mem exOwn).after σ) :=
  ⟨[true, true, true], true, false, 20, by decide, rfl, .inl rfl⟩

/-- And what happens then depends on the schedule: a thread that found a value may find none when it takes it, and its access
then is undefined behaviour. -/
example : ((start exEnv (fun t => if t then .call (.op (.reset 20)) fun _ => .ret () else .call (.op (.valueOr false 20 fun g => (.ok 0#8, g))) fun _ => .ret ())
    exWorld.mem exOwn).after (false :: List.replicate 20 true ++ [false, false, false])).prog false = .done (.abort (.ub .noObject)) := by
  rfl

/-- Two histories on optionals of their own meet the hypotheses of `C61_drop_in`. -/
private def exHistories : Bool → List (Op (BitVec 8) G)
  | false => [.ctorInPlace 20 (lit 5#8), .assignNullopt 20]
  | true => [.ctorDefault 10, .emplace 10 (lit 7#8), .hasValue 10]

private theorem exHistories_legal (t : Bool) : ∃ rs sw, Legal exEnv [] (exHistories t) rs sw := by
  cases t <;> refine ⟨_, _, ?_, rfl, ?_, ?_⟩ <;> intro p hp <;> simp [Spec.SWorld.init, exHistories] at hp
  · rcases hp with rfl | rfl <;> first | exact trivial | exact lit_lawful _
  · subst hp
    simp [Config.Storable, env, sentCfg, Config.loc]
  · rcases hp with rfl | rfl <;> trivial
  · rcases hp with rfl | rfl | rfl <;> first | exact trivial | exact lit_lawful _
  · subst hp
    simp [Config.Storable, env, patCfg, Config.loc, byteRepr]
  · rcases hp with rfl | rfl | rfl <;> trivial

example := C61_drop_in exEnv_wf (fun t => (exHistories_legal t).choose_spec.choose_spec) (by
  rintro (_ | _) (_ | _) x h <;> simp_all [HistoryUses, exHistories, Op.reads, Op.writes, lit, Arg.reads, Arg.writes])

end
end Verif.Props
