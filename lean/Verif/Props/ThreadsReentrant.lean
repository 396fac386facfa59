import Verif.Lemmas.ThreadsReentrant
import Verif.Props.Reentrant

/-! # C61, C62: threads with user code that calls the library -/

namespace Verif.Props
open Verif Verif.Model Verif.Spec

section
variable {V G α : Type}

/-- C61. The code that runs in single steps is the code of C62. -/
theorem C61_same_code_reentrant (Γ : Env V G) (p : Prog V G α) (w : World V G) : (Steps.runProg Γ p).exec w = runProg Γ p w :=
  congrFun (toM_runProg Γ p) w

/-- C61. Library functions add nothing to the footprint of the program and of the user code that they call: at every step, whatever
other threads do meanwhile, only optionals that some call in it names are accessed, and only those that it may modify are written. -/
theorem C61_footprint_reentrant (Γ : Env V G) {R W : Nat → Prop} (p : Prog V G α) (hp : p.Within R W) {q : Steps.M V G α}
    (h : Later (Steps.runProg Γ p) q) (x : Nat) : (q.reads = some x → R x ∨ W x) ∧ (q.writes = some x → W x) := by
  have hf := Fits.later h (Fits.runProg Γ p hp)
  cases q with
  | read y k => exact ⟨fun e => Option.some.inj e ▸ hf.1, nofun⟩
  | write y s k => exact ⟨nofun, fun e => Option.some.inj e ▸ hf.1⟩
  | done r => exact ⟨nofun, nofun⟩
  | fresh k => exact ⟨nofun, nofun⟩
  | event e k => exact ⟨nofun, nofun⟩
  | user f k => exact ⟨nofun, nofun⟩
end

section
variable {T V G α : Type} [DecidableEq T] {Γ : Env V G} {R W : T → Nat → Prop}

/-- The threads at the start: `P t` is the program of thread `t`. -/
def startProgs (Γ : Env V G) (P : T → Prog V G α) (mem : Nat → Option (Storage V)) (own : T → Own G) : Threads T V G α :=
  ⟨mem, fun t => Steps.runProg Γ (P t), own⟩

omit [DecidableEq T] in
private theorem start_fits {P : T → Prog V G α} (hP : ∀ t, (P t).Within (R t) (W t)) {mem own} (t : T) :
    Fits (R t) (W t) ((startProgs Γ P mem own).prog t) := Fits.runProg Γ (P t) (hP t)

/-- C61. If no thread modifies what another one uses, itself or in the user code that the library calls in it, then no data race
occurs. -/
theorem C61_no_race_reentrant (hc : Compatible R W) {P : T → Prog V G α} (hP : ∀ t, (P t).Within (R t) (W t))
    (mem : Nat → Option (Storage V)) (own : T → Own G) (σ : List T) : ¬Race ((startProgs Γ P mem own).after σ) :=
  no_race hc (start_fits hP) σ

/-- C61. A thread that is finished has the result, the user state and the objects that it would have had if it had run alone, and
the optionals that it uses have the same contents. -/
theorem C61_isolated_reentrant (hc : Compatible R W) {P : T → Prog V G α} (hP : ∀ t, (P t).Within (R t) (W t))
    (mem : Nat → Option (Storage V)) (own : T → Own G) (σ : List T) {t : T} {r : Res α}
    (hr : ((startProgs Γ P mem own).after σ).prog t = .done r) :
    ∃ w, runProg Γ (P t) ((own t).view mem) = (r, w) ∧ w.own = ((startProgs Γ P mem own).after σ).own t ∧
      ∀ x, R t x ∨ W t x → ((startProgs Γ P mem own).after σ).mem x = w.mem x := by
  obtain ⟨w, h1, h2⟩ := isolated hc (start_fits hP) σ hr
  exact ⟨w, by rw [← toM_runProg]; exact h1, h2⟩

/-- C61. Every thread finishes after a fixed number of its own steps, whatever the others do. -/
theorem C61_finishes_reentrant (hc : Compatible R W) {P : T → Prog V G α} (hP : ∀ t, (P t).Within (R t) (W t))
    (mem : Nat → Option (Storage V)) (own : T → Own G) (t : T) :
    ∃ n, ∀ σ : List T, n ≤ σ.count t → ∃ r, ((startProgs Γ P mem own).after σ).prog t = .done r :=
  finishes hc (start_fits hP) t

/-- C61. Two schedules after which all threads are finished lead to the same state. -/
theorem C61_deterministic_reentrant (hc : Compatible R W) {P : T → Prog V G α} (hP : ∀ t, (P t).Within (R t) (W t))
    (mem : Nat → Option (Storage V)) (own : T → Own G) (σ τ : List T)
    (hσ : ∀ t, ∃ r, ((startProgs Γ P mem own).after σ).prog t = .done r)
    (hτ : ∀ t, ∃ r, ((startProgs Γ P mem own).after τ).prog t = .done r) :
    (startProgs Γ P mem own).after σ = (startProgs Γ P mem own).after τ :=
  deterministic hc (start_fits hP) σ τ hσ hτ

/-- C62 with C61: threads with re-entrant programs on optionals of their own get, under every schedule, the outcomes that `std::optional`
prescribes for each of them, and their optionals have the contents that it prescribes. Missing: what is missing in
`C62_reentrant_partial`. -/
theorem C62_threads_partial (hΓ : EnvWF Γ) {P : T → Prog V G α} (hp : ∀ t, ProgOK Γ (P t)) {g : T → G} {r : T → SRes α}
    {sw : T → SWorld V G} (hs : ∀ t, specProg (fun x => (Γ x).ops) (exclusions Γ) [] (P t) (.init (g t)) = (r t, sw t))
    (hu : ∀ t, r t ≠ .undef) (ht : ∀ t, NoReserved Γ (sw t).trace) {W : T → Nat → Prop}
    (hP : ∀ t, (P t).Within (fun _ => False) (W t)) (hd : ∀ t u x, t ≠ u → W t x → ¬W u x) :
    let S := startProgs Γ P (fun _ => none) fun t => ⟨0, [], g t⟩
    ∀ σ : List T, ¬Race (S.after σ) ∧ ∀ t, (∃ n, ∀ τ : List T, n ≤ τ.count t → ∃ q, (S.after τ).prog t = .done q) ∧
      ∀ q, (S.after σ).prog t = .done q → q = SResToRes (r t) ∧ ((S.after σ).own t).user = (sw t).user ∧
        (∀ id, leaked ((S.after σ).own t).log id = 0) ∧ ∃ w, Sees Γ w (sw t) ∧ ∀ x, W t x → (S.after σ).mem x = w.mem x := by
  intro S σ
  have hc : Compatible (T := T) (fun _ _ => False) W := fun t u htu x hx => ⟨id, hd t u x htu hx⟩
  refine ⟨C61_no_race_reentrant hc hP _ _ σ, fun t => ⟨C61_finishes_reentrant hc hP _ _ t, fun q hq => ?_⟩⟩
  obtain ⟨w, h1, h2, h3⟩ := C61_isolated_reentrant hc hP _ _ σ hq
  have hv : (Own.view ⟨0, [], g t⟩ fun _ => none : World V G) = .init (g t) := rfl
  obtain ⟨d1, d2, d3⟩ := C62_reentrant_partial hΓ (P t) (hp t) (g t) (hs t) (hu t) (ht t)
  rw [hv] at h1
  rw [h1] at d1 d2 d3
  refine ⟨d1, ?_, fun id => ?_, w, d2, fun x hx => h3 x (.inr hx)⟩
  · rw [← h2]
    exact d2.1
  · rw [← h2]
    exact d3 id

end

/-! ### Concrete cases -/

section
open Verif.Examples

private abbrev P (α : Type) := Prog (BitVec 8) (List String) α

private def done : Except Exn Unit → P Unit := fun r => .ret r

/-- Thread `false` transforms the optional 20 to 25, with a callable that resets 22, whose destructor looks at 20 again. Thread `true`
hashes 20, with a hash function that compares 20 with itself, and copies it to 26. -/
private def exProgs : Bool → P Unit
  | false => .transform false 20 25
      (.reset 22 (fun _ => .call (.hasValue 20) fun _ => .ret (.ok ())) fun _ => .ret (.ok 9#8)) done
  | true => .inspect .hash 20 (fun v => .compare (.rel .eq) 20 20 (fun a b => .ret (.ok (a == b))) fun _ => .ret (.ok v.toNat)) fun _ =>
      .transfer false 26 20 (.call (.deref 20) fun r => .ret (match r with | .ok (.val v) => .ok v | _ => .ok 0#8)) done

private def exR : Bool → Nat → Prop := fun _ x => x = 20

private def exW : Bool → Nat → Prop
  | false, x => x = 25 ∨ x = 22
  | true, x => x = 26

private theorem ex_compatible : Compatible exR exW := by
  rintro (_ | _) (_ | _) h x hx <;> simp_all [exR, exW] <;> omega

private theorem ex_within (t : Bool) : (exProgs t).Within (exR t) (exW t) := by
  cases t <;> simp [exProgs, Prog.Within, exR, exW, Op.reads, Op.writes, done]

private def exOwn (t : Bool) : Own (List String) := ⟨if t then 100 else 200, [], []⟩

/-- the two threads -/
local notation "exS" => startProgs exEnv exProgs exWorld.mem exOwn

example (σ : List Bool) : ¬Race (Threads.after exS σ) := C61_no_race_reentrant ex_compatible ex_within _ _ σ

private def exAlternating : List Bool := (List.replicate 60 [true, false]).flatten

private def exSequential : List Bool := List.replicate 60 false ++ List.replicate 60 true

private def finished (S : Threads Bool (BitVec 8) (List String) Unit) (t : Bool) : Bool :=
  match S.prog t with
  | .done (.ok ()) => true
  | _ => false

private theorem done_of_finished {S : Threads Bool (BitVec 8) (List String) Unit} {t : Bool} (h : finished S t = true) :
    S.prog t = .done (.ok ()) := by
  unfold finished at h
  split at h
  · assumption
  · cases h

private theorem ex_done (t : Bool) : (Threads.after exS exAlternating).prog t = .done (.ok ()) ∧ (Threads.after exS exSequential).prog t = .done (.ok ()) := by
  have h : (finished (Threads.after exS exAlternating) t && finished (Threads.after exS exSequential) t) = true := by
    cases t <;> decide +kernel
  rw [Bool.and_eq_true] at h
  exact ⟨done_of_finished h.1, done_of_finished h.2⟩

example := C61_isolated_reentrant (Γ := exEnv) ex_compatible ex_within exWorld.mem exOwn exAlternating (t := false) (r := .ok ()) (ex_done false).1
example := C61_finishes_reentrant (Γ := exEnv) ex_compatible ex_within exWorld.mem exOwn true
example : Threads.after exS exAlternating = Threads.after exS exSequential :=
  C61_deterministic_reentrant (Γ := exEnv) ex_compatible ex_within exWorld.mem exOwn exAlternating exSequential (fun t => ⟨.ok (), (ex_done t).1⟩) fun t => ⟨.ok (), (ex_done t).2⟩
example := C61_same_code_reentrant exEnv (exProgs false) exWorld
example := C61_footprint_reentrant exEnv (exProgs false) (ex_within false) (.step (.step .start exWorld) exWorld) 20

/-- `Compatible` is needed: user code in one thread resets what the other thread looks at. -/
example : ∃ σ, Race ((startProgs exEnv (fun t : Bool => if t then .transform false 22 25 (.reset 20 (fun _ => .ret (.ok ())) fun _ => .ret (.ok 9#8)) done
    else .call (.hasValue 20) fun _ => .ret (.ok ())) exWorld.mem exOwn).after σ) :=
  ⟨List.replicate 16 true, true, false, 20, by decide, rfl, .inl rfl⟩

/-- Programs on optionals of their own: constructors that build other optionals on the way, and one that throws. -/
private def exOwnProgs : Bool → P Unit
  | false => .construct 20 false (.construct 21 true (.ret (.ok 7#8)) fun _ => .ret (.ok 5#8)) fun _ =>
      .reset 20 (fun _ => .reset 21 (fun _ => .user (· ++ ["inner"]) fun _ => .ret (.ok ())) done) done
  | true => .construct 10 false (.construct 11 true (.ret (.ok 7#8)) fun _ => .ret (.error (.user 3))) done

private def exUses : Bool → Nat → Prop
  | false, x => x = 20 ∨ x = 21
  | true, x => x = 10 ∨ x = 11

private def exSpecs (t : Bool) := specProg (fun x => (env (List String) throwingOps false x).ops) (exclusions (env _ throwingOps false)) [] (exOwnProgs t)
  (.init [])

private theorem exSpecs_trace (t : Bool) : (exSpecs t).2.trace = if t then [(11, 7#8)] else [(21, 7#8), (20, 5#8)] := by
  cases t <;> decide +kernel

example := C62_threads_partial (env_wf throwingOps_lawful false) (P := exOwnProgs) (W := exUses) (g := fun _ => [])
  (r := fun t => (exSpecs t).1) (sw := fun t => (exSpecs t).2)
  (fun t => by cases t <;> simp [exOwnProgs, ProgOK, done])
  (fun t => (Prod.eta (exSpecs t)).symm)
  (fun t => by cases t <;> decide +kernel)
  (fun t => by
    rw [exSpecs_trace]
    cases t <;> simp [NoReserved, Config.Storable, Config.loc, byteRepr, env, sepCfg, sentCfg, patCfg, customCfg])
  (fun t => by cases t <;> simp [exOwnProgs, Prog.Within, exUses, done])
  (by rintro (_ | _) (_ | _) x h <;> simp_all [exUses] <;> omega)

/-- What `std::optional` prescribes for them. -/
example : (exSpecs true).1 = .throw (.user 3) ∧ (exSpecs false).1 = .ok () ∧ (exSpecs false).2.user = ["inner"] ∧
    (exSpecs true).2.vars 11 = some (some 7#8) := by decide +kernel

end
end Verif.Props
