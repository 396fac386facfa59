import Verif.Props.Member
import Verif.Props.Refinement
import Verif.Props.Lifetime

/-!
# C49: every type that compiles is a drop-in replacement
-/

namespace Verif.Props
open Verif Verif.Model Verif.Spec Verif.Examples

variable {P : Model.Prog} {V G : Type} {S : Sem V}

/-- The variable that is inspected to find out whether an optional is empty: its type, and its value in the payload `v`. -/
def flagVariable (S : Sem V) (i : Inst) (v : V) : Kind × V :=
  match i.decomp with
  | .viaMember p => (p.var.kind, S.get p.cls p.idx v)
  | _ => (i.payload.kind, v)

/-- What the documentation demands of a value that is stored: the variable used for the flag has not the reserved value
(respectively bit pattern). -/
def MayStore (S : Sem V) (i : Inst) (v : V) : Prop :=
  let (k, m) := flagVariable S i v
  match i.manip with
  | .separate => True
  | .bits b => (∀ j, j < b.length → ∃ c, S.repr k m j = some c) ∧ ∃ j, ∃ _ : j < b.length, S.repr k m j ≠ some b[j]
  | .assign t s => S.eq t m (S.const t s) = false
  | .user id => (S.user id).1 m = false

/-- The types of the variables of a program, as the user wrote them (`e`) and as the compiler instantiates them (`i`). -/
structure Compiled (P : Model.Prog) (S : Sem V) (e : Nat → Entry) (i : Nat → Inst) : Prop where
  accepted : ∀ x, compile P (e x) = .ok (i x)
  valid : ∀ x, (e x).Valid S
  reflexive : ∀ x, (i x).Reflexive S

/-- The environment of such a program: `ops` are the operations of the payload types. -/
def progEnv (S : Sem V) (i : Nat → Inst) (ops : Nat → Ops V G) (ndebug : Bool) : Env V G :=
  fun x => ⟨S.config (i x) ndebug, ops x⟩

theorem mayStore_storable (hS : S.Lawful P) {e : Entry} {i : Inst} (h : compile P e = .ok i) (hv : e.Valid S) {nd : Bool}
    {v : V} (hm : MayStore S i v) : (S.config i nd).Storable v := by
  unfold MayStore flagVariable at hm
  cases hd : i.decomp with
  | viaMember p =>
    obtain ⟨hsep, hbits⟩ := member_matched hS h hd
    obtain ⟨h1, h2⟩ := compile_member h hv p hd
    have hl := config_loc (S := S) (nd := nd) hd
    have hb : ∀ j, j < (S.extent p.var.kind).size →
        (S.config i nd).repr v (S.offset p.cls p.idx + j) = S.repr p.var.kind (S.get p.cls p.idx v) j := by
      intro j hj
      show S.repr i.payload.kind v _ = _
      rw [h1]
      exact member_bytes hS h2 v hj
    have hoff : (S.config i nd).loc.off = S.offset p.cls p.idx := by rw [hl]; rfl
    have hproj : (S.config i nd).loc.proj v = S.get p.cls p.idx v := by rw [hl]; rfl
    simp only [hd] at hm
    unfold Config.Storable
    rw [hoff, hproj, show (S.config i nd).manip = S.manip i.manip from rfl]
    cases hmm : i.manip with
    | separate => exact absurd hmm hsep
    | bits b =>
      have hbl := hbits b hmm
      simp only [hmm] at hm
      refine ⟨fun j hj => by rw [hb j (by omega)]; exact hm.1 j hj, ?_⟩
      obtain ⟨j, hj, hne⟩ := hm.2
      exact ⟨j, hj, by rw [hb j (by omega)]; exact hne⟩
    | assign k c => simp only [hmm] at hm; exact hm
    | user id => simp only [hmm] at hm; exact hm
  | inplace =>
    have hl : (S.config i nd).loc = ⟨0, (S.config i nd).size, (S.config i nd).repr, id⟩ := by
      simp [Config.loc, Sem.config, Sem.decomp, hd]
    simp only [hd] at hm
    unfold Config.Storable
    rw [hl, show (S.config i nd).manip = S.manip i.manip from rfl]
    cases hmm : i.manip <;> simp only [hmm, Sem.manip, Nat.zero_add] at hm ⊢ <;> exact hm
  | separate =>
    have hl : (S.config i nd).loc = ⟨0, (S.config i nd).size, (S.config i nd).repr, id⟩ := by
      simp [Config.loc, Sem.config, Sem.decomp, hd]
    simp only [hd] at hm
    unfold Config.Storable
    rw [hl, show (S.config i nd).manip = S.manip i.manip from rfl]
    cases hmm : i.manip <;> simp only [hmm, Sem.manip, Nat.zero_add] at hm ⊢ <;> exact hm

theorem progEnv_wf (hS : S.Lawful P) {e i} (hc : Compiled P S e i) {ops : Nat → Ops V G} (hops : ∀ x, (ops x).Lawful)
    (nd : Bool) : EnvWF (progEnv S i ops nd) :=
  ⟨fun x => C28_wf hS (hc.accepted x) (hc.valid x) (hc.reflexive x) nd, hops⟩

/-- C49. `e`: the optional types of the variables as written in the program, accepted by the compiler. Every history that
type-checks, has a meaning for `std::optional` and stores only values that the documentation allows (and is not the
exception of C17) gives the results of `std::optional`; none of its calls aborts; no payload is leaked or destroyed
twice, and all are destroyed when all optionals are. -/
theorem C49_drop_in (hS : S.Lawful P) {e : Nat → Entry} {i : Nat → Inst} (hc : Compiled P S e i) {ops : Nat → Ops V G}
    (hops : ∀ x, (ops x).Lawful) (nd : Bool) {g : G} {h : List (Op V G)} {rs sw}
    (hop : ∀ op ∈ h, OpOK (progEnv S i ops nd) op) (hr : specRun ops h (.init g) = some (rs, sw))
    (hst : ∀ p ∈ sw.trace, MayStore S (i p.1) p.2) (h17 : ∀ p ∈ h.zip rs, StepOK p.1 p.2) :
    let out := run (progEnv S i ops nd) h (.init g)
    out.1 = rs.map SResToRes ∧ Sees (progEnv S i ops nd) out.2 sw ∧ (∀ r ∈ out.1, ∀ a, r ≠ .abort a) ∧
    (∀ id, leaked out.2.log id = 0 ∧ destroyed out.2.log id ≤ created out.2.log id) ∧
    ((∀ x, Absent x out.2) → ∀ id, destroyed out.2.log id = created out.2.log id) := by
  intro out
  have hΓ := progEnv_wf hS hc hops nd
  have hL : Legal (progEnv S i ops nd) g h rs sw :=
    ⟨hop, hr, fun p hp => mayStore_storable hS (hc.accepted p.1) (hc.valid p.1) (hst p hp), h17⟩
  obtain ⟨h1, h2⟩ := C01_drop_in hΓ hL
  refine ⟨h1, h2, (C02_no_abort hΓ hL).2, fun id => ⟨(C03_balance hΓ hL).1 id, ?_⟩, fun hd => C03_all_destroyed hΓ hL hd⟩
  have := ((C03_accounting (progEnv S i ops nd) h g id).1 _ (List.prefix_refl _)).2
  show destroyed (run _ h _).2.log id ≤ created (run _ h _).2.log id
  omega

/-- Of values that the documentation forbids, the optional cannot be told from an empty one: `MayStore` is not too strict.
(Bit patterns: if the bytes of the flag variable are determinate.) -/
theorem C49_sharp (hS : S.Lawful P) {e : Entry} {i : Inst} (h : compile P e = .ok i) (hv : e.Valid S) (nd : Bool) (v : V)
    (hdet : ∀ b, i.manip = .bits b → ∀ j, j < b.length →
      ∃ c, S.repr (flagVariable S i v).1 (flagVariable S i v).2 j = some c) :
    MayStore S i v ∨ (S.config i nd).Reserved v := by
  have hman : (S.config i nd).manip = S.manip i.manip := rfl
  -- bytes and value of the flag variable as seen by the configuration
  have hview : (S.config i nd).loc.proj v = (flagVariable S i v).2 ∧ ∀ b, i.manip = .bits b → ∀ j, j < b.length →
      (S.config i nd).repr v ((S.config i nd).loc.off + j) = S.repr (flagVariable S i v).1 (flagVariable S i v).2 j := by
    cases hd : i.decomp with
    | viaMember p =>
      obtain ⟨h1, h2⟩ := compile_member h hv p hd
      have hl := config_loc (S := S) (nd := nd) hd
      refine ⟨by rw [hl]; simp only [flagVariable, hd]; rfl, fun b hb j hj => ?_⟩
      have := (member_matched hS h hd).2 b hb
      rw [hl]
      simp only [flagVariable, hd]
      show S.repr i.payload.kind v (S.offset p.cls p.idx + j) = _
      rw [h1]
      exact member_bytes hS h2 v (by omega)
    | inplace =>
      have hl : (S.config i nd).loc = ⟨0, (S.config i nd).size, (S.config i nd).repr, id⟩ := by
        simp [Config.loc, Sem.config, Sem.decomp, hd]
      refine ⟨by rw [hl]; simp only [flagVariable, hd]; rfl, fun b _ j _ => ?_⟩
      rw [hl]
      simp only [flagVariable, hd, Nat.zero_add]
      rfl
    | separate =>
      have hl : (S.config i nd).loc = ⟨0, (S.config i nd).size, (S.config i nd).repr, id⟩ := by
        simp [Config.loc, Sem.config, Sem.decomp, hd]
      refine ⟨by rw [hl]; simp only [flagVariable, hd]; rfl, fun b _ j _ => ?_⟩
      rw [hl]
      simp only [flagVariable, hd, Nat.zero_add]
      rfl
  unfold MayStore Config.Reserved
  rw [hman, hview.1]
  generalize hfv : flagVariable S i v = fv at hview hdet ⊢
  obtain ⟨k, m⟩ := fv
  cases hm : i.manip with
  | separate => exact .inl trivial
  | bits b =>
    simp only [Sem.manip]
    by_cases hex : ∃ j, ∃ _ : j < b.length, S.repr k m j ≠ some b[j]
    · exact .inl ⟨hdet b hm, hex⟩
    · refine .inr fun j hj => ?_
      rw [hview.2 b hm j hj]
      exact Classical.byContradiction fun hne => hex ⟨j, hj, hne⟩
  | assign t s =>
    simp only [Sem.manip]
    cases S.eq t m (S.const t s) <;> simp
  | user id =>
    simp only [Sem.manip]
    cases (S.user id).1 m <;> simp

/-- The variables of an example program: 0 is a `tiny::optional<S, &S::b>`, 1 a `tiny::optional<int, -1>`, 2 a
`tiny::optional<int>`, all others `tiny::optional<double>`. -/
def exEntries : Nat → Entry
  | 0 => .optional (Kind.cls 7).plain (.memPtr ⟨7, Kind.bool.plain, 2, false, 0⟩) (.useDefault 0)
  | 1 => .optional exInt.plain (.const ⟨exInt, -1⟩) (.useDefault 0)
  | 2 => .optional exInt.plain (.useDefault 0) (.useDefault 0)
  | _ => .optional (Kind.flt 1).plain (.useDefault 0) (.useDefault 0)

def exInsts : Nat → Inst
  | 0 => ⟨(Kind.cls 7).plain, .viaMember ⟨7, Kind.bool.plain, 2, false, 0⟩, .bits [0xfe#8]⟩
  | 1 => ⟨exInt.plain, .inplace, .assign exInt (-1)⟩
  | 2 => ⟨exInt.plain, .separate, .separate⟩
  | _ => ⟨(Kind.flt 1).plain, .inplace, .bits (bytesLE 8 sentinelDouble)⟩

theorem ex_compiled : Compiled (exProg exSettings) exSem exEntries exInsts where
  accepted
    | 0 | 1 | 2 | _ + 3 => rfl
  valid
    | 0 => fun _ => by decide
    | 1 | 2 | _ + 3 => trivial
  reflexive
    | 0 | 2 | _ + 3 => trivial
    | 1 => by show exSem.eq _ _ _ = true; rfl

/-- A history on them: 1 := 5, 2 := -1 (reserved for 1, not for 2), 0 := a value whose `b` is true, reset of 0. -/
def endHistory : List (Op ExVal Unit) :=
  [.ctorInPlace 1 (.ext true fun g => (.ok fun _ => 5#64, g)), .ctorInPlace 2 (.ext true fun g => (.ok fun _ => -1#64, g)),
   .ctorDefault 0, .emplace 0 (.ext true fun g => (.ok fun _ => 1#64, g)), .reset 0, .hasValue 0, .hasValue 2]

theorem endHistory_legal : ∃ sw, (∀ op ∈ endHistory, OpOK (progEnv exSem exInsts (fun _ => scalarOps) false) op) ∧
    specRun (fun _ => scalarOps) endHistory (.init ()) =
      some ([.ok .unit, .ok .unit, .ok .unit, .ok (.val fun _ => 1#64), .ok .unit, .ok (.bool false), .ok (.bool true)], sw) ∧
    (∀ p ∈ sw.trace, MayStore exSem (exInsts p.1) p.2) ∧
    ∀ p ∈ endHistory.zip [.ok .unit, .ok .unit, .ok .unit, .ok (.val fun _ => 1#64), .ok .unit, .ok (.bool false), .ok (.bool true)],
      StepOK p.1 p.2 := by
  refine ⟨_, ?_, rfl, ?_, ?_⟩
  · intro op hop
    simp only [endHistory, List.mem_cons, List.not_mem_nil, or_false] at hop
    rcases hop with rfl | rfl | rfl | rfl | rfl | rfl | rfl <;> first | exact trivial | exact fun _ _ => ⟨_, rfl⟩
  · intro p hp
    have hp' : p = (1, fun _ => 5#64) ∨ p = (2, fun _ => -1#64) ∨ p = (0, fun _ => 1#64) := by
      simpa [SWorld.init] using hp
    rcases hp' with rfl | rfl | rfl
    · show exSem.eq _ _ _ = false
      rfl
    · trivial
    · refine ⟨fun j hj => ?_, 0, by decide, by decide⟩
      have : j = 0 := by simpa using hj
      subst this
      exact ⟨1#8, by decide⟩
  · rintro ⟨op, r⟩ hp
    have hop := (List.of_mem_zip hp).1
    simp only [endHistory, List.mem_cons, List.not_mem_nil, or_false] at hop
    rcases hop with rfl | rfl | rfl | rfl | rfl | rfl | rfl <;> trivial

/-- `C49_drop_in` for it. -/
example : (run (progEnv exSem exInsts (fun _ => scalarOps) false) endHistory (.init ())).1 =
    [.ok .unit, .ok .unit, .ok .unit, .ok (.val fun _ => 1#64), .ok .unit, .ok (.bool false), .ok (.bool true)] := by
  obtain ⟨sw, hop, hr, hst, h17⟩ := endHistory_legal
  exact (C49_drop_in (exSem_lawful exSettings rfl) ex_compiled (fun _ => scalarOps_lawful) false hop hr hst h17).1

/-- `C49_sharp` for the value -1 of the `optional<int, -1>`. -/
example : MayStore exSem (exInsts 1) (fun _ => -1#64) ∨ (exSem.config (exInsts 1) false).Reserved (fun _ => -1#64) :=
  C49_sharp (exSem_lawful exSettings rfl) (ex_compiled.accepted 1) (ex_compiled.valid 1) false _ (by intro b h; cases h)

end Verif.Props
