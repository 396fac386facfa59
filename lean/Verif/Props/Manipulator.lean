import Verif.Lemmas.Compare
import Verif.Examples

/-!
# C64: any flag manipulator that fulfils the documented contract works, and the library uses it as documented

`Any.run` executes the library code, compiled from the same text as for all other theorems, with manipulators that are arbitrary
code (`Model/Any`). The contract is stated in `Spec/Manipulator`.
-/

namespace Verif.Props
open Verif Verif.Model Verif.Examples
open Verif.Spec (SWorld SRes specRun specOp RelOp Cmp stdRel stdCmp Answer)
open Verif.Spec.Manipulator (Act Call Phase IsEmpty AnswersEmpty AnswersFull InOrder phases next)
variable {V G : Type}

section
variable {Γ : Any.Env V G}

private theorem run_any (hm : ∀ x, AnswersEmpty (Γ x).cfg.test) (ho : ∀ x, (Γ x).ops.Lawful) {g : G} {h : List (Op V G)}
    {rs sw} (hop : ∀ op ∈ h, Any.OpOK Γ op) (hr : specRun (fun x => (Γ x).ops) h (.init g) = some (rs, sw))
    (hv : ∀ p ∈ sw.trace, AnswersFull (Γ p.1).cfg.test p.2) (hst : ∀ p ∈ h.zip rs, StepOK p.1 p.2) :
    (Any.run Γ h (.init g)).1 = rs.map SResToRes ∧ Any.RW Γ none (Any.run Γ h (.init g)).2 sw :=
  Any.run_sim ⟨hm, ho⟩ hop (Any.R_init g) hr hv hst

/-- C64. Let the manipulator of every optional return true from `is_empty` after `init_empty_flag`, and false for optionals that hold
one of the values that are actually stored. Then every history that type-checks and has a meaning for `std::optional` (`StepOK`: see
C17) has, call by call, the prescribed outcomes, and the caller sees the prescribed optionals. Nothing else is assumed of the
manipulators: `is_empty` may depend on all that ever happened. -/
theorem C64_drop_in (hm : ∀ x, AnswersEmpty (Γ x).cfg.test) (ho : ∀ x, (Γ x).ops.Lawful) {g : G} {h : List (Op V G)}
    {rs sw} (hop : ∀ op ∈ h, Any.OpOK Γ op) (hr : specRun (fun x => (Γ x).ops) h (.init g) = some (rs, sw))
    (hv : ∀ p ∈ sw.trace, AnswersFull (Γ p.1).cfg.test p.2) (hst : ∀ p ∈ h.zip rs, StepOK p.1 p.2) :
    (Any.run Γ h (.init g)).1 = rs.map SResToRes ∧ Any.Sees Γ (Any.run Γ h (.init g)).2 sw := by
  obtain ⟨h1, h2⟩ := run_any hm ho hop hr hv hst
  exact ⟨h1, h2.sees ⟨hm, ho⟩⟩

/-- What has to be in the memory of an optional with the given state. -/
def expected : Option (Option V) → Option (Phase V)
  | none => none
  | some none => some .empty
  | some (some v) => some (.engaged v)

/-- C64. The library calls the functions of the manipulators in the documented order: `init_empty_flag` on raw memory only,
`invalidate_empty_flag` on empty optionals only, payloads are constructed in raw memory only. Between the calls of the public
interface no optional is raw: the flag of every empty optional is initialised, and no flag besides a payload. -/
theorem C64_order (hm : ∀ x, AnswersEmpty (Γ x).cfg.test) (ho : ∀ x, (Γ x).ops.Lawful) {g : G} {h : List (Op V G)}
    {rs sw} (hop : ∀ op ∈ h, Any.OpOK Γ op) (hr : specRun (fun x => (Γ x).ops) h (.init g) = some (rs, sw))
    (hv : ∀ p ∈ sw.trace, AnswersFull (Γ p.1).cfg.test p.2) (hst : ∀ p ∈ h.zip rs, StepOK p.1 p.2) :
    phases (Any.run Γ h (.init g)).2.calls = some fun x => expected (sw.vars x) := by
  obtain ⟨_, h2⟩ := run_any hm ho hop hr hv hst
  rw [h2.order]
  congr 1
  funext x
  rcases hx : sw.vars x with _ | (_ | v)
  · exact h2.absent hx
  · exact h2.emp hx
  · exact (h2.full hx).1

/-- C64. No call aborts. In particular `is_empty` is never called on raw memory, and no assertion fails. -/
theorem C64_no_abort (hm : ∀ x, AnswersEmpty (Γ x).cfg.test) (ho : ∀ x, (Γ x).ops.Lawful) {g : G} {h : List (Op V G)}
    {rs sw} (hop : ∀ op ∈ h, Any.OpOK Γ op) (hr : specRun (fun x => (Γ x).ops) h (.init g) = some (rs, sw))
    (hv : ∀ p ∈ sw.trace, AnswersFull (Γ p.1).cfg.test p.2) (hst : ∀ p ∈ h.zip rs, StepOK p.1 p.2) :
    (Any.run Γ h (.init g)).1.length = h.length ∧ ∀ r ∈ (Any.run Γ h (.init g)).1, ∀ a, r ≠ .abort a := by
  have hdef : ∀ (h : List (Op V G)) (sw₀ : SWorld V G) rs sw,
      specRun (fun x => (Γ x).ops) h sw₀ = some (rs, sw) → ∀ r ∈ rs, r ≠ .undef := by
    intro h
    induction h with
    | nil => intro sw₀ rs sw hr; simp only [specRun, Option.some.injEq, Prod.mk.injEq] at hr; simp [← hr.1]
    | cons op rest ih =>
      intro sw₀ rs sw hr
      simp only [specRun] at hr
      rcases hs : specOp (fun x => (Γ x).ops) op sw₀ with ⟨a | e | _, sw₁⟩ <;> simp only [hs] at hr
      · rcases hr' : specRun (fun x => (Γ x).ops) rest sw₁ with _ | ⟨rs', sw₂⟩ <;> simp only [hr'] at hr
        · simp at hr
        · simp only [Option.some.injEq, Prod.mk.injEq] at hr
          have := ih _ _ _ hr'
          rw [← hr.1]
          intro r hm; rcases List.mem_cons.1 hm with rfl | hm; simp; exact this r hm
      · rcases hr' : specRun (fun x => (Γ x).ops) rest sw₁ with _ | ⟨rs', sw₂⟩ <;> simp only [hr'] at hr
        · simp at hr
        · simp only [Option.some.injEq, Prod.mk.injEq] at hr
          have := ih _ _ _ hr'
          rw [← hr.1]
          intro r hm; rcases List.mem_cons.1 hm with rfl | hm; simp; exact this r hm
      · simp at hr
  rw [(C64_drop_in hm ho hop hr hv hst).1]
  refine ⟨by simp [specRun_length hr], ?_⟩
  intro r hr' a
  obtain ⟨r', hr'', rfl⟩ := List.mem_map.1 hr'
  have := hdef _ _ _ _ hr r' hr''
  cases r' <;> simp_all [SResToRes]

/-- C64. After such a history also comparisons behave as prescribed: the result is fixed and nothing else happens, or the payload's
comparison runs once on the two contained values. -/
theorem C64_compare (hm : ∀ x, AnswersEmpty (Γ x).cfg.test) (ho : ∀ x, (Γ x).ops.Lawful) {g : G} {h : List (Op V G)}
    {rs sw} (hop : ∀ op ∈ h, Any.OpOK Γ op) (hr : specRun (fun x => (Γ x).ops) h (.init g) = some (rs, sw))
    (hv : ∀ p ∈ sw.trace, AnswersFull (Γ p.1).cfg.test p.2) (hst : ∀ p ∈ h.zip rs, StepOK p.1 p.2)
    {x y : Nat} {o p : Option V} (hx : sw.vars x = some o) (hy : sw.vars y = some p) (op : RelOp)
    (cmp : RelOp → UserCmp G V V Bool) :
    let w := (Any.run Γ h (.init g)).2
    let out := Any.optRel (Any.tinyOpt Γ x) (Any.tinyOpt Γ y) op cmp w
    match stdRel op o p with
    | .const r => out = (.ok r, w)
    | .ask a b =>
      out.1 = (match (cmp op a b sw.user).1 with | .ok r => .ok r | .error e => .throw e) ∧
      out.2 = { w with user := (cmp op a b sw.user).2 } := by
  intro w out
  obtain ⟨_, hs⟩ := C64_drop_in hm ho hop hr hv hst
  have shows : ∀ {x o}, sw.vars x = some o → (Any.tinyOpt Γ x).Shows o w := by
    intro x o hx
    cases o with
    | none => exact ⟨((hs.2 x).2.1.2 hx), fun _ h => by simp at h⟩
    | some v => exact ⟨((hs.2 x).2.2 v).2 hx |>.1, fun a ha => by cases ha; exact (((hs.2 x).2.2 v).2 hx).2⟩
  have hu : w.user = sw.user := hs.1
  have := Any.optRel_run (shows hx) (shows hy) op cmp
  rw [← hu]
  show match stdRel op o p with | .const r => out = (.ok r, w) | .ask a b => _
  cases hans : stdRel op o p with
  | const r => rw [hans] at this; exact this
  | ask a b =>
    rw [hans] at this
    have ho : out = Any.userCall (cmp op a b) w := this
    rw [ho]
    unfold Any.userCall
    rcases hc : cmp op a b w.user with ⟨_ | _, g'⟩ <;> simp [hc]

end

/-! ### Manipulators that fulfil the contract -/

/-- A manipulator that does not use the memory of the optional at all: it keeps a list of the addresses of empty optionals, to which
`init_empty_flag` adds, and from which `invalidate_empty_flag` removes an address. Since the library does not tell when an empty
optional ceases to exist, its address stays in the list until it is invalidated at the next use. -/
def table : List (Call V) → List Nat
  | [] => []
  | (x, .init) :: before => x :: table before
  | (x, .invalidate) :: before => (table before).filter (· ≠ x)
  | _ :: before => table before

def tableTest : IsEmpty V G := fun calls x _ => decide (x ∈ table calls)

private theorem table_phases (calls : List (Call V)) : ∀ ph, phases calls = some ph →
    ∀ x, (ph x = some .empty → x ∈ table calls) ∧ (ph x = some .prepared → x ∉ table calls) ∧
      ∀ v, ph x = some (.engaged v) → x ∉ table calls := by
  induction calls with
  | nil => intro ph h x; simp only [phases, Option.some.injEq] at h; subst h; simp
  | cons c before ih =>
    obtain ⟨y, a⟩ := c
    intro ph h x
    simp only [phases] at h
    rcases hb : phases before with _ | ph₀ <;> simp only [hb] at h
    · simp at h
    rcases hn : next a (ph₀ y) with _ | p <;> simp only [hn] at h
    · simp at h
    simp only [Option.some.injEq] at h
    subst h
    obtain ⟨i1, i2, i3⟩ := ih ph₀ hb x
    by_cases hx : x = y
    · subst hx
      simp only [if_true]
      rcases hp : ph₀ x with _ | _ | _ | _ | v <;> cases a <;> simp only [hp, next] at hn <;>
        simp only [Option.some.injEq, reduceCtorEq] at hn <;> subst hn <;> simp_all [table]
    · simp only [if_neg hx]
      cases a <;> simp_all [table]

/-- C64. The table fulfils the contract, and every value of every type can be stored with it. -/
theorem C64_table : AnswersEmpty (tableTest : IsEmpty V G) ∧ ∀ v, AnswersFull (tableTest : IsEmpty V G) v :=
  ⟨fun calls ph x _ h hx => by simpa [tableTest] using (table_phases calls ph h x).1 hx,
   fun v calls ph x _ h hx => by simpa [tableTest] using (table_phases calls ph h x).2.2 v hx⟩

/-- The memory in the given phase if one of the manipulators of `Model/Flag` is used. -/
def image (c : Model.Config V) : Phase V → Storage V
  | .empty => match c.initFlag 0 .raw with
    | .ok (s, _) => s
    | .error _ => .raw
  | .engaged v =>
    { payload := some ⟨0, v⟩, flag := none,
      bytes := fill (fill (fun _ => none) c.size 1 fun _ => some 0#8) 0 c.size (c.repr v) }
  | _ => .raw

/-- `is_empty` of the manipulators of `Model/Flag`, which look at the memory only. -/
def ownTest (c : Model.Config V) : IsEmpty V G := fun calls x _ =>
  match phases calls with
  | none => false
  | some ph =>
    match ph x with
    | none => false
    | some p =>
      match c.isEmpty (image c p) with
      | .ok b => b
      | .error _ => false

private theorem image_emp {c : Model.Config V} (hc : c.WF) : Emp c (image c .empty) := by
  have hin := hc.inside
  unfold image Model.Config.initFlag Emp
  cases hm : c.manip with
  | separate =>
    exact ⟨rfl, rfl, fill_in (b := fun _ => none) (off := c.size) (n := 1) (f := fun _ => some 1#8) (i := 0) (by omega)⟩
  | memcpy sent =>
    have hlen := hc.sentinelFits _ hm
    simp only [Storage.raw, Option.isSome_none, Bool.false_eq_true, or_self, if_false]
    rw [if_neg (by omega)]
    refine ⟨rfl, ⟨_, rfl⟩, fun i hi => ?_⟩
    have := fill_in (b := fun _ => none) (off := c.loc.off) (n := sent.length) (f := fun i => sent[i]?) hi
    simp only [hi, getElem?_pos] at this
    exact this
  | assign sv eq =>
    simp only [Storage.raw, Option.isSome_none, Bool.false_eq_true, or_self, if_false]
    rw [if_neg (by omega)]
    exact ⟨rfl, _, rfl⟩
  | custom p ev =>
    simp only [Storage.raw, Option.isSome_none, Bool.false_eq_true, or_self, if_false]
    rw [if_neg (by omega)]
    exact ⟨rfl, _, rfl⟩

private theorem image_full {c : Model.Config V} {v : V} (hst : c.Storable v) : Full c (image c (.engaged v)) v := by
  refine ⟨⟨_, rfl⟩, rfl, fun i hi => ?_, fun hm => ?_, hst⟩
  · have := fill_in (b := fill (fun _ => none) c.size 1 fun _ => some 0#8) (off := 0) (n := c.size) (f := c.repr v) hi
    simpa [image] using this
  · show fill _ _ _ _ _ = _
    rw [fill_out (by omega)]
    exact fill_in (off := c.size) (n := 1) (f := fun _ => some 0#8) (i := 0) (by omega)

/-- C64. The manipulators of the library (separate bool, bit pattern, sentinel) and simple custom manipulators fulfil the contract;
the values that can be stored with them are those of `Storable`. -/
theorem C64_own {c : Model.Config V} (hc : c.WF) :
    AnswersEmpty (ownTest c : IsEmpty V G) ∧ ∀ v, c.Storable v → AnswersFull (ownTest c : IsEmpty V G) v := by
  constructor
  · intro calls ph x g h hx
    simp only [ownTest, h, hx, isEmpty_emp hc (image_emp hc)]
  · intro v hv calls ph x g h hx
    simp only [ownTest, h, hx, isEmpty_full hc (image_full hv)]

/-- An environment of the concrete machine on the machine with arbitrary manipulators. -/
def abstracted (Γ : Env V G) : Any.Env V G := fun x => ⟨⟨ownTest (Γ x).cfg, (Γ x).cfg.ndebug⟩, (Γ x).ops⟩

/-- C64. For the manipulators of `Model/Flag` both machines agree: legal histories have the same outcomes, the same final user state and
the same final optionals. -/
theorem C64_agrees {Γ : Env V G} (hΓ : EnvWF Γ) {g : G} {h : List (Op V G)} {rs sw} (hL : Legal Γ g h rs sw) :
    (Any.run (abstracted Γ) h (.init g)).1 = (run Γ h (.init g)).1 ∧
    (Any.run (abstracted Γ) h (.init g)).2.user = (run Γ h (.init g)).2.user ∧
    ∀ x, (Any.Absent x (Any.run (abstracted Γ) h (.init g)).2 ↔ Absent x (run Γ h (.init g)).2) ∧
      (Any.IsEmpty (abstracted Γ) x (Any.run (abstracted Γ) h (.init g)).2 ↔ Model.IsEmpty Γ x (run Γ h (.init g)).2) ∧
      ∀ v, Any.Holds (abstracted Γ) x v (Any.run (abstracted Γ) h (.init g)).2 ↔ Holds Γ x v (run Γ h (.init g)).2 := by
  obtain ⟨hop, hr, ht, hst⟩ := hL
  obtain ⟨h1, h2⟩ := run_sim hΓ hop (R_init g) hr ht hst
  obtain ⟨a1, a2⟩ := C64_drop_in (Γ := abstracted Γ) (fun x => (C64_own (hΓ.cfg x)).1) hΓ.ops (h := h) (rs := rs) (sw := sw) (g := g)
    (fun op ho => by
      have := hop op ho
      cases op <;> simp_all [Any.OpOK, OpOK, abstracted]) hr
    (fun p hp => (C64_own (hΓ.cfg p.1)).2 _ (ht p hp))
    hst
  have hs := h2.sees hΓ
  refine ⟨a1.trans h1.symm, a2.1.trans hs.1.symm, fun x => ⟨?_, ?_, fun v => ?_⟩⟩
  · exact (a2.2 x).1.trans (hs.2 x).1.symm
  · exact (a2.2 x).2.1.trans (hs.2 x).2.1.symm
  · exact ((a2.2 x).2.2 v).trans ((hs.2 x).2.2 v).symm

/-! ### The contract is needed -/

/-- The manipulator of `TypeBecomingEmptyAfterMove` (README:432-447): a vector that is non-empty (`true`) or empty (`false`); an optional
is taken for empty if the vector is. -/
def emptyAfterMove : IsEmpty Bool Nat := fun calls x _ =>
  match phases calls with
  | none => false
  | some ph =>
    match ph x with
    | some .empty => true
    | some (.engaged v) => !v
    | _ => false

/-- A vector; the user state counts the calls of its destructor. -/
def vectorOps : Ops Bool Nat := { scalarOps with moveCtor := fun v g => (.ok v, false, g), dtor := fun _ g => g + 1 }

def vectorEnv : Any.Env Bool Nat := fun _ => ⟨⟨emptyAfterMove, true⟩, vectorOps⟩

/-- C64. The hypothesis about the stored values cannot be dropped. In the example of the README (a value is moved out of an optional)
everything else is fulfilled. But then `has_value()` of the source is false, and its destructor ends the memory with the payload still
in it: the payload's destructor is never called, and neither is `invalidate_empty_flag`, contrary to README:462. -/
theorem C64_needed :
    AnswersEmpty emptyAfterMove ∧ vectorOps.Lawful ∧ AnswersFull emptyAfterMove true ∧
    let h : List (Op Bool Nat) := [.ctorInPlace 0 (.ext true fun g => (.ok true, g)), .ctorMove 1 0, .hasValue 0, .dtor 0]
    (∀ op ∈ h, Any.OpOK vectorEnv op) ∧
    (∃ sw, specRun (fun x => (vectorEnv x).ops) h (.init 0) = some ([.ok .unit, .ok .unit, .ok (.bool true), .ok .unit], sw)) ∧
    (Any.run vectorEnv h (.init 0)).1 = [.ok .unit, .ok .unit, .ok (.bool false), .abort (.ub .noObject)] ∧
    (Any.run vectorEnv h (.init 0)).2.user = 0 ∧
    (Any.run vectorEnv h (.init 0)).2.calls.reverse =
      [(0, .create), (0, .init), (0, .invalidate), (0, .construct true),
       (1, .create), (1, .init), (1, .invalidate), (0, .change false), (1, .construct true)] := by
  refine ⟨?_, ?_, ?_, ?_, ⟨_, rfl⟩, rfl, rfl, rfl⟩
  · intro calls ph x g h hx; simp [emptyAfterMove, h, hx]
  · exact ⟨fun _ v _ => ⟨v, rfl⟩, fun _ v _ => ⟨v, rfl⟩, fun _ _ _ _ => rfl, fun _ _ _ => rfl, fun _ _ _ _ => rfl, fun _ _ _ => rfl⟩
  · intro calls ph x g h hx; simp [emptyAfterMove, h, hx]
  · intro op hop
    simp only [List.mem_cons, List.not_mem_nil, or_false] at hop
    rcases hop with rfl | rfl | rfl | rfl
    · exact fun _ g => ⟨true, rfl⟩
    · rfl
    · trivial
    · trivial

/-! ### Non-vacuity -/

/-- Optionals with a table, for payloads that log, throw and change when they are moved from. -/
def tableEnv : Any.Env (BitVec 8) (List String) := fun _ => ⟨⟨tableTest, false⟩, throwingOps⟩

def tableHistory : List (Op (BitVec 8) (List String)) :=
  [.ctorDefault 20, .ctorInPlace 21 (lit 5#8), .assignCopy 20 21, .emplace 20 boom, .value 20, .swap 20 21,
   .ctorMove 22 20, .hasValue 20, .ctorInPlace 10 (lit 13#8), .ctorCopy 11 10, .assignMove 20 22, .dtor 20, .dtor 21,
   .ctorDefault 21, .hasValue 21]

/-- The hypotheses of `C64_drop_in`, `C64_order`, `C64_no_abort` and `C64_compare` hold for this history. -/
private theorem table_hyps : ∃ rs sw, (∀ x, AnswersEmpty (tableEnv x).cfg.test) ∧ (∀ x, (tableEnv x).ops.Lawful) ∧
    (∀ op ∈ tableHistory, Any.OpOK tableEnv op) ∧
    specRun (fun x => (tableEnv x).ops) tableHistory (.init []) = some (rs, sw) ∧
    (∀ p ∈ sw.trace, AnswersFull (tableEnv p.1).cfg.test p.2) ∧ (∀ p ∈ tableHistory.zip rs, StepOK p.1 p.2) ∧
    sw.vars 22 = some (some 0#8) ∧ sw.vars 21 = some none ∧
    rs.map SResToRes = [.ok .unit, .ok .unit, .ok .unit, .throw (.user 1), .throw .badOptionalAccess, .ok .unit,
      .ok .unit, .ok (.bool true), .ok .unit, .throw (.user 13), .ok .unit, .ok .unit, .ok .unit, .ok .unit,
      .ok (.bool false)] := by
  refine ⟨_, _, fun _ => C64_table.1, fun _ => throwingOps_lawful, ?_, rfl, fun p _ => C64_table.2 p.2, ?_, rfl, rfl, rfl⟩
  · intro op hop
    simp only [tableHistory, List.mem_cons, List.not_mem_nil, or_false] at hop
    rcases hop with rfl | rfl | rfl | rfl | rfl | rfl | rfl | rfl | rfl | rfl | rfl | rfl | rfl | rfl | rfl <;>
      first | exact trivial | exact lit_lawful _ | exact boom_lawful | rfl | (intro h; exact absurd h (by decide))
  · intro p hp
    simp [tableHistory] at hp
    rcases hp with rfl | rfl | rfl | rfl | rfl | rfl | rfl | rfl | rfl | rfl | rfl | rfl | rfl | rfl | rfl <;>
      simp [StepOK]

example : ∃ (rs : List (SRes (Obs (BitVec 8)))) (sw : SWorld (BitVec 8) (List String)), (Any.run tableEnv tableHistory (.init [])).1 = rs.map SResToRes ∧ Any.Sees tableEnv (Any.run tableEnv tableHistory (.init [])).2 sw ∧
    phases (Any.run tableEnv tableHistory (.init [])).2.calls = some (fun x => expected (sw.vars x)) ∧
    (∀ r ∈ (Any.run tableEnv tableHistory (.init [])).1, ∀ a, r ≠ .abort a) ∧
    (Any.optRel (Any.tinyOpt tableEnv 22) (Any.tinyOpt tableEnv 21) .lt (fun _ a b g => (.ok (a.ult b), g))
      (Any.run tableEnv tableHistory (.init [])).2).1 = .ok false := by
  obtain ⟨rs, sw, h1, h2, h3, h4, h5, h6, h7, h8, _⟩ := table_hyps
  refine ⟨rs, sw, (C64_drop_in h1 h2 h3 h4 h5 h6).1, (C64_drop_in h1 h2 h3 h4 h5 h6).2, C64_order h1 h2 h3 h4 h5 h6,
    (C64_no_abort h1 h2 h3 h4 h5 h6).2, ?_⟩
  exact congrArg (·.1) (C64_compare h1 h2 h3 h4 h5 h6 h7 h8 .lt fun _ a b g => (.ok (a.ult b), g))

example := C64_own (G := Unit) (patCfg_wf false)
example := C64_agrees exEnv_wf ex_legal

/-- The calls that the library makes for an assignment from a value that cannot be constructed: the flag is initialised again. -/
example : (Any.run tableEnv [.ctorDefault 0, .emplace 0 boom, .emplace 0 (lit 5#8), .dtor 0] (.init [])).2.calls.reverse =
    [(0, .create), (0, .init), (0, .invalidate), (0, .init), (0, .invalidate), (0, .construct 5#8), (0, .destroy), (0, .release)] := rfl

end Verif.Props
