import Verif.Lemmas.NestedDeep
import Verif.Props.Nested

/-!
# C58: optionals nested to any depth
-/

namespace Verif.Props
open Verif Verif.Model Verif.Spec Verif.Examples

/-- The optional `x` shows the content `c`, whose payload is shown by the payload of the tiny optional. -/
def ShowsVia {V U G : Type} (Γ : Env V G) (R : V → U → Prop) (x : Nat) (w : World V G) : Option (Option U) → Prop
  | none => Absent x w
  | some none => IsEmpty Γ x w
  | some (some d) => ∃ v, Holds Γ x v w ∧ R v d

/-- A history on tiny optionals with payload operations that correspond to the ones of `std::optional`. -/
theorem drop_in_via {V U G : Type} {R : V → U → Prop} {o' : Ops U G} {Γ : Env V G} (hE : EnvWF Γ)
    (ho : ∀ x, RelOpsNoSwap R Eq ((fun x => (Γ x).ops) x) ((fun _ => o') x))
    {h₁ : List (Op V G)} {h₂ : List (Op U G)} (hh : LRel (CallRel R Eq) h₁ h₂) (hop : ∀ op ∈ h₁, OpOK Γ op)
    (hs : (∀ x, RelSwap R Eq ((fun x => (Γ x).ops) x) ((fun _ => o') x)) ∨ ∀ op ∈ h₁, isSwap op = false) {g : G} {rs₂ sw₂}
    (hr : specRun (fun _ => o') h₂ (.init g) = some (rs₂, sw₂))
    (hres : ∀ p ∈ sw₂.trace, ∀ s, R s p.2 → (Γ p.1).cfg.Storable s)
    (hst : ∀ p ∈ h₁.zip rs₂, ∀ nt x dst f e, p.1 = .transform nt x dst f → p.2 = .throw e → nt = false) :
    LRel (OutcomeRel (ObsRel R)) (run Γ h₁ (.init g)).1 rs₂ ∧ (run Γ h₁ (.init g)).2.user = sw₂.user ∧
    ∀ x, ShowsVia Γ R x (run Γ h₁ (.init g)).2 (sw₂.vars x) := by
  obtain ⟨rs₁, sw₁, q1, q2, q3⟩ := relM_specRun ho hs hh (relW_init rfl) hr
  have hstep : ∀ p ∈ h₁.zip rs₁, StepOK p.1 p.2 := by
    clear q1 q3 hr hres hh hs hop
    induction h₁ generalizing rs₁ rs₂ with
    | nil => simp
    | cons op t ih => cases rs₁ with
      | nil => simp
      | cons r₁ t₁ => cases rs₂ with
        | nil => exact absurd q2 id
        | cons r₂ t₂ =>
          intro p hp
          rcases List.mem_cons.1 hp with rfl | hp
          · cases op <;> try exact trivial
            rename_i nt x dst f
            intro hn e he
            simp only at he
            have hr1 := q2.1
            rw [he] at hr1
            cases r₂ with
            | ok _ => exact hr1
            | undef => exact hr1
            | throw e' =>
              have := hst (.transform nt x dst f, .throw e') (by simp) nt x dst f e' rfl rfl
              exact absurd hn (by simp [this])
          · exact ih (rs₂ := t₂) (fun p hp => hst p (by simp [hp])) t₁ q2.2 p hp
  have hL : Legal Γ g h₁ rs₁ sw₁ := by
    refine ⟨hop, q1, ?_, hstep⟩
    intro p hp
    obtain ⟨q, hq, he, hrep⟩ := q3.trace.left hp
    rw [he]
    exact hres q hq _ hrep
  obtain ⟨r1, r2⟩ := C01_drop_in hE hL
  refine ⟨?_, r2.1.trans q3.user, fun x => ?_⟩
  · rw [r1]
    have hdef : ∀ r ∈ rs₂, r ≠ .undef := by
      clear q1 q2 q3 hL r1 r2 hstep hres hst hh
      generalize SWorld.init g = w at hr
      induction h₂ generalizing w rs₂ with
      | nil => simp only [specRun, Option.some.injEq, Prod.mk.injEq] at hr; simp [← hr.1]
      | cons op t ih =>
        simp only [specRun] at hr
        rcases e : specOp (fun _ => o') op w with ⟨a | e | _, w'⟩ <;> simp only [e] at hr
        · rcases hr' : specRun (fun _ => o') t w' with _ | ⟨rs', w''⟩ <;> simp only [hr'] at hr
          · simp at hr
          · simp only [Option.some.injEq, Prod.mk.injEq] at hr
            obtain ⟨rfl, rfl⟩ := hr
            intro r hm
            rcases List.mem_cons.1 hm with rfl | hm
            · simp
            · exact ih _ hr' r hm
        · rcases hr' : specRun (fun _ => o') t w' with _ | ⟨rs', w''⟩ <;> simp only [hr'] at hr
          · simp at hr
          · simp only [Option.some.injEq, Prod.mk.injEq] at hr
            obtain ⟨rfl, rfl⟩ := hr
            intro r hm
            rcases List.mem_cons.1 hm with rfl | hm
            · simp
            · exact ih _ hr' r hm
        · simp at hr
    clear hr hres hst hh q1 q3 hL r1 r2 hstep
    induction rs₁ generalizing rs₂ with
    | nil => cases rs₂ with
      | nil => exact trivial
      | cons _ _ => exact absurd q2 id
    | cons r₁ t₁ ih => cases rs₂ with
      | nil => exact absurd q2 id
      | cons r₂ t₂ =>
        refine ⟨?_, ih q2.2 fun r hr => hdef r (by simp [hr])⟩
        have h1 := q2.1
        have h2 := hdef r₂ (by simp)
        cases r₁ <;> cases r₂ <;> first | exact h1 | exact absurd rfl h2 | exact absurd h1 id
  · have hv := q3.vars x
    have hx := r2.2 x
    rcases e2 : sw₂.vars x with _ | _ | d <;> rcases e1 : sw₁.vars x with _ | _ | s <;> rw [e1, e2] at hv <;>
      first
        | exact absurd hv id
        | exact hx.1.2 e1
        | exact hx.2.1.2 e1
        | exact ⟨s, (hx.2.2 s).2 e1, hv⟩

/-- A type that both programs use as payload: `V` with the operations `ops` in the program with tiny optionals, `U` with the operations `std` in
the program with `std::optional`. `Shows v u`: the value `v` of the one program corresponds to the value `u` of the other. -/
structure Level (G : Type) where
  V : Type
  U : Type
  ops : Ops V G
  std : Ops U G
  Shows : V → U → Prop

variable {G : Type}

/-- The innermost payload is the same in both programs; its values have the property `P`. -/
def Level.base {V : Type} (o : Ops V G) (P : V → Prop) : Level G := ⟨V, V, o, o, fun v u => v = u ∧ P v⟩

/-- `tiny::optional<L>` (with configuration `cfg`; `k` is the function that `swap(a, b)` selects for two of them) and `std::optional<L>`. -/
def Level.nest (L : Level G) (cfg : Config L.V) (k : SwapFn) : Level G :=
  ⟨Storage L.V, Option L.U, Model.nestedOps k ⟨cfg, L.ops⟩, Spec.nestedOps L.std, RepVia ⟨cfg, L.ops⟩ L.Shows⟩

/-- Optionals nested any number of times: every layer has a configuration of its own, and reserves no value that the layer below can
show. `sw`: `swap` selects the tiny optional's function in all layers. -/
inductive Level.Valid (sw : Bool) : Level G → Prop where
  | base {V : Type} {o : Ops V G} {P : V → Prop} : o.Lawful → o.Keeps P → Valid sw (.base o P)
  | nest {L : Level G} {cfg : Config L.V} {k : SwapFn} : Valid sw L → cfg.WF → (∀ v u, L.Shows v u → cfg.Storable v) →
      (sw = true → k = .tiny) → Valid sw (L.nest cfg k)

theorem Level.Valid.lawful {sw : Bool} {L : Level G} (h : L.Valid sw) : L.ops.Lawful := by
  cases h with
  | base hl _ => exact hl
  | nest _ _ _ _ => exact nested_lawful _ _

theorem Level.Valid.rel {sw : Bool} {L : Level G} (h : L.Valid sw) : RelOpsNoSwap L.Shows Eq L.ops L.std := by
  induction h with
  | base hl hk => exact diag_ops hk
  | nest hL hc hP _ ih => exact nested_ops_via (T := ⟨_, _⟩) hc hL.lawful hP ih _

theorem Level.Valid.relSwap {L : Level G} (h : L.Valid true) : RelSwap L.Shows Eq L.ops L.std := by
  generalize hb : true = sw at h
  induction h with
  | base hl hk => exact diag_swap hk
  | nest hL hc hP hk ih =>
    cases hk hb.symm
    exact nested_swap_via (T := ⟨_, _⟩) hc hL.lawful hP hL.rel ih

/-- What `Shows` means for an optional: its functions report the content, and its payload shows the payload. -/
theorem C58_deep_shows {sw : Bool} {L : Level G} (hL : L.Valid sw) {cfg : Config L.V} (hc : cfg.WF) {k : SwapFn} {s : Storage L.V}
    {c : Option L.U} (h : (L.nest cfg k).Shows s c) (g : G) :
    ShowsVia (fun _ => ⟨cfg, L.ops⟩) L.Shows 0 (Model.scratch g (some s) none) (some c) := by
  obtain ⟨m, hm, hr⟩ := h
  have := C58_represents (T := ⟨cfg, L.ops⟩) hc hL.lawful hm g
  cases m <;> cases c
  · exact this
  · exact absurd hr id
  · exact absurd hr id
  · exact ⟨_, this, hr⟩

/-- C58 for optionals nested to any depth, except for `swap` of two engaged optionals whose payload type is `tiny::optional` (see `C58_false`):
`h₁` are calls on tiny optionals with the payload `L`, which may itself be an optional of optionals of …, and `h₂` the corresponding calls on
`std::optional`. The outermost optionals may have different configurations. -/
theorem C58_deep_partial {sw : Bool} {L : Level G} (hL : L.Valid sw) {Γ : Env L.V G} (hΓ : ∀ x, (Γ x).cfg.WF ∧ (Γ x).ops = L.ops)
    {h₁ : List (Op L.V G)} {h₂ : List (Op L.U G)} (hh : LRel (CallRel L.Shows Eq) h₁ h₂) (hop : ∀ op ∈ h₁, OpOK Γ op)
    (hsw : sw = true ∨ ∀ op ∈ h₁, isSwap op = false) {g : G} {rs₂ sw₂}
    (hr : specRun (fun _ => L.std) h₂ (.init g) = some (rs₂, sw₂))
    (hres : ∀ p ∈ sw₂.trace, ∀ v, L.Shows v p.2 → (Γ p.1).cfg.Storable v)
    (hst : ∀ p ∈ h₁.zip rs₂, ∀ nt x dst f e, p.1 = .transform nt x dst f → p.2 = .throw e → nt = false) :
    LRel (OutcomeRel (ObsRel L.Shows)) (run Γ h₁ (.init g)).1 rs₂ ∧ (run Γ h₁ (.init g)).2.user = sw₂.user ∧
    ∀ x, ShowsVia Γ L.Shows x (run Γ h₁ (.init g)).2 (sw₂.vars x) := by
  refine drop_in_via ⟨fun x => (hΓ x).1, fun x => by rw [(hΓ x).2]; exact hL.lawful⟩ ?_ hh hop ?_ hr hres hst
  · intro x
    show RelOpsNoSwap _ _ (Γ x).ops _
    rw [(hΓ x).2]
    exact hL.rel
  · refine hsw.imp (fun h x => ?_) id
    subst h
    show RelSwap _ _ (Γ x).ops _
    rw [(hΓ x).2]
    exact hL.relSwap

/-- C58. User code that calls a function of an optional in any layer through a reference corresponds to the same call on the `std::optional`,
so that it can be used in the histories above and, again, in calls on the layers around it. -/
theorem C58_deep_call {sw : Bool} {L : Level G} (hL : L.Valid sw) {cfg : Config L.V} {k : SwapFn} (hcfg : cfg.WF)
    (hP : ∀ v u, L.Shows v u → cfg.Storable v)
    {op : Op L.V G} {op' : Op L.U G} (hc : CallRel L.Shows Eq op op') (hop : OpOK (fun _ => ⟨cfg, L.ops⟩) op)
    (hsw : isSwap op = false) (hnt : ∀ nt x d f, op ≠ .transform nt x d f)
    (hdef : ∀ g c, (specOp (fun _ => L.std) op' (Spec.scratch g (some c) none)).1 ≠ .undef ∧
      ∃ d, (specOp (fun _ => L.std) op' (Spec.scratch g (some c) none)).2.vars 0 = some d) :
    RelModify (L.nest cfg k).Shows Eq (Model.innerCall ⟨cfg, L.ops⟩ op) (Spec.innerCall L.std op') := by
  rintro s c g _ ⟨m, h, hm⟩ rfl
  obtain ⟨hu, d, hd⟩ := hdef g c
  obtain ⟨h1, h2, h3⟩ := inner_exec_via (T := ⟨cfg, L.ops⟩) hcfg hL.lawful hP hL.rel hc hop hsw hnt g (a := some s) (a₁ := some m)
    (a₂ := some c) h hm hu
  exact ⟨h1, h3 _ _ hd s c, h2⟩

/-- C58. User code that creates an optional in any layer. -/
theorem C58_deep_create {sw : Bool} {L : Level G} (hL : L.Valid sw) {cfg : Config L.V} {k : SwapFn} (hcfg : cfg.WF)
    (hP : ∀ v u, L.Shows v u → cfg.Storable v)
    {op : Op L.V G} {op' : Op L.U G} (hc : CallRel L.Shows Eq op op') (hop : OpOK (fun _ => ⟨cfg, L.ops⟩) op)
    (hsw : isSwap op = false) (hnt : ∀ nt x d f, op ≠ .transform nt x d f)
    (hdef : ∀ g, (specOp (fun _ => L.std) op' (Spec.scratch g none none)).1 ≠ .undef ∧
      ((specOp (fun _ => L.std) op' (Spec.scratch g none none)).1.exn = none →
        ∃ d, (specOp (fun _ => L.std) op' (Spec.scratch g none none)).2.vars 0 = some d)) :
    RelCtor (L.nest cfg k).Shows Eq (Model.innerCreate ⟨cfg, L.ops⟩ op) (Spec.innerCreate L.std op') := by
  rintro g _ rfl
  obtain ⟨hu, hd⟩ := hdef g
  obtain ⟨h1, h2, h3⟩ := inner_exec_via (T := ⟨cfg, L.ops⟩) hcfg hL.lawful hP hL.rel hc hop hsw hnt g (a := none) (a₁ := none)
    (a₂ := none) trivial trivial hu
  refine ⟨?_, h2⟩
  simp only [Model.innerCreate, Spec.innerCreate, h1]
  rcases e : (specOp (fun _ => L.std) op' (Spec.scratch g none none)).1.exn with _ | _
  · obtain ⟨d, hd⟩ := hd e
    exact h3 _ _ hd .raw none
  · rfl

/-! Example: `tiny::optional<tiny::optional<tiny::optional<B8>>>`. The innermost optional has the sentinel 42, the others have a separate flag. -/

def deep0 : Level Names := .base loggingOps (· ≠ 42#8)
def deep1 (k : SwapFn) : Level Names := deep0.nest (sentCfg false) k
def deep2 (k : SwapFn) : Level Names := (deep1 k).nest outerCfg k

theorem deep0_valid (b : Bool) : deep0.Valid b := by
  refine .base loggingOps_lawful ?_
  have := innerTy_keeps
  rwa [show innerTy.cfg.Storable = (· ≠ 42#8) from funext fun v => propext (innerTy_storable v)] at this

theorem deep0_storable : ∀ v u, deep0.Shows v u → (sentCfg false).Storable v := fun v _ h => (innerTy_storable v).2 h.2

theorem deep1_valid (b : Bool) (k : SwapFn) (hk : b = true → k = .tiny) : (deep1 k).Valid b :=
  .nest (deep0_valid b) (sentCfg_wf false) deep0_storable hk

theorem deep1_storable (k : SwapFn) : ∀ v u, (deep1 k).Shows v u → outerCfg.Storable v := by
  intro v _ _
  simp [Config.Storable, outerCfg]

theorem deep2_valid (b : Bool) (k : SwapFn) (hk : b = true → k = .tiny) : (deep2 k).Valid b :=
  .nest (deep1_valid b k hk) outerCfg_wf (deep1_storable k) hk

/-- The payload of the outermost optional is the storage of the middle one. -/
def outermostCfg : Config (Storage (Storage B8)) := ⟨2, fun s i => s.bytes i, .separate, .separate, false⟩

theorem outermostCfg_wf : outermostCfg.WF where
  fits := Or.inl ⟨rfl, rfl⟩
  inside := by simp [outermostCfg, Config.loc]
  bytes := by intro v i hi; simp [outermostCfg, Config.loc]
  sentinelFits := by intro s h; simp [outermostCfg] at h
  assignRefl := by intro s e h; simp [outermostCfg] at h
  customRefl := by intro s e h; simp [outermostCfg] at h

def deepEnv (k : SwapFn) : Env (Storage (Storage B8)) Names := fun _ => ⟨outermostCfg, (deep2 k).ops⟩

/-- `optional<B8>(v)` -/
def mk1 (v : B8) : Names → Except Exn (Storage B8) × Names := Model.innerCreate ⟨sentCfg false, loggingOps⟩ (.ctorInPlace 0 (lit v))
def mk1Std (v : B8) : Names → Except Exn (Option B8) × Names := Spec.innerCreate loggingOps (.ctorInPlace 0 (lit v))

theorem mk1_rel (k : SwapFn) (v : B8) (hv : v ≠ 42#8) : RelCtor (deep1 k).Shows Eq (mk1 v) (mk1Std v) := by
  refine C58_deep_create (L := deep0) (deep0_valid false) (sentCfg_wf false) deep0_storable (op := .ctorInPlace 0 (lit v))
    (op' := .ctorInPlace 0 (lit v)) ⟨rfl, ?_⟩ (lit_lawful _) rfl (fun _ _ _ => nofun) fun g => ?_
  · rintro g _ rfl
    exact ⟨⟨rfl, hv⟩, rfl⟩
  · exact ⟨by simp [specOp, ctorInPlace, sm_bind, fresh, Spec.scratch, argVal, lit, user, put, SM.pure],
      fun _ => ⟨some v, by simp [specOp, ctorInPlace, sm_bind, fresh, Spec.scratch, argVal, lit, user, put, SM.pure]⟩⟩

/-- `optional<optional<B8>>(optional<B8>(v))`, and `o.emplace(optional<B8>(v))` for such an optional -/
def mk2 (k : SwapFn) (v : B8) : Names → Except Exn (Storage (Storage B8)) × Names :=
  Model.innerCreate ⟨outerCfg, (deep1 k).ops⟩ (.ctorInPlace 0 (.ext false (mk1 v)))
def mk2Std (v : B8) : Names → Except Exn (Option (Option B8)) × Names :=
  Spec.innerCreate (Spec.nestedOps loggingOps) (.ctorInPlace 0 (.ext false (mk1Std v)))
def put2 (k : SwapFn) (v : B8) : Storage (Storage B8) → Names → Option Exn × Storage (Storage B8) × Names :=
  Model.innerCall ⟨outerCfg, (deep1 k).ops⟩ (.emplace 0 (.ext false (mk1 v)))
def put2Std (v : B8) : Option (Option B8) → Names → Option Exn × Option (Option B8) × Names :=
  Spec.innerCall (Spec.nestedOps loggingOps) (.emplace 0 (.ext false (mk1Std v)))

theorem mk1Std_eq (v : B8) (g : Names) : mk1Std v g = (.ok (some v), g) := by
  simp [mk1Std, Spec.innerCreate, specOp, ctorInPlace, sm_bind, fresh, Spec.scratch, argVal, lit, user, put, SM.pure, SRes.exn, SWorld.at]

theorem mk2_rel (k : SwapFn) (v : B8) (hv : v ≠ 42#8) : RelCtor (deep2 k).Shows Eq (mk2 k v) (mk2Std v) := by
  refine C58_deep_create (L := deep1 k) (deep1_valid false k nofun) outerCfg_wf (deep1_storable k) (op := .ctorInPlace 0 (.ext false (mk1 v)))
    (op' := .ctorInPlace 0 (.ext false (mk1Std v))) ⟨rfl, mk1_rel k v hv⟩ (fun h => nomatch h) rfl (fun _ _ _ => nofun) fun g => ?_
  exact ⟨by simp [specOp, ctorInPlace, sm_bind, fresh, Spec.scratch, argVal, mk1Std_eq, user, put, SM.pure],
      fun _ => ⟨some (some v), by
        simp [specOp, ctorInPlace, sm_bind, fresh, Spec.scratch, argVal, mk1Std_eq, user, put, SM.pure]
        rfl⟩⟩

theorem put2_rel (k : SwapFn) (v : B8) (hv : v ≠ 42#8) : RelModify (deep2 k).Shows Eq (put2 k v) (put2Std v) := by
  refine C58_deep_call (L := deep1 k) (deep1_valid false k nofun) outerCfg_wf (deep1_storable k) (op := .emplace 0 (.ext false (mk1 v)))
    (op' := .emplace 0 (.ext false (mk1Std v))) ⟨rfl, mk1_rel k v hv⟩ (fun h => nomatch h) rfl (fun _ _ _ => nofun) ?_
  intro g c
  cases c <;>
    simp [specOp, Spec.emplace, Spec.reset, Spec.init, sm_bind, Spec.get, Spec.scratch, argVal, mk1Std_eq, user, put, SM.pure, getVal, destroyVal]

def deepHist (k : SwapFn) : List (Op (Storage (Storage B8)) Names) :=
  [.ctorInPlace 0 (.ext false (mk2 k 5)), .ctorCopy 1 0, .modify 1 (put2 k 7), .assignMove 0 1, .ctorDefault 2, .assignCopy 1 2]
def deepHistStd : List (Op (Option (Option B8)) Names) :=
  [.ctorInPlace 0 (.ext false (mk2Std 5)), .ctorCopy 1 0, .modify 1 (put2Std 7), .assignMove 0 1, .ctorDefault 2, .assignCopy 1 2]

theorem deepHist_rel (k : SwapFn) : LRel (CallRel (deep2 k).Shows Eq) (deepHist k) deepHistStd :=
  ⟨⟨rfl, mk2_rel k 5 (by decide)⟩, ⟨rfl, rfl⟩, ⟨rfl, put2_rel k 7 (by decide)⟩, ⟨rfl, rfl⟩, rfl, ⟨rfl, rfl⟩, trivial⟩

def deepSwap : List (Op (Storage (Storage B8)) Names) :=
  [.ctorInPlace 0 (.ext false (mk2 .tiny 5)), .ctorInPlace 1 (.ext false (mk2 .tiny 6)), .swap 0 1]
def deepSwapStd : List (Op (Option (Option B8)) Names) :=
  [.ctorInPlace 0 (.ext false (mk2Std 5)), .ctorInPlace 1 (.ext false (mk2Std 6)), .swap 0 1]

theorem deepHist_ok (k : SwapFn) : ∀ op ∈ deepHist k, OpOK (deepEnv k) op ∧ isSwap op = false ∧ ∀ nt x dst f, op ≠ .transform nt x dst f := by
  intro op hop
  simp only [deepHist, List.mem_cons, List.not_mem_nil, or_false] at hop
  rcases hop with rfl | rfl | rfl | rfl | rfl | rfl <;>
    refine ⟨?_, rfl, fun _ _ _ => nofun⟩ <;> first | rfl | trivial | exact (fun h => nomatch h)

theorem deepSwap_ok : ∀ op ∈ deepSwap, OpOK (deepEnv .tiny) op ∧ ∀ nt x dst f, op ≠ .transform nt x dst f := by
  intro op hop
  simp only [deepSwap, List.mem_cons, List.not_mem_nil, or_false] at hop
  rcases hop with rfl | rfl | rfl <;> refine ⟨?_, fun _ _ _ => nofun⟩ <;> first | rfl | trivial | exact (fun h => nomatch h)

theorem outermost_storable (s : Storage (Storage B8)) : outermostCfg.Storable s := by
  simp [Config.Storable, outermostCfg]

/-- The three layers copy and move through each other; optional 0 finally contains 7 three layers down. -/
example : ∃ rs sw, specRun (fun _ => (deep2 .generic).std) deepHistStd (.init []) = some (rs, sw) ∧
    sw.vars 0 = some (some (some (some 7#8))) ∧ sw.vars 1 = some none ∧ sw.vars 2 = some none ∧
    sw.user = ["copy", "dtor", "move=", "dtor"] ∧
    (run (deepEnv .generic) (deepHist .generic) (.init [])).2.user = sw.user ∧
    ∀ x, ShowsVia (deepEnv .generic) (deep2 .generic).Shows x (run (deepEnv .generic) (deepHist .generic) (.init [])).2 (sw.vars x) := by
  refine ⟨_, _, rfl, rfl, rfl, rfl, rfl, ?_⟩
  exact (C58_deep_partial (L := deep2 .generic) (deep2_valid false .generic nofun) (Γ := deepEnv .generic) (fun _ => ⟨outermostCfg_wf, rfl⟩)
    (deepHist_rel .generic) (fun op h => (deepHist_ok .generic op h).1) (Or.inr fun op h => (deepHist_ok .generic op h).2.1) rfl
    (fun _ _ s _ => outermost_storable s)
    (fun p hp nt x dst f e h1 => absurd h1 ((deepHist_ok .generic p.1 (List.of_mem_zip (a := p.1) (b := p.2) hp).1).2.2 nt x dst f))).2

/-- With the library's `swap` function in all layers, `swap` may be used as well. -/
example : ∃ rs sw, specRun (fun _ => (deep2 .tiny).std) deepSwapStd (.init []) = some (rs, sw) ∧
    sw.vars 0 = some (some (some (some 6#8))) ∧ sw.user = ["swap"] ∧
    (run (deepEnv .tiny) deepSwap (.init [])).2.user = sw.user := by
  refine ⟨_, _, rfl, rfl, rfl, ?_⟩
  exact (C58_deep_partial (L := deep2 .tiny) (deep2_valid true .tiny fun _ => rfl) (Γ := deepEnv .tiny) (fun _ => ⟨outermostCfg_wf, rfl⟩)
    (h₁ := deepSwap) (h₂ := deepSwapStd)
    ⟨⟨rfl, mk2_rel .tiny 5 (by decide)⟩, ⟨rfl, mk2_rel .tiny 6 (by decide)⟩, ⟨rfl, rfl⟩, trivial⟩ (fun op h => (deepSwap_ok op h).1)
    (Or.inl rfl) rfl (fun _ _ s _ => outermost_storable s)
    (fun p hp nt x dst f e h1 => absurd h1 ((deepSwap_ok p.1 (List.of_mem_zip (a := p.1) (b := p.2) hp).1).2 nt x dst f))).2.1
example := @C58_deep_shows Names false deep0 (deep0_valid false) (sentCfg false) (sentCfg_wf false) .generic
  ⟨(sentCfg false).repr 5#8, some ⟨7, 5#8⟩, none⟩ (some 5#8)
  ⟨some 5#8, ⟨⟨7, rfl⟩, rfl, fun _ _ => rfl, nofun, (innerTy_storable _).2 (by decide)⟩, rfl, by decide⟩ []

end Verif.Props
