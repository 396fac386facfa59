import Verif.Lemmas.Nested
import Verif.Props.FreeSwap
import Verif.Props.Refinement

/-!
# C58: optionals of optionals; C59: user code that uses other optionals
-/

namespace Verif.Props
open Verif Verif.Model Verif.Spec Verif.Examples

variable {V G : Type}

/-! ### C58 -/

/-- Outcome of a call on the nested tiny optional, compared with the one on the nested `std::optional`. -/
def OutcomeRel {α β : Type} (r : α → β → Prop) : Res α → SRes β → Prop
  | .ok a, .ok b => r a b
  | .throw e, .throw e' => e = e'
  | _, _ => False

/-- The optional `x` shows the nested content `c`: `none` does not exist, `some none` is empty, `some (some d)` contains an inner
optional with content `d`. -/
def ShowsNested (Γ : Env (Storage V) G) (T : Ty V G) (x : Nat) (w : World (Storage V) G) : Option (Option (Option V)) → Prop
  | none => Absent x w
  | some none => IsEmpty Γ x w
  | some (some d) => ∃ s, Holds Γ x s w ∧ Represents T s d

/-- What it means that the storage `s` of an inner optional represents `c`: this is what the functions of the inner optional report. -/
theorem C58_represents {T : Ty V G} (hT : T.cfg.WF) (hl : T.ops.Lawful) {s : Storage V} {c : Option V} (h : Represents T s c) (g : G) :
    match c with
    | none => IsEmpty (fun _ => T) 0 (Model.scratch g (some s) none)
    | some v => Holds (fun _ => T) 0 v (Model.scratch g (some s) none) := by
  have hΓ := constEnv_wf hT hl
  have hR := scratch_rel (T := T) g (a := some s) (b := none) (b' := none) h trivial
  have := (hR.sees hΓ).2 0
  cases c with
  | none => exact this.2.1.2 rfl
  | some v => exact (this.2.2 v).2 rfl

/-- C58, except for `swap` of two engaged optionals whose payload type is `tiny::optional` (`k = .generic`, see C53). `h₁` are the calls on
the nested tiny optionals, `h₂` the corresponding calls on `std::optional<std::optional<T>>`: the arguments and functions of both correspond to
each other. -/
theorem C58_nested_partial {T : Ty V G} (hT : T.cfg.WF) (hl : T.ops.Lawful) (hk : T.ops.Keeps T.cfg.Storable) {k : SwapFn}
    {Γ : Env (Storage V) G} (hΓ : ∀ x, (Γ x).cfg.WF ∧ (Γ x).ops = Model.nestedOps k T)
    {h₁ : List (Op (Storage V) G)} {h₂ : List (Op (Option V) G)} (hh : LRel (CallRel (Represents T) Eq) h₁ h₂)
    (hop : ∀ op ∈ h₁, OpOK Γ op) (hsw : k = .tiny ∨ ∀ op ∈ h₁, isSwap op = false) {g : G} {rs₂ sw₂}
    (hr : specRun (fun _ => Spec.nestedOps T.ops) h₂ (.init g) = some (rs₂, sw₂))
    (hres : ∀ p ∈ sw₂.trace, ∀ s, Represents T s p.2 → (Γ p.1).cfg.Storable s)
    (hst : ∀ p ∈ h₁.zip rs₂, ∀ nt x dst f e, p.1 = .transform nt x dst f → p.2 = .throw e → nt = false) :
    LRel (OutcomeRel (ObsRel (Represents T))) (run Γ h₁ (.init g)).1 rs₂ ∧ (run Γ h₁ (.init g)).2.user = sw₂.user ∧
    ∀ x, ShowsNested Γ T x (run Γ h₁ (.init g)).2 (sw₂.vars x) := by
  have hE : EnvWF Γ := ⟨fun x => (hΓ x).1, fun x => by rw [(hΓ x).2]; exact nested_lawful k T⟩
  have ho : ∀ x, RelOpsNoSwap (Represents T) Eq ((fun x => (Γ x).ops) x) ((fun _ => Spec.nestedOps T.ops) x) := by
    intro x
    show RelOpsNoSwap _ _ (Γ x).ops _
    rw [(hΓ x).2]
    exact nested_ops_rel hT hl hk k
  have hs : (∀ x, RelSwap (Represents T) Eq ((fun x => (Γ x).ops) x) ((fun _ => Spec.nestedOps T.ops) x)) ∨ ∀ op ∈ h₁, isSwap op = false := by
    refine hsw.imp (fun hk' x => ?_) id
    show RelSwap _ _ (Γ x).ops _
    rw [(hΓ x).2, hk']
    exact nested_swap_rel hT hl hk
  obtain ⟨rs₁, sw₁, q1, q2, q3⟩ := relM_specRun ho hs hh (relW_init rfl) hr
  have hstep : ∀ p ∈ h₁.zip rs₁, StepOK p.1 p.2 := by
    clear q1 q3 hr hres hh hsw hs hop
    induction h₁ generalizing rs₁ rs₂ with
    | nil => simp
    | cons op t ih => cases rs₁ with
      | nil => simp
      | cons r₁ t₁ => cases rs₂ with
        | nil => exact absurd q2 id
        | cons r₂ t₂ =>
          intro p hp
          rcases List.mem_cons.1 hp with rfl | hp
          · cases op <;> try exact trivial
            rename_i nt x dst f
            intro hn e he
            simp only at he
            have hr1 := q2.1
            rw [he] at hr1
            cases r₂ with
            | ok _ => exact hr1
            | undef => exact hr1
            | throw e' =>
              have := hst (.transform nt x dst f, .throw e') (by simp) nt x dst f e' rfl rfl
              exact absurd hn (by simp [this])
          · exact ih (rs₂ := t₂) (fun p hp => hst p (by simp [hp])) t₁ q2.2 p hp
  have hL : Legal Γ g h₁ rs₁ sw₁ := by
    refine ⟨hop, q1, ?_, hstep⟩
    intro p hp
    obtain ⟨q, hq, he, hrep⟩ := q3.trace.left hp
    rw [he]
    exact hres q hq _ hrep
  obtain ⟨r1, r2⟩ := C01_drop_in hE hL
  refine ⟨?_, r2.1.trans q3.user, fun x => ?_⟩
  · rw [r1]
    have hdef : ∀ r ∈ rs₂, r ≠ .undef := by
      clear q1 q2 q3 hL r1 r2 hstep hres hst hh
      generalize SWorld.init g = w at hr
      induction h₂ generalizing w rs₂ with
      | nil => simp only [specRun, Option.some.injEq, Prod.mk.injEq] at hr; simp [← hr.1]
      | cons op t ih =>
        simp only [specRun] at hr
        rcases e : specOp (fun _ => Spec.nestedOps T.ops) op w with ⟨a | e | _, w'⟩ <;> simp only [e] at hr
        · rcases hr' : specRun (fun _ => Spec.nestedOps T.ops) t w' with _ | ⟨rs', w''⟩ <;> simp only [hr'] at hr
          · simp at hr
          · simp only [Option.some.injEq, Prod.mk.injEq] at hr
            obtain ⟨rfl, rfl⟩ := hr
            intro r hm
            rcases List.mem_cons.1 hm with rfl | hm
            · simp
            · exact ih _ hr' r hm
        · rcases hr' : specRun (fun _ => Spec.nestedOps T.ops) t w' with _ | ⟨rs', w''⟩ <;> simp only [hr'] at hr
          · simp at hr
          · simp only [Option.some.injEq, Prod.mk.injEq] at hr
            obtain ⟨rfl, rfl⟩ := hr
            intro r hm
            rcases List.mem_cons.1 hm with rfl | hm
            · simp
            · exact ih _ hr' r hm
        · simp at hr
    clear hr hres hst hh q1 q3 hL r1 r2 hstep
    induction rs₁ generalizing rs₂ with
    | nil => cases rs₂ with
      | nil => exact trivial
      | cons _ _ => exact absurd q2 id
    | cons r₁ t₁ ih => cases rs₂ with
      | nil => exact absurd q2 id
      | cons r₂ t₂ =>
        refine ⟨?_, ih q2.2 fun r hr => hdef r (by simp [hr])⟩
        have h1 := q2.1
        have h2 := hdef r₂ (by simp)
        cases r₁ <;> cases r₂ <;> first | exact h1 | exact absurd rfl h2 | exact absurd h1 id
  · have hv := q3.vars x
    have hx := r2.2 x
    rcases e2 : sw₂.vars x with _ | _ | d <;> rcases e1 : sw₁.vars x with _ | _ | s <;> rw [e1, e2] at hv <;>
      first
        | exact absurd hv id
        | exact hx.1.2 e1
        | exact hx.2.1.2 e1
        | exact ⟨s, (hx.2.2 s).2 e1, hv⟩

/-- The call on the inner optional 0 has a meaning for every content, keeps the optional alive and stores nothing reserved. -/
structure InnerOK (T : Ty V G) (op : Op V G) (start : Option (Option V)) : Prop where
  typed : OpOK (fun _ => T) op
  defined : ∀ g, (specOp (fun _ => T.ops) op (Spec.scratch g start none)).1 ≠ .undef
  storable : ∀ g, NoReserved (fun _ => T) (specOp (fun _ => T.ops) op (Spec.scratch g start none)).2.trace
  notTransform : ∀ nt x d f, op ≠ .transform nt x d f
  alive : ∀ g, (specOp (fun _ => T.ops) op (Spec.scratch g start none)).1.exn = none ∨ start ≠ none →
    ∃ c, (specOp (fun _ => T.ops) op (Spec.scratch g start none)).2.vars 0 = some c

theorem inner_exec {T : Ty V G} (hT : T.cfg.WF) (hl : T.ops.Lawful) {op : Op V G} {a : Option (Storage V)} {a' : Option (Option V)}
    (h : VarRel T.cfg a a') (hok : InnerOK T op a') (g : G) :
    (execOp (fun _ => T) op (Model.scratch g a none)).1 = SResToRes (specOp (fun _ => T.ops) op (Spec.scratch g a' none)).1 ∧
    RW (fun _ => T) none (execOp (fun _ => T) op (Model.scratch g a none)).2 (specOp (fun _ => T.ops) op (Spec.scratch g a' none)).2 := by
  obtain ⟨w', h1, h2⟩ := execOp_sims (constEnv_wf hT hl) op hok.typed _ _ (scratch_rel (T := T) g h (b := none) (b' := none) trivial)
    (hok.defined g) (hok.storable g) (by
      unfold StepOK
      split
      · exact absurd rfl (hok.notTransform _ _ _ _)
      · trivial)
  rw [h1]
  exact ⟨rfl, h2⟩

/-- C58. User code that calls functions of the inner optional through a reference (`(*o).reset()`, `o->emplace(args)`, …) corresponds to the
same call on the inner `std::optional`, so that it can be used in the histories of `C58_nested_partial`. -/
theorem C58_inner_call {T : Ty V G} (hT : T.cfg.WF) (hl : T.ops.Lawful) {op : Op V G}
    (hok : ∀ c : Option V, (∀ v, c = some v → T.cfg.Storable v) → InnerOK T op (some c)) :
    RelModify (Represents T) Eq (Model.innerCall T op) (Spec.innerCall T.ops op) := by
  rintro s c g _ h rfl
  have hc := hok c (by rintro v rfl; exact h.storable)
  obtain ⟨h1, h2⟩ := inner_exec hT hl h hc g
  obtain ⟨d, hd⟩ := hc.alive g (Or.inr (by simp))
  refine ⟨?_, at_rel h2 hd s c, h2.user⟩
  simp only [Model.innerCall, Spec.innerCall, h1]
  cases (specOp (fun _ => T.ops) op (Spec.scratch g (some c) none)).1 <;> rfl

/-- C58. User code that creates an inner optional. -/
theorem C58_inner_create {T : Ty V G} (hT : T.cfg.WF) (hl : T.ops.Lawful) {op : Op V G} (hok : InnerOK T op none) :
    RelCtor (Represents T) Eq (Model.innerCreate T op) (Spec.innerCreate T.ops op) := by
  rintro g _ rfl
  obtain ⟨h1, h2⟩ := inner_exec hT hl (a := none) (a' := none) trivial hok g
  refine ⟨?_, h2.user⟩
  have hal := hok.alive g
  simp only [Model.innerCreate, Spec.innerCreate, h1]
  cases e : (specOp (fun _ => T.ops) op (Spec.scratch g none none)).1 with
  | ok o =>
    obtain ⟨d, hd⟩ := hal (Or.inl (by rw [e]; rfl))
    exact at_rel h2 hd .raw none
  | throw e => exact rfl
  | undef => exact absurd e (hok.defined g)

/-! Example: the inner optional has the sentinel 42, the outer one a separate flag. -/

abbrev B8 := BitVec 8
abbrev Names := List String

def innerTy : Ty B8 Names := ⟨sentCfg false, loggingOps⟩

/-- The payload of the outer optional is the storage of the inner one. -/
def outerCfg : Config (Storage B8) := ⟨1, fun s i => s.bytes i, .separate, .separate, false⟩

def outerEnv (k : SwapFn) : Env (Storage B8) Names := fun _ => ⟨outerCfg, Model.nestedOps k innerTy⟩

theorem outerCfg_wf : outerCfg.WF where
  fits := Or.inl ⟨rfl, rfl⟩
  inside := by simp [outerCfg, Config.loc]
  bytes := by intro v i hi; simp [outerCfg, Config.loc]
  sentinelFits := by intro s h; simp [outerCfg] at h
  assignRefl := by intro s e h; simp [outerCfg] at h
  customRefl := by intro s e h; simp [outerCfg] at h

theorem innerTy_storable (v : B8) : innerTy.cfg.Storable v ↔ v ≠ 42#8 := by
  simp [Config.Storable, innerTy, sentCfg, Config.loc]

theorem innerTy_keeps : innerTy.ops.Keeps innerTy.cfg.Storable := by
  refine ⟨?_, ?_, ?_, ?_, ?_, ?_, ?_, ?_, ?_⟩ <;> simp only [innerTy, loggingOps]
  · intro v g v' hv h
    split at h
    · cases h
    · cases h; exact hv
  · intro v g v' hv h
    cases h; exact hv
  · intro v g hv
    exact (innerTy_storable _).2 (by decide)
  · intro d s g hd hs
    split
    · exact hd
    · exact hs
  · intro d s g hd hs
    exact ⟨hs, (innerTy_storable _).2 (by decide)⟩
  · intro v g hv; exact hv
  · intro v g hv; exact hv
  · intro a b g ha hb; exact ⟨hb, ha⟩
  · intro v g hv; exact hv

/-- Creates an inner optional with a value, and an empty one. -/
def create (v : B8) : Op B8 Names := .ctorInPlace 0 (lit v)
def createEmpty : Op B8 Names := .ctorDefault 0
def putIn (v : B8) : Op B8 Names := .emplace 0 (lit v)

theorem create_ok (v : B8) (hv : v ≠ 42#8) : InnerOK innerTy (create v) none := by
  refine ⟨lit_lawful _, fun g => by simp [create, specOp, ctorInPlace, sm_bind, fresh, Spec.scratch, argVal, lit, user, put, SM.pure], ?_,
    fun _ _ _ => nofun, fun g _ => ⟨some v, by simp [create, specOp, ctorInPlace, sm_bind, fresh, Spec.scratch, argVal, lit, user, put, SM.pure]⟩⟩
  intro g p hp
  have : p = (0, v) := by simpa [create, specOp, ctorInPlace, sm_bind, fresh, Spec.scratch, argVal, lit, user, put, SM.pure] using hp
  rw [this]
  exact (innerTy_storable v).2 hv

theorem createEmpty_ok : InnerOK innerTy createEmpty none := by
  refine ⟨trivial, fun g => by simp [createEmpty, specOp, ctorDefault, sm_bind, fresh, Spec.scratch, setEmpty, SM.pure], ?_,
    fun _ _ _ => nofun, fun g _ => ⟨none, by simp [createEmpty, specOp, ctorDefault, sm_bind, fresh, Spec.scratch, setEmpty, SM.pure]⟩⟩
  intro g p hp
  simp [createEmpty, specOp, ctorDefault, sm_bind, fresh, Spec.scratch, setEmpty, SM.pure] at hp

theorem putIn_ok (v : B8) (hv : v ≠ 42#8) (c : Option B8) : InnerOK innerTy (putIn v) (some c) := by
  have key : ∀ g, ∃ g', specOp (fun _ => innerTy.ops) (putIn v) (Spec.scratch g (some c) none) =
      (.ok (.val v), ⟨fun z => if z = 0 then some (some v) else if z = 1 then none else none, g', [(0, v)]⟩) := by
    intro g
    cases c with
    | none =>
      refine ⟨g, ?_⟩
      simp [putIn, specOp, Spec.emplace, Spec.reset, Spec.init, sm_bind, Spec.get, Spec.scratch, argVal, lit, user, put, SM.pure, getVal]
      funext z
      split <;> simp_all
    | some u =>
      refine ⟨g ++ ["dtor"], ?_⟩
      simp [putIn, specOp, Spec.emplace, Spec.reset, Spec.init, sm_bind, Spec.get, Spec.scratch, argVal, lit, user, put, SM.pure, getVal,
        destroyVal]
      constructor
      · funext z
        split <;> simp_all
      · rfl
  refine ⟨lit_lawful _, fun g => ?_, fun g => ?_, fun _ _ _ => nofun, fun g _ => ?_⟩
  · obtain ⟨g', h⟩ := key g
    rw [h]; simp
  · obtain ⟨g', h⟩ := key g
    rw [h]
    intro p hp
    have : p = (0, v) := by simpa using hp
    rw [this]
    exact (innerTy_storable v).2 hv
  · obtain ⟨g', h⟩ := key g
    rw [h]
    exact ⟨_, rfl⟩

/-- The storage of an inner optional with the value 5. -/
example := C58_represents (T := innerTy) (sentCfg_wf false) loggingOps_lawful
  (s := ⟨(sentCfg false).repr 5#8, some ⟨7, 5#8⟩, none⟩) (c := some 5#8)
  ⟨⟨7, rfl⟩, rfl, fun _ _ => rfl, nofun, (innerTy_storable _).2 (by decide)⟩ ([] : Names)
example := C58_inner_create (T := innerTy) (sentCfg_wf false) loggingOps_lawful (create_ok 5#8 (by decide))
example := C58_inner_call (T := innerTy) (sentCfg_wf false) loggingOps_lawful (op := putIn 5#8) fun c _ => putIn_ok 5#8 (by decide) c

def nestedHist : List (Op (Storage B8) Names) :=
  [.ctorInPlace 0 (.ext false (Model.innerCreate innerTy (create 5))), .ctorInPlace 1 (.ext false (Model.innerCreate innerTy createEmpty)),
   .ctorCopy 2 1, .modify 1 (Model.innerCall innerTy (putIn 7)), .assignMove 0 1, .ctorCopy 3 0, .reset 3, .dtor 2]

def nestedHistStd : List (Op (Option B8) Names) :=
  [.ctorInPlace 0 (.ext false (Spec.innerCreate innerTy.ops (create 5))), .ctorInPlace 1 (.ext false (Spec.innerCreate innerTy.ops createEmpty)),
   .ctorCopy 2 1, .modify 1 (Spec.innerCall innerTy.ops (putIn 7)), .assignMove 0 1, .ctorCopy 3 0, .reset 3, .dtor 2]

theorem nestedHist_rel : LRel (CallRel (Represents innerTy) Eq) nestedHist nestedHistStd := by
  refine ⟨⟨rfl, C58_inner_create (sentCfg_wf _) loggingOps_lawful (create_ok 5 (by decide))⟩,
    ⟨rfl, C58_inner_create (sentCfg_wf _) loggingOps_lawful createEmpty_ok⟩, ⟨rfl, rfl⟩,
    ⟨rfl, C58_inner_call (sentCfg_wf _) loggingOps_lawful fun c _ => putIn_ok 7 (by decide) c⟩, ⟨rfl, rfl⟩, ⟨rfl, rfl⟩, rfl, rfl, trivial⟩

example : ∃ rs sw, specRun (fun _ => Spec.nestedOps innerTy.ops) nestedHistStd (.init []) = some (rs, sw) ∧
    sw.vars 0 = some (some (some 7#8)) ∧ sw.vars 1 = some (some (some 0#8)) ∧ sw.vars 2 = none ∧ sw.vars 3 = some none ∧
    sw.user = ["move=", "copy", "dtor"] ∧
    (run (outerEnv .generic) nestedHist (.init [])).2.user = sw.user ∧
    ∀ x, ShowsNested (outerEnv .generic) innerTy x (run (outerEnv .generic) nestedHist (.init [])).2 (sw.vars x) := by
  refine ⟨_, _, rfl, rfl, rfl, rfl, rfl, rfl, ?_⟩
  refine (C58_nested_partial (k := .generic) (sentCfg_wf false) loggingOps_lawful innerTy_keeps (fun _ => ⟨outerCfg_wf, rfl⟩) nestedHist_rel
    ?_ (Or.inr ?_) rfl ?_ ?_).2
  · intro op hop
    simp only [nestedHist, List.mem_cons, List.not_mem_nil, or_false] at hop
    rcases hop with rfl | rfl | rfl | rfl | rfl | rfl | rfl | rfl <;> first | rfl | trivial | exact (fun h => nomatch h)
  · intro op hop
    simp only [nestedHist, List.mem_cons, List.not_mem_nil, or_false] at hop
    rcases hop with rfl | rfl | rfl | rfl | rfl | rfl | rfl | rfl <;> rfl
  · intro p _ s _
    simp [Config.Storable, outerEnv, outerCfg]
  · intro p hp nt x dst f e h1
    have : p.1 ∈ nestedHist := (List.of_mem_zip (a := p.1) (b := p.2) hp).1
    rw [h1] at this
    simp [nestedHist] at this

/-- C58 is violated: `swap` of two engaged `tiny::optional<tiny::optional<T>>` does not call the payload's `swap`, because the unqualified call in
line 1664 selects `std::swap` for the inner optionals (C53). -/
theorem C58_false : selectSwap true intSwap (.tiny (.other 1) 0) (.tiny (.other 1) 0) = some .generic ∧
    ∃ (h₁ : List (Op (Storage B8) Names)) (h₂ : List (Op (Option B8) Names)) (rs : _) (sw : SWorld (Option B8) Names),
      LRel (CallRel (Represents innerTy) Eq) h₁ h₂ ∧ (∀ op ∈ h₁, OpOK (outerEnv .generic) op) ∧
      specRun (fun _ => Spec.nestedOps innerTy.ops) h₂ (.init []) = some (rs, sw) ∧ sw.user = ["swap"] ∧
      (run (outerEnv .generic) h₁ (.init [])).2.user = ["move", "move=", "move=", "dtor"] := by
  refine ⟨C53_false.2,
    [.ctorInPlace 0 (.ext false (Model.innerCreate innerTy (create 5))), .ctorInPlace 1 (.ext false (Model.innerCreate innerTy (create 6))), .swap 0 1],
    [.ctorInPlace 0 (.ext false (Spec.innerCreate innerTy.ops (create 5))), .ctorInPlace 1 (.ext false (Spec.innerCreate innerTy.ops (create 6))), .swap 0 1],
    _, _, ?_, ?_, rfl, rfl, rfl⟩
  · exact ⟨⟨rfl, C58_inner_create (sentCfg_wf _) loggingOps_lawful (create_ok 5 (by decide))⟩,
      ⟨rfl, C58_inner_create (sentCfg_wf _) loggingOps_lawful (create_ok 6 (by decide))⟩, ⟨rfl, rfl⟩, trivial⟩
  · intro op hop
    simp only [List.mem_cons, List.not_mem_nil, or_false] at hop
    rcases hop with rfl | rfl | rfl <;> first | rfl | exact (fun h => nomatch h)

/-! ### C59 -/

variable {V' G' : Type}

/-- The other optionals: `w` is reachable for the library, the caller sees it as `sw`, nothing reserved was stored, and the user's own
invariant `Inv` holds. -/
structure Linked (Γ' : Env V' G') (Inv : SWorld V' G' → Prop) (w : World V' G') (sw : SWorld V' G') : Prop where
  reach : Reach Γ' w
  sees : Sees Γ' w sw
  storable : NoReserved Γ' sw.trace
  inv : Inv sw

/-- The payload operations of both sides correspond to each other on linked worlds. -/
def RelOps {V₁ V₂ G₁ G₂ : Type} (RV : V₁ → V₂ → Prop) (RG : G₁ → G₂ → Prop) (o₁ : Ops V₁ G₁) (o₂ : Ops V₂ G₂) : Prop :=
  RelOpsNoSwap RV RG o₁ o₂ ∧ RelSwap RV RG o₁ o₂

theorem obsRel_eq {V : Type} {a b : Obs V} (h : ObsRel Eq a b) : a = b := by
  cases a <;> cases b <;> first | rfl | exact congrArg _ h | exact absurd h id

theorem lrel_eq {V : Type} {l₁ l₂ : List (SRes (Obs V))} (h : LRel (SResRel (ObsRel Eq)) l₁ l₂) : l₁ = l₂ := by
  induction l₁ generalizing l₂ with
  | nil => cases l₂ with
    | nil => rfl
    | cons _ _ => exact absurd h id
  | cons a t ih => cases l₂ with
    | nil => exact absurd h id
    | cons b u =>
      rw [ih h.2]
      have := h.1
      cases a <;> cases b <;> first | rfl | exact absurd this id | rw [obsRel_eq this] | rw [show _ = _ from this]

theorem trace_eq {V : Type} {l₁ l₂ : List (Nat × V)} (h : LRel (fun p q => p.1 = q.1 ∧ p.2 = q.2) l₁ l₂) : l₁ = l₂ := by
  induction l₁ generalizing l₂ with
  | nil => cases l₂ with
    | nil => rfl
    | cons _ _ => exact absurd h id
  | cons a t ih => cases l₂ with
    | nil => exact absurd h id
    | cons b u => rw [ih h.2, Prod.ext h.1.1 h.1.2]

/-- C59. The user state of the optionals in `Γ` is the world of the optionals in `Γ'`. If the payload operations, arguments and callables correspond
to each other on linked worlds, then all calls have the outcomes prescribed by `std::optional`, all optionals of `Γ` are as prescribed, and the
other optionals are linked to the prescribed state. -/
theorem C59_user_code {Γ' : Env V' G'} {Inv : SWorld V' G' → Prop} {Γ : Env V (World V' G')} (hΓ : EnvWF Γ)
    {ops : Nat → Ops V (SWorld V' G')} (ho : ∀ x, RelOps Eq (Linked Γ' Inv) (Γ x).ops (ops x))
    {h₁ : List (Op V (World V' G'))} {h₂ : List (Op V (SWorld V' G'))} (hh : LRel (CallRel Eq (Linked Γ' Inv)) h₁ h₂)
    (hop : ∀ op ∈ h₁, OpOK Γ op) {w : World V' G'} {sw : SWorld V' G'} (hw : Linked Γ' Inv w sw) {rs fin}
    (hr : specRun ops h₂ (.init sw) = some (rs, fin)) (ht : NoReserved Γ fin.trace) (hst : ∀ p ∈ h₁.zip rs, StepOK p.1 p.2) :
    (run Γ h₁ (.init w)).1 = rs.map SResToRes ∧ Linked Γ' Inv (run Γ h₁ (.init w)).2.user fin.user ∧
    ∀ x, (Absent x (run Γ h₁ (.init w)).2 ↔ fin.vars x = none) ∧ (IsEmpty Γ x (run Γ h₁ (.init w)).2 ↔ fin.vars x = some none) ∧
      ∀ v, Holds Γ x v (run Γ h₁ (.init w)).2 ↔ fin.vars x = some (some v) := by
  obtain ⟨rs₁, sw₁, q1, q2, q3⟩ := relM_specRun (ops₁ := fun x => (Γ x).ops) (fun x => (ho x).1) (Or.inl fun x => (ho x).2) hh (relW_init hw) hr
  have e1 := lrel_eq q2
  subst e1
  have e2 := trace_eq q3.trace
  obtain ⟨r1, r2⟩ := C01_drop_in hΓ (⟨hop, q1, by rw [e2]; exact ht, hst⟩ : Legal Γ w h₁ rs₁ sw₁)
  have e3 : sw₁.vars = fin.vars := by
    funext x
    have := q3.vars x
    rcases a : sw₁.vars x with _ | _ | u <;> rcases b : fin.vars x with _ | _ | v <;> rw [a, b] at this <;>
      first | rfl | exact absurd this id | rw [show u = v from this]
  refine ⟨r1, ?_, fun x => ?_⟩
  · rw [r2.1]; exact q3.user
  · rw [← e3]; exact r2.2 x

/-- A program of calls that type-checks, has a meaning, and stores nothing reserved, from the state `sw`. -/
def LegalProg {α : Type} (Γ' : Env V' G') : UserProg V' G' α → SWorld V' G' → Prop
  | .ret _, _ => True
  | .call op k, sw => OpOK Γ' op ∧ StepOK op (specOp (fun x => (Γ' x).ops) op sw).1 ∧
    NoReserved Γ' (specOp (fun x => (Γ' x).ops) op sw).2.trace ∧
    match specOp (fun x => (Γ' x).ops) op sw with
    | (.ok o, sw') => LegalProg Γ' (k (.ok o)) sw'
    | (.throw e, sw') => LegalProg Γ' (k (.error e)) sw'
    | (.undef, _) => False

/-- C59. A program has the same result with the library as with `std::optional`, and leads to worlds that correspond to each other again. -/
theorem C59_program {α : Type} {Γ' : Env V' G'} (hΓ : EnvWF Γ') (p : UserProg V' G' α) {w : World V' G'} {sw : SWorld V' G'}
    (hw : Reach Γ' w) (hs : Sees Γ' w sw) (ht : NoReserved Γ' sw.trace) (hp : LegalProg Γ' p sw) :
    (p.exec Γ' w).1 = SResToRes (p.spec (fun x => (Γ' x).ops) sw).1 ∧ (p.spec (fun x => (Γ' x).ops) sw).1 ≠ .undef ∧
    Reach Γ' (p.exec Γ' w).2 ∧ Sees Γ' (p.exec Γ' w).2 (p.spec (fun x => (Γ' x).ops) sw).2 ∧
    NoReserved Γ' (p.spec (fun x => (Γ' x).ops) sw).2.trace := by
  induction p generalizing w sw with
  | ret r => cases r <;> exact ⟨rfl, nofun, hw, hs, ht⟩
  | call op k ih =>
    simp only [LegalProg] at hp
    obtain ⟨h1, h2, h3, h4⟩ := hp
    have hu : (specOp (fun x => (Γ' x).ops) op sw).1 ≠ .undef := by
      intro h
      rcases e : specOp (fun x => (Γ' x).ops) op sw with ⟨a | e | _, sw'⟩ <;> rw [e] at h h4
      · cases h
      · cases h
      · exact h4
    obtain ⟨w', k1, k2, k3⟩ := C01_step hΓ hw hs h1 hu h3 h2
    simp only [UserProg.exec, UserProg.spec, k1]
    rcases e : specOp (fun x => (Γ' x).ops) op sw with ⟨a | e | _, sw'⟩ <;> rw [e] at h3 h4 k3
    · exact ih _ k2 k3 h3 h4
    · exact ih _ k2 k3 h3 h4
    · exact absurd h4 id

/-- User code given by a program, as seen by the optional that calls it. -/
def asUser {α : Type} (Γ' : Env V' G') (p : UserProg V' G' α) (w : World V' G') : Except Exn α × World V' G' :=
  match p.exec Γ' w with
  | (.ok a, w') => (.ok a, w')
  | (.throw e, w') => (.error e, w')
  | (.abort _, w') => (.error .badOptionalAccess, w')

def asStd {α : Type} (ops : Nat → Ops V' G') (p : UserProg V' G' α) (sw : SWorld V' G') : Except Exn α × SWorld V' G' :=
  match p.spec ops sw with
  | (.ok a, sw') => (.ok a, sw')
  | (.throw e, sw') => (.error e, sw')
  | (.undef, sw') => (.error .badOptionalAccess, sw')

/-- The program is legal whenever the invariant holds, and preserves it. -/
def Preserves {α : Type} (Γ' : Env V' G') (Inv : SWorld V' G' → Prop) (p : UserProg V' G' α) : Prop :=
  ∀ sw, NoReserved Γ' sw.trace → Inv sw → LegalProg Γ' p sw ∧ Inv (p.spec (fun x => (Γ' x).ops) sw).2

/-- C59. Programs can be used as constructors, defaults, and callables without argument. -/
theorem C59_ctor {α : Type} {Γ' : Env V' G'} (hΓ : EnvWF Γ') {Inv : SWorld V' G' → Prop} {p : UserProg V' G' α} (hp : Preserves Γ' Inv p) :
    RelFn (Linked Γ' Inv) (ERel Eq) (asUser Γ' p) (asStd (fun x => (Γ' x).ops) p) := by
  intro w sw h
  obtain ⟨l1, l2⟩ := hp sw h.storable h.inv
  obtain ⟨k1, k2, k3, k4, k5⟩ := C59_program hΓ p h.reach h.sees h.storable l1
  unfold asUser asStd
  rcases e1 : p.exec Γ' w with ⟨r1, w'⟩
  rcases e2 : p.spec (fun x => (Γ' x).ops) sw with ⟨r2, sw'⟩
  rw [e1, e2] at k1
  rw [e1] at k3 k4
  rw [e2] at k2 k4 k5 l2
  simp only at k1
  subst k1
  cases r2 with
  | ok a => exact ⟨rfl, k3, k4, k5, l2⟩
  | throw e => exact ⟨rfl, k3, k4, k5, l2⟩
  | undef => exact absurd rfl k2

/-- What a callable returns that receives the payload `v`. -/
def callableResult {α W : Type} (v : V) : Except Exn (Except Exn α × V) × W → Except Exn α × V × W
  | (.ok (r, v'), w) => (r, v', w)
  | (.error e, w) => (.error e, v, w)

/-- C59. Programs that depend on the payload, return a result and may change the payload, can be used as callables of the monadic operations. -/
theorem C59_callable {α : Type} {Γ' : Env V' G'} (hΓ : EnvWF Γ') {Inv : SWorld V' G' → Prop} {p : V → UserProg V' G' (Except Exn α × V)}
    (hp : ∀ v, Preserves Γ' Inv (p v)) :
    RelCall Eq (Linked Γ' Inv) Eq (fun v w => callableResult v (asUser Γ' (p v) w))
      (fun v sw => callableResult v (asStd (fun x => (Γ' x).ops) (p v) sw)) := by
  rintro v _ w sw rfl h
  obtain ⟨k1, k2⟩ := C59_ctor hΓ (hp v) w sw h
  dsimp only
  rcases e1 : asUser Γ' (p v) w with ⟨e | ⟨r, u⟩, w'⟩ <;> rcases e2 : asStd (fun x => (Γ' x).ops) (p v) sw with ⟨e' | ⟨r', u'⟩, sw'⟩ <;>
    rw [e1, e2] at k1 k2
  · exact ⟨k1, rfl, k2⟩
  · exact absurd k1 id
  · exact absurd k1 id
  · cases (show (r, u) = (r', u') from k1)
    refine ⟨?_, rfl, k2⟩
    cases r
    · exact rfl
    · exact rfl

/-! Example: a callable passed to `transform` stores its argument in a global optional with sentinel 42, unless it is 42. -/

abbrev Globals := env Unit scalarOps false

def note (v : B8) : UserProg B8 Unit (Except Exn B8 × B8) :=
  if v = 42#8 then .ret (.error (.user 42))
  else .call (.assignVal 20 (.ext (fun _ g => (none, v, g)) true (fun g => (.ok v, g)))) fun _ => .ret (.ok (.ok (v + 1), v))

def globalExists (sw : SWorld B8 Unit) : Prop := ∃ c, sw.vars 20 = some c

theorem note_preserves (v : B8) : Preserves Globals globalExists (note v) := by
  rintro sw ht ⟨c, hc⟩
  unfold note
  split
  · exact ⟨trivial, c, hc⟩
  · rename_i hv
    have hS : (Globals 20).cfg.Storable v := by
      simp [Config.Storable, Globals, env, sentCfg, Config.loc]
      exact hv
    have key : specOp (fun x => (Globals x).ops) (.assignVal 20 (.ext (fun _ g => (none, v, g)) true (fun g => (.ok v, g)))) sw =
        (.ok .unit, ⟨fun z => if z = 20 then some (some v) else sw.vars z, sw.user, sw.trace ++ [(20, v)]⟩) := by
      cases c <;> simp [specOp, Spec.assignVal, sm_bind, Spec.get, hc, Spec.payloadAssign, Spec.init, AArg.toArg, argVal, getVal, user, put, check, SM.pure]
    simp only [LegalProg, UserProg.spec, key]
    refine ⟨⟨fun _ g => ⟨v, rfl⟩, trivial, ?_, trivial⟩, some v, by simp⟩
    intro p hp
    rcases List.mem_append.1 hp with hp | hp
    · exact ht p hp
    · have : p = (20, v) := by simpa using hp
      rw [this]
      exact hS

theorem scalar_rel {RG : G → G' → Prop} : RelOps (Eq : V → V → Prop) RG scalarOps scalarOps := by
  refine ⟨⟨?_, ?_, ?_, ?_, ?_, ?_, ?_⟩, ⟨?_, ?_⟩⟩
  · rintro v _ rfl g g' h; exact ⟨rfl, h⟩
  · rintro v _ g g' rfl h; exact ⟨rfl, rfl, h⟩
  · rintro v _ s _ g g' rfl rfl h; exact ⟨rfl, rfl, h⟩
  · rintro v _ s _ g g' rfl rfl h; exact ⟨rfl, rfl, rfl, h⟩
  · rintro v _ g g' rfl h; exact ⟨rfl, rfl, h⟩
  · rintro v _ g g' rfl h; exact ⟨rfl, rfl, h⟩
  · rintro v _ g g' rfl h; exact h
  · rintro v _ s _ g g' rfl rfl h; exact ⟨rfl, rfl, rfl, h⟩
  · rintro v _ g g' rfl h; exact ⟨rfl, rfl, h⟩

def globals0 : World B8 Unit := (run Globals [.ctorDefault 20] (.init ())).2
def globals0Std : SWorld B8 Unit := ⟨fun z => if z = 20 then some none else none, (), []⟩

theorem globals0_legal : Legal Globals () [.ctorDefault 20] [.ok .unit] globals0Std := by
  refine ⟨?_, rfl, nofun, ?_⟩
  · intro op hop
    simp only [List.mem_cons, List.not_mem_nil, or_false] at hop
    subst hop; trivial
  · intro p hp
    simp only [List.zip_cons_cons, List.zip_nil_left, List.mem_cons, List.not_mem_nil, or_false] at hp
    subst hp; trivial

theorem globals0_linked : Linked Globals globalExists globals0 globals0Std :=
  ⟨.of_legal (env_wf scalarOps_lawful false) globals0_legal, (C01_drop_in (env_wf scalarOps_lawful false) globals0_legal).2, nofun, none, rfl⟩

example := C59_program (env_wf scalarOps_lawful false) (note 5#8) globals0_linked.reach globals0_linked.sees globals0_linked.storable
  (note_preserves 5#8 _ globals0_linked.storable globals0_linked.inv).1
example := C59_ctor (env_wf scalarOps_lawful false) (note_preserves 5#8)

example : ∃ rs fin, specRun (fun _ => (scalarOps : Ops B8 (SWorld B8 Unit)))
      [.ctorInPlace 0 (lit 5), .transform true 0 1 (fun v sw => callableResult v (asStd (fun x => (Globals x).ops) (note v) sw))]
      (.init globals0Std) = some (rs, fin) ∧ fin.vars 1 = some (some 6#8) ∧ fin.user.vars 20 = some (some 5#8) ∧
    Holds (env _ scalarOps false) 1 6#8 (run (env (World B8 Unit) scalarOps false)
      [.ctorInPlace 0 (lit 5), .transform true 0 1 (fun v w => callableResult v (asUser Globals (note v) w))] (.init globals0)).2 ∧
    Holds Globals 20 5#8 (run (env (World B8 Unit) scalarOps false)
      [.ctorInPlace 0 (lit 5), .transform true 0 1 (fun v w => callableResult v (asUser Globals (note v) w))] (.init globals0)).2.user := by
  have hΓ := env_wf (G := Unit) scalarOps_lawful false
  refine ⟨_, _, rfl, rfl, rfl, ?_⟩
  have hop : ∀ op ∈ ([.ctorInPlace 0 (lit 5), .transform true 0 1 (fun v w => callableResult v (asUser Globals (note v) w))] :
      List (Op B8 (World B8 Unit))), OpOK (env (World B8 Unit) scalarOps false) op := by
    intro op hop
    simp only [List.mem_cons, List.not_mem_nil, or_false] at hop
    rcases hop with rfl | rfl
    · exact lit_lawful _
    · trivial
  have ht : NoReserved (env (World B8 Unit) scalarOps false) [(0, 5#8), (0, 5#8), (1, 6#8)] := by
    intro p hp
    have : p.1 < 10 := by
      have : p = (0, 5#8) ∨ p = (0, 5#8) ∨ p = (1, 6#8) := by simpa using hp
      rcases this with rfl | rfl | rfl <;> decide
    simp [Config.Storable, env, this, sepCfg]
  obtain ⟨_, h2, h3⟩ := C59_user_code (Γ' := Globals) (Inv := globalExists) (Γ := env (World B8 Unit) scalarOps false)
    (ops := fun _ => scalarOps)
    (h₁ := [.ctorInPlace 0 (lit 5), .transform true 0 1 (fun v w => callableResult v (asUser Globals (note v) w))])
    (h₂ := [.ctorInPlace 0 (lit 5), .transform true 0 1 (fun v sw => callableResult v (asStd (fun x => (Globals x).ops) (note v) sw))])
    (env_wf scalarOps_lawful false) (fun x => scalar_rel)
    ⟨⟨rfl, fun _ _ h => ⟨rfl, h⟩⟩, ⟨rfl, rfl, rfl, C59_callable hΓ note_preserves⟩, trivial⟩ hop globals0_linked rfl ht
    (by
      intro p hp
      rcases List.mem_cons.1 hp with rfl | hp
      · trivial
      · rcases List.mem_cons.1 hp with rfl | hp
        · intro _ e he
          cases he
        · cases hp)
  exact ⟨((h3 1).2.2 _).2 rfl, ((h2.sees.2 20).2.2 _).2 rfl⟩

end Verif.Props
