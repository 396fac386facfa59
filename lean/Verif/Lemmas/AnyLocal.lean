import Verif.Lemmas.Threads
import Verif.Lemmas.Threads
import Verif.Model.Reentrant

/-! Helper lemmas: with arbitrary flag manipulators, a function depends only on the memory of the optionals that it uses. -/

namespace Verif.Model.Any
open Verif.Spec.Manipulator (Act Call Phase phases next)

section
variable {V G α β : Type}

/-- The value of an optional was stored by one of the calls. -/
theorem Good.full {Γ : Env V G} {calls : List (Call V)} {mem : Nat → Option (Phase V)} (h : Good Γ calls) (ho : phases calls = some mem)
    {x : Nat} {v : V} (hx : mem x = some (.engaged v)) : (Γ x).cfg.Storable v := by
  induction calls generalizing mem x v with
  | nil =>
    simp only [phases, Option.some.injEq] at ho
    subst ho
    cases hx
  | cons p calls ih =>
    obtain ⟨y, a⟩ := p
    simp only [phases] at ho
    have hg : Good Γ calls := fun q hq => h q (List.mem_cons_of_mem _ hq)
    cases hp : phases calls with
    | none => simp [hp] at ho
    | some ph =>
      simp only [hp] at ho
      cases hn : next a (ph y) with
      | none => simp [hn] at ho
      | some p =>
        simp only [hn, Option.some.injEq] at ho
        subst ho
        simp only at hx
        split at hx
        · rename_i hxy
          subst hxy hx
          have key : a = .construct v ∨ a = .change v := by
            revert hn
            cases a <;> rcases ph x with _ | _ | _ | _ | u <;> simp [next]
          exact h (x, a) (List.mem_cons_self ..) v key
        · exact ih hg hp hx

/-- The two worlds differ only in the memory of the optionals in `B`, and in the order of the calls for different optionals. -/
structure Same (Γ : Env V G) (B : List Nat) (w w' : World V G) : Prop where
  user : w'.user = w.user
  mem : ∀ z, z ∉ B → w'.mem z = w.mem z
  order : phases w.calls = some w.mem
  order' : phases w'.calls = some w'.mem
  good : Good Γ w.calls
  good' : Good Γ w'.calls

/-- `m` neither reads nor writes the optionals in `B`, as long as only values with correct answers are stored. -/
def Fits (Γ : Env V G) (B : List Nat) (m : M V G α) : Prop := ∀ w, w.calls <:+ (m w).2.calls ∧
  (∀ z ∈ B, (m w).2.mem z = w.mem z) ∧
  (Good Γ (m w).2.calls → ∀ u, Same Γ B w u → ∃ u', m u = ((m w).1, u') ∧ Same Γ B (m w).2 u' ∧ ∀ z ∈ B, u'.mem z = u.mem z)

theorem Good.suffix {Γ : Env V G} {c c' : List (Call V)} (h : Good Γ c') (hs : c <:+ c') : Good Γ c := fun p hp => h p (hs.subset hp)

namespace Fits
variable {Γ : Env V G} {B : List Nat} {x y : Nat}

/-- The world does not matter. -/
theorem const (r : Res α) : Fits Γ B (fun w => (r, w) : M V G α) := fun _ =>
  ⟨List.suffix_refl _, fun _ _ => rfl, fun _ u h => ⟨u, rfl, h, fun _ _ => rfl⟩⟩

theorem pure (a : α) : Fits Γ B (Pure.pure a : M V G α) := const _
theorem mpure (a : α) : Fits Γ B (M.pure a : M V G α) := const _
theorem throwE (e : Exn) : Fits Γ B (Any.throwE e : M V G α) := const _
theorem ubM (k : UB) : Fits Γ B (Any.ubM k : M V G α) := const _
theorem abortM (a : Abort) : Fits Γ B (Any.abortM a : M V G α) := const _

/-- `m`, and then something that depends on its result. -/
theorem andThen {m : M V G α} {f : Res α → M V G β} (hm : Fits Γ B m) (hf : ∀ r, Fits Γ B (f r)) :
    Fits Γ B (fun w => f (m w).1 (m w).2) := fun w => by
  obtain ⟨hs, hk, hm⟩ := hm w
  obtain ⟨hs', hk', hf⟩ := hf (m w).1 (m w).2
  refine ⟨hs.trans hs', fun z hz => (hk' z hz).trans (hk z hz), fun hg u hu => ?_⟩
  obtain ⟨u', e, hu', k⟩ := hm (hg.suffix hs') u hu
  obtain ⟨u'', e', hu'', l⟩ := hf hg u' hu'
  exact ⟨u'', by show f (m u).1 (m u).2 = _; rw [e]; exact e', hu'', fun z hz => (l z hz).trans (k z hz)⟩

theorem of_eq {m m' : M V G α} (h : Fits Γ B m) (e : ∀ w, m' w = m w) : Fits Γ B m' := by
  have : m' = m := funext e
  rw [this]; exact h

theorem bind {m : M V G α} {f : α → M V G β} (hm : Fits Γ B m) (hf : ∀ a, Fits Γ B (f a)) : Fits Γ B (m >>= f) := by
  refine of_eq (andThen (f := fun r => match r with
    | .ok a => f a
    | .throw e => Any.throwE e
    | .abort a => Any.abortM a) hm fun r => ?_) fun w => ?_
  · cases r with
    | ok a => exact hf a
    | throw e => exact throwE e
    | abort a => exact abortM a
  · show M.bind m f w = _
    unfold M.bind
    rcases m w with ⟨a | e | a, w'⟩ <;> rfl

theorem onThrow {m : M V G α} {h : M V G Unit} (hm : Fits Γ B m) (hh : Fits Γ B h) : Fits Γ B (Any.onThrow m h) := by
  refine of_eq (andThen (f := fun r => match r with
    | .ok a => M.pure a
    | .throw e => fun w => (match (h w).1 with
      | .ok _ => Any.throwE e
      | .throw _ => Any.abortM .terminate
      | .abort a => Any.abortM a : M V G α) (h w).2
    | .abort a => Any.abortM a) hm fun r => ?_) fun w => ?_
  · cases r with
    | ok a => exact mpure a
    | throw e => exact andThen (f := fun r' => (match r' with
      | .ok _ => Any.throwE e
      | .throw _ => Any.abortM .terminate
      | .abort a => Any.abortM a : M V G α)) hh fun r' => by cases r' <;> exact const _
    | abort a => exact abortM a
  · unfold Any.onThrow
    rcases m w with ⟨a | e | a, w'⟩
    · rfl
    · simp only
      rcases h w' with ⟨a | e | a, w''⟩ <;> rfl
    · rfl

theorem noexceptIf {b : Bool} {m : M V G α} (hm : Fits Γ B m) : Fits Γ B (Any.noexceptIf b m) := by
  refine of_eq (andThen (f := fun r => match r with
    | .ok a => M.pure a
    | .throw e => if b then Any.abortM .terminate else Any.throwE e
    | .abort a => Any.abortM a) hm fun r => ?_) fun w => ?_
  · cases r with
    | ok a => exact mpure a
    | throw e => cases b <;> exact const _
    | abort a => exact abortM a
  · unfold Any.noexceptIf
    rcases m w with ⟨a | e | a, w'⟩
    · rfl
    · cases b <;> rfl
    · rfl

theorem assertM {nd : Bool} {c : M V G Bool} (hc : Fits Γ B c) : Fits Γ B (Any.assertM nd c) := by
  unfold Any.assertM
  split
  · exact mpure ()
  · exact bind hc fun b => by cases b <;> exact const _

theorem liftE (r : Except UB α) : Fits Γ B (Any.liftE r : M V G α) := by cases r <;> exact const _

theorem userCall (f : G → Except Exn α × G) : Fits Γ B (Any.userCall f : M V G α) := fun w => by
  unfold Any.userCall
  rcases hf : f w.user with ⟨r | r, g⟩ <;>
    exact ⟨List.suffix_refl _, fun _ _ => rfl, fun _ u h => ⟨{ u with user := g }, by simp only [h.user, hf],
      ⟨rfl, h.mem, h.order, h.order', h.good, h.good'⟩, fun _ _ => rfl⟩⟩

theorem userPure (f : G → α × G) : Fits Γ B (Any.userPure f : M V G α) := fun w =>
  ⟨List.suffix_refl _, fun _ _ => rfl, fun _ u h => ⟨{ u with user := (f u.user).2 }, by simp only [Any.userPure, h.user],
    ⟨by simp only [Any.userPure, h.user], h.mem, h.order, h.order', h.good, h.good'⟩, fun _ _ => rfl⟩⟩

/-- An action that is allowed. -/
theorem act {a : Act V} {p : Option (Phase V)} (hx : x ∉ B) {w u : World V G} (h : Same Γ B w u) (hn : next a (w.mem x) = some p)
    (hg : Good Γ (Any.act x a p w).2.calls) :
    ∃ u', Any.act x a p u = ((Any.act x a p w).1, u') ∧ Same Γ B (Any.act x a p w).2 u' ∧
      ∀ z ∈ B, u'.mem z = u.mem z := by
  have hne : ∀ z ∈ B, z ≠ x := fun z hz e => hx (e ▸ hz)
  refine ⟨_, rfl, ⟨h.user, fun z hz => ?_, ?_, ?_, hg, ?_⟩, fun z hz => if_neg (hne z hz)⟩
  · show (if z = x then p else u.mem z) = if z = x then p else w.mem z
    rw [h.mem z hz]
  · show phases ((x, a) :: w.calls) = _
    simp [phases, h.order, hn, Any.act]
  · show phases ((x, a) :: u.calls) = _
    have hn' : next a (u.mem x) = some p := by rw [h.mem x hx]; exact hn
    simp [phases, h.order', hn']
  · exact h.good'.cons fun v hv => hg (x, a) (List.mem_cons_self ..) v hv

/-- A function that depends on the memory of `x`, and then performs an action on it, or none. -/
theorem prim {m : M V G α} (hx : x ∉ B)
    (h : ∀ w : World V G, (∃ r, ∀ u : World V G, u.mem x = w.mem x → m u = (r, u)) ∨
      ∃ a p r, next a (w.mem x) = some p ∧ ∀ u : World V G, u.mem x = w.mem x → m u = (r, (Any.act x a p u).2)) : Fits Γ B m := fun w => by
  rcases h w with ⟨r, h⟩ | ⟨a, p, r, hn, h⟩
  · rw [h w rfl]
    exact ⟨List.suffix_refl _, fun _ _ => rfl, fun _ u hu => ⟨u, h u (hu.mem x hx), hu, fun _ _ => rfl⟩⟩
  · rw [h w rfl]
    refine ⟨List.suffix_cons .., fun z hz => if_neg fun (e : z = x) => hx (e ▸ hz), fun hg u hu => ?_⟩
    obtain ⟨u', e, hu', k⟩ := act hx hu hn hg
    refine ⟨u', ?_, hu', k⟩
    rw [h u (hu.mem x hx), e]

macro "prims " x:term : tactic => `(tactic| (intro w; rcases hw : World.mem w $x with _ | _ | _ | _ | v <;> first
  | exact Or.inl ⟨_, fun u hu => by simp only [hu]; rfl⟩
  | (refine Or.inr ⟨_, _, _, ?_, fun u hu => by simp only [hu]; rfl⟩; rfl)))

theorem allocate (hx : x ∉ B) : Fits Γ B (Any.allocate x : M V G _) := prim hx (by unfold Any.allocate; prims x)
theorem release (hx : x ∉ B) : Fits Γ B (Any.release x : M V G _) := prim hx (by unfold Any.release; prims x)
theorem getPayload (hx : x ∉ B) : Fits Γ B (Any.getPayload x : M V G V) := prim hx (by unfold Any.getPayload; prims x)
theorem setPayload (hx : x ∉ B) (c : Config V G) (v : V) : Fits Γ B (Any.setPayload c x v : M V G Unit) :=
  prim hx (by unfold Any.setPayload; prims x)
theorem newPayload (hx : x ∉ B) (c : Config V G) (v : V) : Fits Γ B (Any.newPayload c x v : M V G Unit) :=
  prim hx (by unfold Any.newPayload; prims x)
theorem invalidate (hx : x ∉ B) (c : Config V G) (d : V → G → G) : Fits Γ B (Any.invalidateEmptyFlag c d x : M V G Unit) :=
  prim hx (by unfold Any.invalidateEmptyFlag; prims x)
theorem initEmptyFlag (hx : x ∉ B) (c : Config V G) : Fits Γ B (Any.initEmptyFlag c x : M V G Unit) :=
  prim hx (by unfold Any.initEmptyFlag; prims x)

theorem destroy (hx : x ∉ B) (c : Config V G) (d : V → G → G) : Fits Γ B (Any.destroyPayload c d x : M V G Unit) := by
  refine of_eq (bind (getPayload hx) fun v => bind (userPure fun g => ((), d v g)) fun _ =>
    prim (m := fun w => match w.mem x with
      | some (.engaged _) => Any.act x .destroy (some .raw) w
      | _ => (.ok (), w)) hx (by prims x)) fun w => ?_
  unfold Any.destroyPayload
  rcases hw : w.mem x with _ | _ | _ | _ | v <;>
    simp only [Any.getPayload, Bind.bind, M.bind, hw, Any.userPure] <;> rfl

theorem checkE (e : Option Exn) : Fits Γ B (Any.checkE e : M V G Unit) := by cases e <;> exact const _

theorem hasValue (hΓ : EnvWF Γ) (hx : x ∉ B) : Fits Γ B (Any.hasValue Γ x) := fun w => by
  rcases hw : w.mem x with _ | _ | _ | _ | v
  case empty =>
    rw [hasValue_run hw (by simp [Raw0])]
    refine ⟨List.suffix_refl _, fun _ _ => rfl, fun _ u hu => ⟨u, ?_, hu, fun _ _ => rfl⟩⟩
    have hw' := (hu.mem x hx).trans hw
    rw [hasValue_run hw' (by simp [Raw0]), hΓ.cfg x _ _ _ _ hu.order hw, hΓ.cfg x _ _ _ _ hu.order' hw']
  case engaged =>
    rw [hasValue_run hw (by simp [Raw0])]
    refine ⟨List.suffix_refl _, fun _ _ => rfl, fun _ u hu => ⟨u, ?_, hu, fun _ _ => rfl⟩⟩
    have hw' := (hu.mem x hx).trans hw
    rw [hasValue_run hw' (by simp [Raw0]), hu.good.full hu.order hw _ _ _ _ hu.order hw, hu.good.full hu.order hw _ _ _ _ hu.order' hw']
  all_goals
    have e : ∀ u : World V G, u.mem x = w.mem x → Any.hasValue Γ x u = ((Any.hasValue Γ x w).1, u) := fun u hu => by
      simp [Any.hasValue, Bind.bind, M.bind, Any.readStorage, hu, hw]
    rw [e w rfl]
    exact ⟨List.suffix_refl _, fun _ _ => rfl, fun _ u hu => ⟨u, e u (hu.mem x hx), hu, fun _ _ => rfl⟩⟩

/-- Splits a function into its primitives. -/
macro "fits" : tactic => `(tactic| repeat' first
  | assumption | exact Fits.hasValue ‹_› ‹_›
  | (refine Fits.bind ?_ fun _ => ?_) | (refine Fits.noexceptIf ?_) | (refine Fits.onThrow ?_ ?_) | (refine Fits.assertM ?_)
  | exact Fits.pure _ | exact Fits.throwE _ | exact Fits.ubM _ | exact Fits.liftE _
  | exact Fits.allocate ‹_› | exact Fits.release ‹_› | exact Fits.userCall _ | exact Fits.userPure _
  | exact Fits.getPayload ‹_› | exact Fits.setPayload ‹_› _ _ | exact Fits.newPayload ‹_› _ _
  | exact Fits.destroy ‹_› _ _ | exact Fits.invalidate ‹_› _ _ | exact Fits.initEmptyFlag ‹_› _
  | exact Fits.checkE _
  | split)

set_option linter.unusedSectionVars false
variable (hΓ : EnvWF Γ)
include hΓ

theorem evalArg (o : Ops V G) (a : Arg V G) (hr : ∀ z ∈ a.reads, z ∉ B) (hw : ∀ z ∈ a.writes, z ∉ B) :
    Fits Γ B (Any.evalArg Γ o a) := by
  cases a with
  | ext nt c => exact userCall c
  | copyOf y =>
    have hy : y ∉ B := hr y (by simp [Arg.reads])
    simp only [Any.evalArg]; fits
  | moveOf y =>
    have hy : y ∉ B := hw y (by simp [Arg.writes])
    simp only [Any.evalArg]; fits

theorem payloadAssign (hx : x ∉ B) (a : AArg V G) (hr : ∀ z ∈ a.reads, z ∉ B) (hw : ∀ z ∈ a.writes, z ∉ B) :
    Fits Γ B (Any.payloadAssign Γ x a) := by
  cases a with
  | ext f nt c => simp only [Any.payloadAssign]; fits
  | copyOf y =>
    have hy : y ∉ B := hr y (by simp [AArg.reads])
    simp only [Any.payloadAssign]
    exact bind (getPayload hx) fun _ => bind (getPayload hy) fun _ => bind (userPure _) fun _ =>
      bind (setPayload hx _ _) fun _ => checkE _
  | moveOf y =>
    have hy : y ∉ B := hw y (by simp [AArg.writes])
    simp only [Any.payloadAssign]
    refine bind (getPayload hx) fun _ => bind (getPayload hy) fun _ => ?_
    split
    · exact bind (userPure _) fun _ => bind (setPayload hx _ _) fun _ => checkE _
    · exact bind (userPure _) fun _ => bind (setPayload hx _ _) fun _ => bind (setPayload hy _ _) fun _ => checkE _

theorem assertHas (hx : x ∉ B) (b : Bool) : Fits Γ B (Any.assertHas Γ x b) := by
  have h := hasValue hΓ hx
  unfold Any.assertHas; fits
theorem assertSame (hx : x ∉ B) (hy : y ∉ B) : Fits Γ B (Any.assertSame Γ x y) :=
  assertM (bind (hasValue hΓ hx) fun _ => bind (hasValue hΓ hy) fun _ => pure _)
theorem constructWith (hx : x ∉ B) (nt : Bool) {mk : M V G V} (hmk : Fits Γ B mk) : Fits Γ B (Any.constructWith Γ x nt mk) := by
  have h := assertHas hΓ hx false; have h' := assertHas hΓ hx true
  unfold Any.constructWith; fits
theorem constructPayload (hx : x ∉ B) (a : Arg V G) (hr : ∀ z ∈ a.reads, z ∉ B) (hw : ∀ z ∈ a.writes, z ∉ B) :
    Fits Γ B (Any.constructPayload Γ x a) := constructWith hΓ hx _ (evalArg hΓ _ a hr hw)
theorem reset (hx : x ∉ B) : Fits Γ B (Any.reset Γ x) := by
  have h := assertHas hΓ hx false
  unfold Any.reset Any.destroyPayloadOf; fits


theorem assignValue (hx : x ∉ B) (a : AArg V G) (hr : ∀ z ∈ a.reads, z ∉ B) (hw : ∀ z ∈ a.writes, z ∉ B) :
    Fits Γ B (Any.assignValue Γ x a) := by
  have h := assertHas hΓ hx true
  have h' := constructPayload hΓ hx a.toArg (by rw [Model.Fits.toArg_reads]; exact hr) (by rw [Model.Fits.toArg_writes]; exact hw)
  have h3 := payloadAssign hΓ hx a hr hw
  unfold Any.assignValue; fits
theorem storageDefaultCtor (hx : x ∉ B) : Fits Γ B (Any.storageDefaultCtor Γ x) := by
  have h := assertHas hΓ hx false
  unfold Any.storageDefaultCtor; fits
theorem storageInPlaceCtor (hx : x ∉ B) (a : Arg V G) (hr : ∀ z ∈ a.reads, z ∉ B) (hw : ∀ z ∈ a.writes, z ∉ B) :
    Fits Γ B (Any.storageInPlaceCtor Γ x a) := by
  have h := constructPayload hΓ hx a hr hw
  unfold Any.storageInPlaceCtor; fits
theorem storageFunctionCtor (hx : x ∉ B) {nt : Bool} {call : M V G V} (hc : Fits Γ B call) : Fits Γ B (Any.storageFunctionCtor Γ x nt call) := by
  have h := constructWith hΓ hx nt hc
  unfold Any.storageFunctionCtor Any.constructPayloadFromFunction; fits
theorem storageDtor (hx : x ∉ B) : Fits Γ B (Any.storageDtor Γ x) := by
  unfold Any.storageDtor Any.destroyPayloadOf; fits
theorem copyOrMoveCtor (hx : x ∉ B) (hy : y ∉ B) (nt : Bool) (a : Arg V G) (hr : ∀ z ∈ a.reads, z ∉ B)
    (hw : ∀ z ∈ a.writes, z ∉ B) : Fits Γ B (Any.copyOrMoveCtor Γ nt a x y) := by
  have h := storageDefaultCtor hΓ hx; have h1 := hasValue hΓ hy; have h2 := constructPayload hΓ hx a hr hw
  have h3 := assertHas hΓ hx false; have h4 := assertSame hΓ hx hy; have h5 := storageDtor hΓ hx
  unfold Any.copyOrMoveCtor; fits
theorem copyOrMoveAssign (hx : x ∉ B) (hy : y ∉ B) (nt : Bool) (a : AArg V G) (hr : ∀ z ∈ a.reads, z ∉ B)
    (hw : ∀ z ∈ a.writes, z ∉ B) : Fits Γ B (Any.copyOrMoveAssign Γ nt a x y) := by
  have h1 := hasValue hΓ hy; have h2 := assignValue hΓ hx a hr hw
  have h3 := reset hΓ hx; have h4 := assertSame hΓ hx hy
  unfold Any.copyOrMoveAssign; fits
theorem deref (hx : x ∉ B) : Fits Γ B (Any.deref Γ x) := by
  have h := assertHas hΓ hx true
  unfold Any.deref; fits
theorem swap (hx : x ∉ B) (hy : y ∉ B) : Fits Γ B (Any.swap Γ x y) := by
  have h3 := reset hΓ hx; have h4 := reset hΓ hy
  have h5 := constructPayload hΓ hx (.moveOf y) nofun (by intro z hz; simp only [Arg.writes, List.mem_singleton] at hz; rw [hz]; exact hy)
  have h6 := constructPayload hΓ hy (.moveOf x) nofun (by intro z hz; simp only [Arg.writes, List.mem_singleton] at hz; rw [hz]; exact hx)
  unfold Any.swap
  refine noexceptIf (bind (hasValue hΓ hx) fun a => bind (hasValue hΓ hy) fun b => ?_)
  split
  · split
    · refine bind (getPayload hx) fun _ => bind (getPayload hy) fun _ => ?_
      split
      · exact bind (userPure _) fun _ => bind (setPayload hx _ _) fun _ => checkE _
      · exact bind (userPure _) fun _ => bind (setPayload hx _ _) fun _ => bind (setPayload hy _ _) fun _ => checkE _
    · exact pure _
  · split
    · exact bind h6 fun _ => h3
    · exact bind h5 fun _ => h4
theorem materialize (hx : x ∉ B) (r : Option V) : Fits Γ B (Any.materialize Γ x r) := by
  cases r
  · exact storageDefaultCtor hΓ hx
  · exact storageInPlaceCtor hΓ hx _ nofun nofun

/-- Every call of `Op`. -/
theorem execOp (op : Op V G) (hr : ∀ z ∈ op.reads, z ∉ B) (hw : ∀ z ∈ op.writes, z ∉ B) : Fits Γ B (Any.execOp Γ op) := by
  cases op with
  | ctorDefault x => exact bind (storageDefaultCtor hΓ (hw x (by simp [Op.writes]))) fun _ => pure _
  | ctorInPlace x a =>
    exact bind (storageInPlaceCtor hΓ (hw x (by simp [Op.writes])) a hr fun z hz => hw z (by simp [Op.writes, hz])) fun _ => pure _
  | ctorCopy x y =>
    exact bind (copyOrMoveCtor hΓ (hw x (by simp [Op.writes])) (hr y (by simp [Op.reads])) _ _ hr nofun) fun _ => pure _
  | ctorMove x y =>
    exact bind (copyOrMoveCtor hΓ (hw x (by simp [Op.writes])) (hw y (by simp [Op.writes])) _ _ nofun
      fun z hz => hw z (by simp only [Arg.writes, List.mem_singleton] at hz; simp [Op.writes, hz])) fun _ => pure _
  | dtor x => exact bind (storageDtor hΓ (hw x (by simp [Op.writes]))) fun _ => pure _
  | reset x => exact bind (reset hΓ (hw x (by simp [Op.writes]))) fun _ => pure _
  | assignNullopt x => exact bind (noexceptIf (reset hΓ (hw x (by simp [Op.writes])))) fun _ => pure _
  | assignVal x a =>
    exact bind (assignValue hΓ (hw x (by simp [Op.writes])) a hr fun z hz => hw z (by simp [Op.writes, hz])) fun _ => pure _
  | assignScalar x tmp a =>
    have hx : x ∉ B := hw x (by simp [Op.writes])
    have ht : tmp ∉ B := hw tmp (by simp [Op.writes])
    exact bind (bind (storageInPlaceCtor hΓ ht a hr fun z hz => hw z (by simp [Op.writes, hz])) fun _ =>
      bind (onThrow (copyOrMoveAssign hΓ hx ht _ _ nofun
        fun z hz => hw z (by simp only [AArg.writes, List.mem_singleton] at hz; simp [Op.writes, hz])) (storageDtor hΓ ht))
        fun _ => storageDtor hΓ ht) fun _ => pure _
  | assignCopy x y =>
    exact bind (copyOrMoveAssign hΓ (hw x (by simp [Op.writes])) (hr y (by simp [Op.reads])) _ _ hr nofun) fun _ => pure _
  | assignMove x y =>
    exact bind (copyOrMoveAssign hΓ (hw x (by simp [Op.writes])) (hw y (by simp [Op.writes])) _ _ nofun
      fun z hz => hw z (by simp only [AArg.writes, List.mem_singleton] at hz; simp [Op.writes, hz])) fun _ => pure _
  | emplace x a =>
    have hx : x ∉ B := hw x (by simp [Op.writes])
    exact bind (bind (reset hΓ hx) fun _ => bind (constructPayload hΓ hx a hr fun z hz => hw z (by simp [Op.writes, hz])) fun _ =>
      bind (assertHas hΓ hx true) fun _ => getPayload hx) fun _ => pure _
  | swap x y => exact bind (swap hΓ (hw x (by simp [Op.writes])) (hw y (by simp [Op.writes]))) fun _ => pure _
  | hasValue x => exact bind (hasValue hΓ (hr x (by simp [Op.reads]))) fun _ => pure _
  | deref x => exact bind (deref hΓ (hr x (by simp [Op.reads]))) fun _ => pure _
  | value x =>
    have h := hasValue hΓ (hr x (by simp [Op.reads]))
    have h' : x ∉ B := hr x (by simp [Op.reads])
    simp only [Any.execOp, Any.value]; fits
  | valueOr rv x d =>
    cases rv with
    | false =>
      have hx : x ∉ B := hr x (by simp [Op.reads])
      refine bind (bind (hasValue hΓ hx) fun b => ?_) fun _ => pure _
      cases b
      · exact userCall d
      · exact evalArg hΓ _ (.copyOf x) (by simpa [Arg.reads] using hx) nofun
    | true =>
      have hx : x ∉ B := hw x (by simp [Op.writes])
      refine bind (bind (hasValue hΓ hx) fun b => ?_) fun _ => pure _
      cases b
      · exact userCall d
      · exact evalArg hΓ _ (.moveOf x) nofun (by simpa [Arg.writes] using hx)
  | modify x f =>
    have hx : x ∉ B := hw x (by simp [Op.writes])
    exact bind (bind (deref hΓ hx) fun _ => bind (userPure _) fun _ => bind (setPayload hx _ _) fun _ => checkE _) fun _ => pure _
  | andThen x dst f =>
    have hx : x ∉ B := hw x (by simp [Op.writes])
    have hd : dst ∉ B := hw dst (by simp [Op.writes])
    refine bind (bind (hasValue hΓ hx) fun b => ?_) fun _ => pure _
    cases b
    · exact storageDefaultCtor hΓ hd
    · refine bind (bind (deref hΓ hx) fun v => bind (userPure _) fun p => bind (setPayload hx _ _) fun _ => ?_)
        fun r => materialize hΓ hd r
      rcases p with ⟨r | r, v'⟩
      · exact throwE _
      · exact pure _
  | transform nt x dst f =>
    have hx : x ∉ B := hw x (by simp [Op.writes])
    have hd : dst ∉ B := hw dst (by simp [Op.writes])
    refine bind (bind (hasValue hΓ hx) fun b => ?_) fun _ => pure _
    cases b
    · exact storageDefaultCtor hΓ hd
    · refine bind (assertHas hΓ hx true) fun _ => storageFunctionCtor hΓ hd (bind (getPayload hx) fun v =>
        bind (userPure _) fun p => bind (setPayload hx _ _) fun _ => ?_)
      rcases p with ⟨r | r, v'⟩
      · exact throwE _
      · exact pure _
  | orElse rv x dst f =>
    cases rv with
    | false =>
      have hx : x ∉ B := hr x (by simp [Op.reads])
      have hd : dst ∉ B := hw dst (by simp [Op.writes])
      refine bind (bind (hasValue hΓ hx) fun b => ?_) fun _ => pure _
      cases b
      · exact bind (userCall f) fun r => materialize hΓ hd r
      · exact copyOrMoveCtor hΓ hd hx _ (.copyOf x) (by simpa [Arg.reads] using hx) nofun
    | true =>
      have hx : x ∉ B := hw x (by simp [Op.writes])
      have hd : dst ∉ B := hw dst (by simp [Op.writes])
      refine bind (bind (hasValue hΓ hx) fun b => ?_) fun _ => pure _
      cases b
      · exact bind (userCall f) fun r => materialize hΓ hd r
      · exact copyOrMoveCtor hΓ hd hx _ (.moveOf x) nofun (by simpa [Arg.writes] using hx)


end Fits

end
end Verif.Model.Any
