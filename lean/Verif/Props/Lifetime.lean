import Verif.Lemmas.Frame
import Verif.Examples

/-! # C03, C34, C36: object lifetimes and frame conditions -/

namespace Verif.Props
open Verif Verif.Model Verif.Spec

variable {V G : Type} {Γ : Env V G}

/-- C03, all histories (legal or not, also if they end in an abort): on every prefix of the event log every payload object
is created at most once and destroyed or leaked at most once, after its creation; at the end it is neither destroyed nor
leaked exactly if some optional holds it; no two optionals hold the same object. -/
theorem C03_accounting (Γ : Env V G) (h : List (Op V G)) (g : G) (id : Nat) :
    let w := (run Γ h (.init g)).2
    (∀ p, p <+: w.log → created p id ≤ 1 ∧ destroyed p id + leaked p id ≤ created p id) ∧
    ((∃ x, HoldsPayload x id w) → created w.log id = 1 ∧ destroyed w.log id = 0 ∧ leaked w.log id = 0) ∧
    ((¬ ∃ x, HoldsPayload x id w) → created w.log id = destroyed w.log id + leaked w.log id) ∧
    (∀ x y, HoldsPayload x id w → HoldsPayload y id w → x = y) := by
  intro w
  have hl : Life w := life_run Γ h g
  have hc := counts_of_status id w.log (hl.ok id)
  refine ⟨fun p hp => ?_, fun hh => ?_, fun hh => ?_, fun x y hx hy => ?_⟩
  · have := counts_of_status id p (status_prefix hp (hl.ok id))
    generalize status p id = s at this
    cases s <;> simp only [LS.counts, Prod.mk.injEq] at this <;> omega
  · have ha := (hl.payload id).2 (by obtain ⟨x, hx⟩ := hh; exact ⟨x, pidS_iff.2 hx⟩)
    rw [ha] at hc
    simp only [LS.counts, Prod.mk.injEq] at hc
    exact ⟨hc.1, hc.2.1, hc.2.2.1⟩
  · have ha : status w.log id ≠ .alive := fun ha => hh (by
      obtain ⟨x, hx⟩ := (hl.payload id).1 ha
      exact ⟨x, pidS_iff.1 hx⟩)
    generalize status w.log id = s at hc ha
    cases s <;> simp only [LS.counts, Prod.mk.injEq, ne_eq, not_true_eq_false] at hc ha <;> omega
  · exact hl.uniqP x y id (pidS_iff.2 hx) (pidS_iff.2 hy)

/-- C03. In a legal history no payload is ever leaked: every payload object that was created is destroyed exactly once, or
is still alive inside exactly one optional, which then reports `has_value()`. Every engaged optional holds such an
object. -/
theorem C03_balance (hΓ : EnvWF Γ) {g : G} {h : List (Op V G)} {rs sw} (hL : Legal Γ g h rs sw) :
    let w := (run Γ h (.init g)).2
    (∀ id, leaked w.log id = 0) ∧
    (∀ id, created w.log id = 1 → (destroyed w.log id = 1 ∨
      destroyed w.log id = 0 ∧ ∃ x v, HoldsPayload x id w ∧ Holds Γ x v w ∧ ∀ y, HoldsPayload y id w → y = x)) ∧
    (∀ x v, Holds Γ x v w → ∃ id, HoldsPayload x id w ∧ created w.log id = 1 ∧ destroyed w.log id = 0) := by
  intro w
  have hR := (run_sim hΓ hL.1 (R_init g) hL.2.1 hL.2.2.1 hL.2.2.2).2
  have hlk := leaked_zero hR.noLeak
  refine ⟨hlk, fun id hc => ?_, fun x v hx => ?_⟩
  · obtain ⟨_, h1, h2, h3⟩ := C03_accounting Γ h g id
    by_cases hh : ∃ x, HoldsPayload x id w
    · obtain ⟨x, hx⟩ := hh
      obtain ⟨v, hv⟩ := hR.holdsPayload_iff.1 ⟨id, hx⟩
      exact .inr ⟨(h1 ⟨x, hx⟩).2.1, x, v, hx, (hR.holds_iff hΓ).2 hv, fun y hy => h3 y x hy hx⟩
    · left
      have h4 : created w.log id = destroyed w.log id + leaked w.log id := h2 hh
      have h5 : leaked w.log id = 0 := hlk id
      omega
  · obtain ⟨id, hid⟩ := hR.holdsPayload_iff.2 ⟨v, (hR.holds_iff hΓ).1 hx⟩
    obtain ⟨_, h1, _⟩ := C03_accounting Γ h g id
    exact ⟨id, hid, (h1 ⟨x, hid⟩).1, (h1 ⟨x, hid⟩).2.1⟩

/-- C03. Once all optionals are destroyed, every created payload has been destroyed exactly once. -/
theorem C03_all_destroyed (hΓ : EnvWF Γ) {g : G} {h : List (Op V G)} {rs sw} (hL : Legal Γ g h rs sw)
    (hd : ∀ x, Absent x (run Γ h (.init g)).2) (id : Nat) :
    destroyed (run Γ h (.init g)).2.log id = created (run Γ h (.init g)).2.log id := by
  obtain ⟨_, _, h2, _⟩ := C03_accounting Γ h g id
  have := h2 (by rintro ⟨x, s, v, hs, _⟩; have := hd x; simp [Absent, hs] at this)
  have := (C03_balance hΓ hL).1 id
  omega

/-- C34 (the part that holds), all histories: every flag object is created at most once and ended at most once, either by
`invalidate_empty_flag` or by being abandoned with the memory of its optional; it is alive exactly while an optional
holds it. Missing for the full property: abandoned flags, see `C34_flag_balance_false`. -/
theorem C34_flag_accounting_partial (Γ : Env V G) (h : List (Op V G)) (g : G) (id : Nat) :
    let w := (run Γ h (.init g)).2
    (∀ p, p <+: w.log → flagCreated p id ≤ 1 ∧ flagDestroyed p id + flagAbandoned p id ≤ flagCreated p id) ∧
    ((∃ x, HoldsFlag x id w) → flagCreated w.log id = 1 ∧ flagDestroyed w.log id = 0 ∧ flagAbandoned w.log id = 0) ∧
    ((¬ ∃ x, HoldsFlag x id w) → flagCreated w.log id = flagDestroyed w.log id + flagAbandoned w.log id) := by
  intro w
  have hl : Life w := life_run Γ h g
  have hc := counts_of_status id w.log (hl.ok id)
  refine ⟨fun p hp => ?_, fun hh => ?_, fun hh => ?_⟩
  · have := counts_of_status id p (status_prefix hp (hl.ok id))
    generalize status p id = s at this
    cases s <;> simp only [LS.counts, Prod.mk.injEq] at this <;> omega
  · have ha := (hl.flag id).2 (by obtain ⟨x, hx⟩ := hh; exact ⟨x, fidS_iff.2 hx⟩)
    rw [ha] at hc
    simp only [LS.counts, Prod.mk.injEq] at hc
    exact ⟨hc.2.2.2.1, hc.2.2.2.2.1, hc.2.2.2.2.2⟩
  · have ha : status w.log id ≠ .flagAlive := fun ha => hh (by
      obtain ⟨x, hx⟩ := (hl.flag id).1 ha
      exact ⟨x, fidS_iff.1 hx⟩)
    generalize status w.log id = s at hc ha
    cases s <;> simp only [LS.counts, Prod.mk.injEq, ne_eq, not_true_eq_false] at hc ha <;> omega

/-- C34: only calls that create or destroy optionals can abandon a flag; assignment, reset, emplace, swap and the
observers never do, in any world. -/
theorem C34_no_abandon_partial (Γ : Env V G) (op : Op V G) (hop : op.lifetimes = []) (w : World V G) (id : Nat) :
    flagAbandoned (execOp Γ op w).2.log id = flagAbandoned w.log id := by
  obtain ⟨_, _, l, hl, hE⟩ := execOp_change Γ op w
  rw [hl, flagAbandoned, List.count_append]
  have : l.count (.flagAbandon id) = 0 := List.count_eq_zero.2 fun hm => by
    obtain ⟨x, hx⟩ := hE _ hm
    rw [hop] at hx
    simp at hx
  rw [this]; rfl

/-- C34 is false: there is a legal history (default construct an `optional<unsigned char, 42>`, destroy it) after which no
optional exists and a flag object was created but never destroyed by `invalidate_empty_flag`. -/
theorem C34_flag_balance_false :
    ∃ (Γ : Env (BitVec 8) Unit) (h : List (Op (BitVec 8) Unit)) (rs : _) (sw : _) (id : Nat),
      EnvWF Γ ∧ Legal Γ () h rs sw ∧ (∀ x, Absent x (run Γ h (.init ())).2) ∧
      flagCreated (run Γ h (.init ())).2.log id = 1 ∧ flagDestroyed (run Γ h (.init ())).2.log id = 0 := by
  refine ⟨Examples.env _ Examples.scalarOps false, [.ctorDefault 20, .dtor 20], _, _, 0,
    Examples.env_wf Examples.scalarOps_lawful _, ⟨?_, rfl, ?_, ?_⟩, ?_, ?_, ?_⟩
  · intro op hop
    simp only [List.mem_cons, List.not_mem_nil, or_false] at hop
    rcases hop with rfl | rfl <;> trivial
  · intro p hp; simp [SWorld.init] at hp
  · intro p hp; simp at hp; rcases hp with rfl | rfl <;> trivial
  · intro x
    show (if x = 20 then none else if x = 20 then some _ else if x = 20 then some _ else none) = none
    split <;> rfl
  · rfl
  · rfl

/-- C34, how general the failure is: destroying any empty optional with an in-place flag, in any reachable world, abandons
the flag object that `init_empty_flag` made in it. -/
theorem C34_dtor_empty_abandons (hΓ : EnvWF Γ) {w : World V G} (hw : Reach Γ w) {x : Nat} (hx : IsEmpty Γ x w)
    (hm : (Γ x).cfg.manip ≠ .separate) :
    ∃ id, HoldsFlag x id w ∧ (execOp Γ (.dtor x) w).2.log = w.log ++ [.flagAbandon id] := by
  obtain ⟨sw, hR, _⟩ := hw.rel hΓ
  have hv := (hR.isEmpty_iff hΓ).1 hx
  obtain ⟨s, hs, hp, he⟩ := hR.emp hv
  obtain ⟨id, v, hf⟩ : ∃ id v, s.flag = some ⟨id, v⟩ := by
    cases hm' : (Γ x).cfg.manip with
    | separate => exact absurd hm' hm
    | memcpy sent => simp only [hm'] at he; obtain ⟨⟨id, h⟩, _⟩ := he; exact ⟨id, _, h⟩
    | assign sv eq => simp only [hm'] at he; obtain ⟨id, h⟩ := he; exact ⟨id, _, h⟩
    | custom p ev => simp only [hm'] at he; obtain ⟨id, h⟩ := he; exact ⟨id, _, h⟩
  refine ⟨id, ⟨s, v, hs, hf⟩, ?_⟩
  have h1 : (do if ← hasValue Γ x then destroyPayloadOf Γ x else pure ()
                release x : M V G Unit) w =
      (.ok (), { w with mem := fun z => if z = x then none else w.mem z, log := w.log ++ [] ++ [.flagAbandon id] }) := by
    rw [bind_ok hx]
    simp only [Bool.false_eq_true, if_false]
    simp [release, hs, hp, hf]
  have h2 := bind_ok (f := fun _ => (pure .unit : M V G (Obs V))) (noexceptIf_ok (b := true) h1)
  have h3 : execOp Γ (.dtor x) w = _ := h2
  rw [h3]
  simp [pure_run]

/-- C36. A call changes neither the bytes nor the objects inside any optional that it does not name as target (or as
source that it may move from / hand out as mutable): whatever the world, whatever the outcome. -/
theorem C36_frame (Γ : Env V G) (op : Op V G) (w : World V G) (z : Nat) (hz : z ∉ op.writes) :
    (execOp Γ op w).2.mem z = w.mem z :=
  (execOp_change Γ op w).1 z hz

/-- C36. Only constructors, destructors and the monadic operations (for their result) change which optionals exist. -/
theorem C36_existence (Γ : Env V G) (op : Op V G) (w : World V G) (z : Nat) (hz : z ∉ op.lifetimes) :
    Absent z (execOp Γ op w).2 ↔ Absent z w := by
  have := (execOp_change Γ op w).2.1 z hz
  simp only [Absent, ← Option.not_isSome_iff_eq_none, this]

/-- C36 over histories. -/
theorem C36_frame_history (Γ : Env V G) (h : List (Op V G)) (w : World V G) (z : Nat) (hz : ∀ op ∈ h, z ∉ op.writes) :
    (run Γ h w).2.mem z = w.mem z := by
  refine ((change_closed (Γ := Γ) (fun x => ∃ op ∈ h, x ∈ op.writes) (fun x => ∃ op ∈ h, x ∈ op.lifetimes)
    (fun x ⟨op, h1, h2⟩ => ⟨op, h1, lifetimes_writes op x h2⟩)).run h (fun op ho x hx => ⟨op, ho, hx⟩)
    (fun op ho x hx => ⟨op, ho, hx⟩) w).1 z ?_
  rintro ⟨op, ho, hx⟩
  exact hz op ho hx

/-! ### Non-vacuity -/

open Examples

/-- A history with a throwing copy and a throwing emplace, after which all optionals are gone and four payloads were
created. -/
def lifeHistory : List (Op (BitVec 8) (List String)) :=
  [.ctorInPlace 20 (lit 13#8), .ctorCopy 21 20, .emplace 20 boom,
   .assignVal 20 (.ext (fun _ g => (none, 1#8, g)) true fun g => (.ok 1#8, g)), .ctorMove 22 20, .dtor 20, .dtor 22]

def lifeSpec : List (SRes (Obs (BitVec 8))) × SWorld (BitVec 8) (List String) :=
  (specRun (fun _ => loggingOps) lifeHistory (.init [])).getD ([], .init [])

theorem life_legal : Legal (env _ loggingOps false) [] lifeHistory lifeSpec.1 lifeSpec.2 := by
  refine ⟨?_, rfl, ?_, ?_⟩
  · intro op hop
    simp only [lifeHistory, List.mem_cons, List.not_mem_nil, or_false] at hop
    rcases hop with rfl | rfl | rfl | rfl | rfl | rfl | rfl <;>
      first | exact trivial | exact lit_lawful _ | exact boom_lawful | rfl | exact fun _ _ => ⟨_, rfl⟩
  · intro p hp
    change p ∈ [(20, 13#8), (20, 1#8), (20, 0#8), (22, 1#8)] at hp
    simp only [List.mem_cons, List.not_mem_nil, or_false] at hp
    rcases hp with rfl | rfl | rfl | rfl <;> simp [Config.Storable, env, sentCfg, Config.loc]
  · rintro ⟨op, r⟩ hp
    have hop := (List.of_mem_zip hp).1
    simp only [lifeHistory, List.mem_cons, List.not_mem_nil, or_false] at hop
    rcases hop with rfl | rfl | rfl | rfl | rfl | rfl | rfl <;> trivial

example : lifeSpec.1.map SResToRes =
    [.ok .unit, .throw (.user 13), .throw (.user 1), .ok .unit, .ok .unit, .ok .unit, .ok .unit] := rfl

theorem life_absent (x : Nat) : Absent x (run (env _ loggingOps false) lifeHistory (.init [])).2 := by
  by_cases h : x = 20 ∨ x = 21 ∨ x = 22
  · rcases h with rfl | rfl | rfl <;> rfl
  · refine (C36_frame_history _ _ _ x ?_).trans rfl
    simp only [not_or] at h
    simp [lifeHistory, Op.writes, h, Arg.writes, AArg.writes, lit, boom]

/-- `C03_all_destroyed` for it: object 1 was the value 13 (object 0 the flag that it replaced). -/
example : let w := (run (env _ loggingOps false) lifeHistory (.init [])).2
    created w.log 1 = 1 ∧ destroyed w.log 1 = 1 :=
  ⟨by decide +kernel, (C03_all_destroyed (env_wf loggingOps_lawful false) life_legal life_absent 1).trans (by decide +kernel)⟩

/-- `C03_balance` in the world of `Examples.lean`, where five payloads are alive. -/
example : (∀ id, leaked exWorld.log id = 0) ∧
    ∃ id, HoldsPayload 20 id exWorld ∧ created exWorld.log id = 1 ∧ destroyed exWorld.log id = 0 :=
  have h := C03_balance exEnv_wf ex_legal
  ⟨h.1, h.2.2 20 5#8 ex20⟩

/-- `C34_no_abandon_partial`: `reset` ends the payload and makes a flag; no flag is abandoned. -/
example (id : Nat) : flagAbandoned (execOp exEnv (.reset 20) exWorld).2.log id = flagAbandoned exWorld.log id :=
  C34_no_abandon_partial exEnv (.reset 20) rfl exWorld id

/-- `C34_dtor_empty_abandons` for the empty optional 21. -/
example : ∃ id, HoldsFlag 21 id exWorld ∧ (execOp exEnv (.dtor 21) exWorld).2.log = exWorld.log ++ [.flagAbandon id] :=
  C34_dtor_empty_abandons exEnv_wf ex_reach ex21 (by simp [env, sentCfg])

/-- `C36_existence`: a swap neither creates nor destroys an optional. -/
example (z : Nat) : Absent z (execOp exEnv (.swap 20 21) exWorld).2 ↔ Absent z exWorld :=
  C36_existence exEnv (.swap 20 21) exWorld z (by simp [Op.lifetimes])

/-- `C36_frame_history`: a history on other variables leaves 20 alone. -/
example : (run exEnv [.swap 22 21, .ctorCopy 25 22, .dtor 25, .reset 0] exWorld).2.mem 20 = exWorld.mem 20 :=
  C36_frame_history exEnv _ exWorld 20 (by simp [Op.writes])

/-- Swapping 0 and 1 changes both and leaves 2 alone. -/
example (z : Nat) (hz : z ≠ 0 ∧ z ≠ 1) (w : World (BitVec 8) Unit) :
    (execOp (env Unit scalarOps false) (.swap 0 1) w).2.mem z = w.mem z :=
  C36_frame _ _ _ _ (by simp [Op.writes, hz])

end Verif.Props
