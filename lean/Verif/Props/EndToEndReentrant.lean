import Verif.Props.Portability
import Verif.Props.Reentrant

/-!
# C49 and C66 for programs whose user code calls the library again
-/

namespace Verif.Props
open Verif Verif.Model Verif.Spec Verif.Examples

variable {P : Model.Prog} {V G α : Type} {S : Sem V}

/-- C49. `e`: the optional types of the variables as written in the program, accepted by the compiler. Every program that type-checks,
has a meaning for `std::optional` and stores only values that the documentation allows (and is not left out by C62) has the outcome of
`std::optional`, and leaves its values behind; no payload is leaked or destroyed twice, and all are destroyed when all optionals are. -/
theorem C49_reentrant (hS : S.Lawful P) {e : Nat → Entry} {i : Nat → Inst} (hc : Compiled P S e i) {ops : Nat → Ops V G}
    (hops : ∀ x, (ops x).Lawful) (nd : Bool) {g : G} (p : Verif.Prog V G α) (hp : ProgOK (progEnv S i ops nd) p) {r : SRes α}
    {sw : SWorld V G} (hr : specProg ops ⟨true, fun _ => !nd⟩ [] p (.init g) = (r, sw)) (hu : r ≠ .undef)
    (hst : ∀ q ∈ sw.trace, MayStore S (i q.1) q.2) :
    let out := runProg (progEnv S i ops nd) p (.init g)
    out.1 = SResToRes r ∧ Sees (progEnv S i ops nd) out.2 sw ∧
    (∀ id, leaked out.2.log id = 0 ∧ destroyed out.2.log id ≤ created out.2.log id) ∧
    ((∀ x, Absent x out.2) → ∀ id, destroyed out.2.log id = created out.2.log id) := by
  intro out
  obtain ⟨h1, h2, h3⟩ := C62_reentrant_partial (progEnv_wf hS hc hops nd) p hp g hr hu fun q hq =>
    mayStore_storable hS (hc.accepted q.1) (hc.valid q.1) (hst q hq)
  have ha := C62_accounting (progEnv S i ops nd) p g
  refine ⟨h1, h2, fun id => ⟨h3 id, ?_⟩, fun hd id => ?_⟩
  · have := ((ha id).1 _ (List.prefix_refl _)).2
    show destroyed (runProg _ p _).2.log id ≤ created (runProg _ p _).2.log id
    omega
  · have h4 := (ha id).2.2.1 fun ⟨x, s, v, hs, _⟩ => by
      have := hd x
      rw [Absent, hs] at this
      cases this
    rw [h3 id] at h4
    exact h4.symm

theorem progOK_off {i : Nat → Inst} {ops : Nat → Ops V G} {nd : Bool} (p : Verif.Prog V G α) (h : ProgOK (progEnv S i ops nd) p) :
    ProgOK (progEnv S (fun x => withoutTricks (i x)) ops nd) p := by
  induction p with
  | ret _ => trivial
  | user _ k ih => exact fun g => ih g (h g)
  | call op k ih => exact ⟨opOK_off h.1, fun r => ih r (h.2 r)⟩
  | construct _ _ _ _ ih1 ih => exact ⟨ih1 h.1, fun r => ih r (h.2 r)⟩
  | transfer _ _ _ _ _ ih1 ih => exact ⟨ih1 h.1, fun r => ih r (h.2 r)⟩
  | destroy _ _ _ ih1 ih => exact ⟨fun v => ih1 v (h.1 v), fun r => ih r (h.2 r)⟩
  | reset _ _ _ ih1 ih => exact ⟨fun v => ih1 v (h.1 v), fun r => ih r (h.2 r)⟩
  | assign _ _ _ _ _ ih1 ih2 ih => exact ⟨ih1 h.1, ih2 h.2.1, fun r => ih r (h.2.2 r)⟩
  | assignFrom _ _ _ _ _ _ _ ih1 ih2 ih3 ih => exact ⟨ih1 h.1, ih2 h.2.1, fun v => ih3 v (h.2.2.1 v), fun r => ih r (h.2.2.2 r)⟩
  | emplace _ _ _ _ _ ih1 ih2 ih => exact ⟨fun v => ih1 v (h.1 v), ih2 h.2.1, fun r => ih r (h.2.2 r)⟩
  | swap x y _ _ _ _ ih1 ih2 ih3 ih =>
    exact ⟨progEnv_off x y h.1, ih1 h.2.1, fun z => ih2 z (h.2.2.1 z), fun v => ih3 v (h.2.2.2.1 v), fun r => ih r (h.2.2.2.2 r)⟩
  | valueOr _ _ _ _ ih1 ih2 ih => exact ⟨ih1 h.1, ih2 h.2.1, fun r => ih r (h.2.2 r)⟩
  | andThen _ _ _ _ _ ih1 ih2 ih => exact ⟨ih1 h.1, fun z => ih2 z (h.2.1 z), fun r => ih r (h.2.2 r)⟩
  | transform _ _ _ _ _ ih1 ih => exact ⟨ih1 h.1, fun r => ih r (h.2 r)⟩
  | orElse _ _ _ _ _ _ ih1 ih2 ih => exact ⟨ih1 h.1, fun z => ih2 z (h.2.1 z), fun r => ih r (h.2.2 r)⟩
  | compare _ _ _ _ _ ih1 ih => exact ⟨fun a b => ih1 a b (h.1 a b), fun r => ih r (h.2 r)⟩
  | inspect _ _ _ _ ih1 ih => exact ⟨fun v => ih1 v (h.1 v), fun r => ih r (h.2 r)⟩

/-- C66, at run time. Every program that is legal with the tricks (`s` aside) has the same outcome without them, and the optionals hold
the same values after it. -/
theorem C66_reentrant {s : Settings} (hs : s.ubTricks = true) (hS : S.Lawful P) (hS' : S.Lawful (withSettings P s)) {e : Nat → Entry}
    {i : Nat → Inst} (hc : Compiled P S e i) (hx : ∀ x t, e x = .aip t none → ∀ b, (i x).manip ≠ .bits b) {ops : Nat → Ops V G}
    (hops : ∀ x, (ops x).Lawful) (nd : Bool) {g : G} (p : Verif.Prog V G α) (hp : ProgOK (progEnv S i ops nd) p) {r : SRes α}
    {sw : SWorld V G} (hr : specProg ops ⟨true, fun _ => !nd⟩ [] p (.init g) = (r, sw)) (hu : r ≠ .undef)
    (hst : ∀ q ∈ sw.trace, MayStore S (i q.1) q.2) :
    ∃ i', (∀ x, compile (withSettings P s) (e x) = .ok (i' x)) ∧
      (runProg (progEnv S i' ops nd) p (.init g)).1 = (runProg (progEnv S i ops nd) p (.init g)).1 ∧
      Sees (progEnv S i ops nd) (runProg (progEnv S i ops nd) p (.init g)).2 sw ∧
      Sees (progEnv S i' ops nd) (runProg (progEnv S i' ops nd) p (.init g)).2 sw := by
  have hacc : ∀ x, compile (withSettings P s) (e x) = .ok (withoutTricks (i x)) := fun x =>
    C66_compiles_partial hs (hc.accepted x) (hx x)
  obtain ⟨r1, s1, _⟩ := C49_reentrant hS hc hops nd p hp hr hu hst
  obtain ⟨r2, s2, _⟩ := C49_reentrant hS' (hc.withoutTricks hacc) hops nd p (progOK_off p hp) hr hu fun q hq => C66_no_reserve (hst q hq)
  exact ⟨_, hacc, r2.trans r1.symm, s1, s2⟩

/-! ### Example -/

/-- The program fills the `optional<S, &S::b>` of C49. The constructor of the payload fills the `optional<int, -1>`; the constructor of
that payload asks whether an `optional<int>` is filled, and throws as it is not, whereupon another value is tried. -/
private def fillsBoth : Verif.Prog (Nat → BitVec 64) Unit Bool :=
  .call (.ctorDefault 2) fun _ =>
  .construct 0 false (.construct 1 false (.call (.hasValue 2) fun
      | .ok (.bool true) => .ret (.ok fun _ => 5#64)
      | _ => .ret (.error (.user 3))) fun _ =>
    .construct 1 true (.ret (.ok fun _ => 6#64)) fun _ => .ret (.ok fun _ => 1#64)) fun _ =>
  .destroy 0 (fun _ => .reset 1 (fun _ => .ret (.ok ())) fun _ => .ret (.ok ())) fun _ =>
  .call (.hasValue 1) fun
    | .ok (.bool b) => .ret (.ok b)
    | _ => .ret (.error (.user 4))

private theorem fillsBoth_ok : ProgOK (progEnv exSem exInsts (fun _ => scalarOps) false) fillsBoth := by
  refine ⟨trivial, fun _ => ⟨⟨⟨trivial, fun r => ?_⟩, fun _ => ⟨trivial, fun _ => trivial⟩⟩, fun _ =>
    ⟨fun _ => ⟨fun _ => trivial, fun _ => trivial⟩, fun _ => ⟨trivial, fun r => ?_⟩⟩⟩⟩
  · dsimp only; split <;> trivial
  · dsimp only; split <;> trivial

private def fillsBothStd := specProg (fun _ => (scalarOps : Ops (Nat → BitVec 64) Unit)) ⟨true, fun _ => true⟩ [] fillsBoth (.init ())

private theorem fillsBoth_trace : fillsBothStd.2.trace = [(1, fun _ => 6#64), (0, fun _ => 1#64)] := rfl

private theorem fillsBoth_may (q) (hq : q ∈ fillsBothStd.2.trace) : MayStore exSem (exInsts q.1) q.2 := by
  rw [fillsBoth_trace] at hq
  simp only [List.mem_cons, List.not_mem_nil, or_false] at hq
  rcases hq with rfl | rfl
  · show exSem.eq _ _ _ = false
    rfl
  · refine ⟨fun j hj => ?_, 0, by decide, by decide⟩
    have : j = 0 := by simpa using hj
    subst this
    exact ⟨1#8, by decide⟩

example : (runProg (progEnv exSem exInsts (fun _ => scalarOps) false) fillsBoth (.init ())).1 = .ok false :=
  (C49_reentrant (exSem_lawful exSettings rfl) ex_compiled (fun _ => scalarOps_lawful) false fillsBoth fillsBoth_ok
    (r := fillsBothStd.1) (sw := fillsBothStd.2) rfl (by intro h; cases h) fillsBoth_may).1

example := C66_reentrant (s := portable) rfl (exSem_lawful exSettings rfl) (lawful_portable (exSem_lawful exSettings rfl)) ex_compiled
  (fun | 0, _ | 1, _ | 2, _ | _ + 3, _ => nofun) (fun _ => scalarOps_lawful) false fillsBoth fillsBoth_ok
  (r := fillsBothStd.1) (sw := fillsBothStd.2) rfl (by intro h; cases h) fillsBoth_may

end Verif.Props
