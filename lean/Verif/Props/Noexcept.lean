import Verif.Lemmas.Calm
import Verif.Examples

/-!
# C37: noexcept promises

The statements are about *every* world, reachable or not, including worlds in which reserved values were stored.
-/

namespace Verif.Props
open Verif Verif.Model Verif.Examples
variable {V G : Type} {Γ : Env V G}

/-- The outcome is neither an exception nor `std::terminate`. -/
def Quietly {α : Type} (r : Res α) : Prop := (∀ e, r ≠ .throw e) ∧ r ≠ .abort .terminate

/-- The calls that the interface declares unconditionally `noexcept`. -/
def AlwaysNoexcept : Op V G → Prop
  | .ctorDefault _ | .dtor _ | .reset _ | .assignNullopt _ | .hasValue _ | .deref _ => True
  | _ => False

/-- C37. Construction from nothing or `nullopt`, `reset`, `= nullopt`, `has_value`, `operator*` and destruction: no exception
leaves them *and* none is turned into `std::terminate`; no assumption on configuration, payload or world. -/
theorem C37_always {op : Op V G} (h : AlwaysNoexcept op) (w : World V G) : Quietly (execOp Γ op w).1 := by
  have key : ∀ {α : Type} {m : M V G α} (f : α → Obs V), Calm m → Quietly ((m >>= fun a => pure (f a)) w).1 := by
    intro α m f hm
    have := hm.bind (f := fun a => (pure (f a) : M V G (Obs V))) fun a => calm_pure _
    exact ⟨fun e => this.1 w e, this.2 w⟩
  cases op <;> simp only [AlwaysNoexcept] at h
  case ctorDefault x => exact key (fun _ => .unit) (calm_storageDefaultCtor x)
  case dtor x => exact key (fun _ => .unit) (calm_storageDtor x)
  case reset x => exact key (fun _ => .unit) (calm_reset x)
  case assignNullopt x => exact key (fun _ => .unit) ((calm_reset x).noexceptIf true)
  case hasValue x => exact key .bool (calm_hasValue x)
  case deref x => exact key .val (calm_deref x)

example := C37_always (Γ := exEnv) (op := .reset 20) trivial exWorld

/-- The calls whose noexcept-ness depends on the payload, with the condition `std::optional` documents for it. -/
def PayloadNoexcept (Γ : Env V G) : Op V G → Prop
  | .ctorMove x _ => (Γ x).ops.nothrowMoveCtor = true
  | .assignMove x _ => (Γ x).ops.nothrowMoveCtor = true ∧ (Γ x).ops.nothrowMoveAssign = true
  | .swap x _ => (Γ x).ops.nothrowMoveCtor = true ∧ (Γ x).ops.nothrowSwap = true
  | _ => False

/-- C37. Move construction, move assignment and swap: neither an exception nor `std::terminate` if the corresponding
operations of the payload are noexcept, in any world. -/
theorem C37_payload (hΓ : EnvWF Γ) {op : Op V G} (hop : OpOK Γ op) (h : PayloadNoexcept Γ op) (w : World V G) :
    Quietly (execOp Γ op w).1 := by
  have key : ∀ {m : M V G Unit}, NoThrow m → NoTerm m → Quietly ((m >>= fun _ => pure (Obs.unit : Obs V)) w).1 := by
    intro m h1 h2
    have := Calm.bind (f := fun _ => (pure .unit : M V G (Obs V))) ⟨h1, h2⟩ fun a => calm_pure _
    exact ⟨fun e => this.1 w e, this.2 w⟩
  cases op <;> simp only [PayloadNoexcept] at h
  case ctorMove x y =>
    exact key (noThrow_copyOrMoveCtor hΓ x y (a := .moveOf y) trivial h) (noTerm_copyOrMoveCtor hΓ x y trivial fun h => h)
  case assignMove x y => exact key (noThrow_moveAssign hΓ x y h.2 h.1) (noTerm_moveAssign hΓ x y)
  case swap x y =>
    have hs := swap_calm hΓ x y (congrArg Ty.ops hop)
    exact key (hs.2 h.1 h.2) hs.1

example := C37_payload (env_wf scalarOps_lawful false) (op := .swap 20 21) rfl ⟨rfl, rfl⟩ exWorldS

/-- C37. No other call hides a `std::terminate` either: in any world, the only call that can terminate the program through
an exception is a `transform` (finding 1 of DESIGN.md) whose result is nothrow constructible from what the callable returns. -/
theorem C37_no_terminate (hΓ : EnvWF Γ) {op : Op V G} (hop : OpOK Γ op)
    (ht : ∀ nt x dst f, op = .transform nt x dst f → nt = false) (w : World V G) :
    (execOp Γ op w).1 ≠ .abort .terminate := by
  have key : ∀ {α : Type} {m : M V G α} (f : α → Obs V), NoTerm m → NoTerm (m >>= fun a => pure (f a)) :=
    fun f hm => hm.bind fun a => (calm_pure _).2
  revert w
  show NoTerm (execOp Γ op)
  cases op with
  | ctorDefault x => exact key (fun _ => .unit) (calm_storageDefaultCtor x).2
  | ctorInPlace x a => exact key (fun _ => .unit) (noTerm_inPlaceCtor hΓ x hop)
  | ctorCopy x y => exact key (fun _ => .unit) (noTerm_copyOrMoveCtor hΓ x y (a := .copyOf y) trivial fun h => by simp at h)
  | ctorMove x y => exact key (fun _ => .unit) (noTerm_copyOrMoveCtor hΓ x y (a := .moveOf y) trivial fun h => h)
  | dtor x => exact key (fun _ => .unit) (calm_storageDtor x).2
  | reset x => exact key (fun _ => .unit) (calm_reset x).2
  | assignNullopt x => exact key (fun _ => .unit) ((calm_reset x).noexceptIf true).2
  | assignVal x a => exact key (fun _ => .unit) (noTerm_assignValue hΓ x hop)
  | assignScalar x tmp a =>
    refine key (fun _ => .unit) ((noTerm_inPlaceCtor hΓ tmp hop.2).bind fun _ => ?_)
    exact ((noTerm_moveAssign hΓ x tmp).onThrow (calm_storageDtor tmp)).bind fun _ => (calm_storageDtor tmp).2
  | assignCopy x y =>
    exact key (fun _ => .unit) (noTerm_copyOrMoveAssign hΓ x y (a := .copyOf y) trivial fun h => by simp at h)
  | assignMove x y => exact key (fun _ => .unit) (noTerm_moveAssign hΓ x y)
  | emplace x a =>
    exact key .val ((calm_reset x).2.bind fun _ => (noTerm_constructPayload hΓ x hop).bind fun _ =>
      (calm_assertHas x true).2.bind fun _ => (calm_getPayload x).2)
  | swap x y => exact key (fun _ => .unit) (swap_calm hΓ x y (congrArg Ty.ops hop)).1
  | hasValue x => exact key .bool (calm_hasValue x).2
  | deref x => exact key .val (calm_deref x).2
  | value x =>
    refine key .val ((calm_hasValue x).2.bind fun b => ?_)
    cases b
    · exact noTerm_throwE _
    · exact (calm_getPayload x).2
  | valueOr rv x d =>
    refine key .val ((calm_hasValue x).2.bind fun b => ?_)
    cases b
    · exact noTerm_userCall _
    · exact noTerm_evalArg _ _
  | modify x f =>
    exact key (fun _ => .unit) ((calm_deref x).2.bind fun v => (calm_userPure _).2.bind fun p =>
      (calm_setPayload _ _ _).2.bind fun _ => noTerm_checkE _)
  | andThen x dst f =>
    refine key (fun _ => .unit) ((calm_hasValue x).2.bind fun b => ?_)
    cases b
    · exact (calm_storageDefaultCtor dst).2
    · exact (noTerm_invokeOn x f).bind fun r => noTerm_materialize hΓ dst r
  | transform nt x dst f =>
    refine key (fun _ => .unit) ((calm_hasValue x).2.bind fun b => ?_)
    cases b
    · exact (calm_storageDefaultCtor dst).2
    · refine (calm_assertHas x true).2.bind fun _ => (calm_allocate dst).2.bind fun _ => NoTerm.onThrow ?_ (calm_release dst)
      refine (calm_initEmptyFlag _ dst).2.bind fun _ => noTerm_constructWith dst ?_ ?_
      · exact (calm_getPayload x).2.bind fun v => (calm_userPure _).2.bind fun p => (calm_setPayload _ _ _).2.bind fun _ =>
          noTerm_result p.1
      · intro h
        rw [ht nt x dst f rfl] at h
        simp at h
  | orElse rv x dst f =>
    refine key (fun _ => .unit) ((calm_hasValue x).2.bind fun b => ?_)
    cases b
    · exact (noTerm_userCall f).bind fun r => noTerm_materialize hΓ dst r
    · cases rv
      · exact noTerm_copyOrMoveCtor hΓ dst x (a := .copyOf x) trivial fun h => by simp at h
      · exact noTerm_copyOrMoveCtor hΓ dst x (a := .moveOf x) trivial fun h => h

example := C37_no_terminate exEnv_wf (op := .assignMove 20 24) rfl (by simp) exWorld

/-- Not turned into `std::terminate` when the payload's move constructor may throw (in general: `C09_move_ctor_throws`). -/
example : (execOp exEnv (.ctorMove 25 24) exWorld).1 = .throw (.user 99) := rfl

end Verif.Props
