import Verif.Lemmas.Reentrant
import Verif.Examples
import Verif.Props.Compare
import Verif.Props.Reentrant

/-!
# C70: what the payload's destructor sees and may do

`Re.reset Γ x d` and the other functions of `Model/Reentrant.lean` run the program `d v` as the destructor of the payload `v`. Here `d` looks
at the optional that is being emptied, or changes the payload that is being destroyed.
-/

namespace Verif.Props
open Verif Verif.Model Verif.Examples

section
variable {V G α : Type} {Γ : Env V G} {w : World V G} {x y : Nat} {v : V}

/-! ### What the destructor sees -/

private theorem getPayload_of_holds (h : Holds Γ x v w) : getPayload x w = (.ok v, w) := by
  have hd := h.2
  unfold deref noexceptIf at hd
  rw [bind_ok (assertHas_run h.1)] at hd
  rcases hg : getPayload x w with ⟨a | e | k, w'⟩ <;> simp only [hg] at hd
  · exact hd
  · simp at hd
  · simp at hd

private theorem congr_noexceptIf {m m' : M V G α} (nt : Bool) (h : m w = m' w) : noexceptIf nt m w = noexceptIf nt m' w := by
  simp only [noexceptIf, h]

private theorem congr_bind {β : Type} {m m' : M V G α} {w : World V G} (h : m w = m' w) (f : α → M V G β) : (m >>= f) w = (m' >>= f) w := by
  show M.bind m f w = M.bind m' f w
  simp only [M.bind, h]

private theorem destroy_congr (h : Holds Γ x v w) {d d' : V → M V G Unit} (hd : d v w = d' v w) :
    Re.destroyPayload Γ x d w = Re.destroyPayload Γ x d' w := by
  unfold Re.destroyPayload
  apply congr_noexceptIf
  rw [bind_ok (getPayload_of_holds h), bind_ok (getPayload_of_holds h)]
  exact congr_bind hd _

private theorem reset_congr (h : Holds Γ x v w) {d d' : V → M V G Unit} (hd : d v w = d' v w) :
    Re.reset Γ x d w = Re.reset Γ x d' w := by
  unfold Re.reset
  apply congr_noexceptIf
  rw [bind_ok h.1, bind_ok h.1]
  simp only [if_true]
  exact congr_bind (destroy_congr h hd) _

/-- A destructor of the payload that first runs `m` (which looks at something) and then does what `k` says for the answer. -/
def Looking (m : M V G α) (k : V → α → M V G Unit) (v : V) : M V G Unit := do
  let a ← m
  k v a

/-- C70. While the destructor of the payload of `x` runs, everything looks as it did before the call: whatever observation `m` had the
answer `a` before the call has the answer `a` in the destructor, in every configuration; for `reset` and `= nullopt`, the destructor,
`emplace`, and the assignment of an empty optional. -/
theorem C70_sees_old_state (h : Holds Γ x v w) {m : M V G α} {a : α} (hm : m w = (.ok a, w)) (k : V → α → M V G Unit) :
    Re.reset Γ x (Looking m k) w = Re.reset Γ x (fun v => k v a) w ∧
    Re.storageDtor Γ x (Looking m k) w = Re.storageDtor Γ x (fun v => k v a) w ∧
    (∀ nt c, Re.emplace Γ x nt (Looking m k) c w = Re.emplace Γ x nt (fun v => k v a) c w) ∧
    (IsEmpty Γ y w → ∀ rv asg c, Re.assignFrom Γ rv x y asg c (Looking m k) w = Re.assignFrom Γ rv x y asg c (fun v => k v a) w) := by
  have hd : Looking m k v w = k v a w := bind_ok hm
  refine ⟨reset_congr h hd, ?_, fun nt c => ?_, fun hy rv asg c => ?_⟩
  · unfold Re.storageDtor
    apply congr_noexceptIf
    rw [bind_ok h.1, bind_ok h.1]
    simp only [if_true]
    exact congr_bind (destroy_congr h hd) _
  · exact congr_bind (reset_congr h hd) _
  · have : ∀ nt ntC, Re.copyOrMoveAssign Γ nt ntC asg c (Looking m k) x y w = Re.copyOrMoveAssign Γ nt ntC asg c (fun v => k v a) x y w := by
      intro nt ntC
      unfold Re.copyOrMoveAssign
      apply congr_noexceptIf
      rw [bind_ok hy, bind_ok hy]
      simp only [Bool.false_eq_true, if_false]
      exact congr_bind (reset_congr h hd) _
    cases rv <;> simp only [Re.assignFrom, Bool.false_eq_true, if_false, if_true, this]

/-- C70. In particular `x` itself is seen engaged, with the value that is being destroyed. -/
theorem C70_sees_itself (h : Holds Γ x v w) (k : V → Bool × V → M V G Unit) :
    Re.reset Γ x (Looking (do return (← hasValue Γ x, ← deref Γ x)) k) w = Re.reset Γ x (fun u => k u (true, v)) w ∧
    Re.storageDtor Γ x (Looking (do return (← hasValue Γ x, ← deref Γ x)) k) w = Re.storageDtor Γ x (fun u => k u (true, v)) w := by
  have hm : (do return (← hasValue Γ x, ← deref Γ x) : M V G (Bool × V)) w = (.ok (true, v), w) := by
    rw [bind_ok h.1, bind_ok h.2]
    rfl
  have := C70_sees_old_state (y := x) h hm k
  exact ⟨this.1, this.2.1⟩

/-- C70. `swap` with an empty optional, either way round: the destructor of the moved-from payload starts in the state `w₁` that the move
construction has left behind, in which the source is still engaged. -/
theorem C70_swap (h : hasValue Γ x w = (.ok true, w)) (hy : IsEmpty Γ y w) {c : Nat → M V G V} {w₁ : World V G}
    (h1 : constructWith Γ y (Γ y).ops.nothrowMoveCtor (c x) w = (.ok (), w₁)) {u : V} (hu : Holds Γ x u w₁) {m : M V G α} {a : α}
    (hm : m w₁ = (.ok a, w₁)) (swp : M V G Unit) (k : V → α → M V G Unit) :
    Re.swap Γ x y swp c (Looking m k) w = Re.swap Γ x y swp c (fun v => k v a) w ∧
    Re.swap Γ y x swp c (Looking m k) w = Re.swap Γ y x swp c (fun v => k v a) w := by
  have hd : Looking m k u w₁ = k u a w₁ := bind_ok hm
  constructor <;> unfold Re.swap <;> apply congr_noexceptIf
  · rw [bind_ok h, bind_ok hy, bind_ok h, bind_ok hy]
    simp only [show (true == false) = false from rfl, Bool.false_eq_true, if_false, if_true]
    rw [bind_ok h1, bind_ok h1]
    exact reset_congr hu hd
  · rw [bind_ok hy, bind_ok h, bind_ok hy, bind_ok h]
    simp only [show (false == true) = false from rfl, Bool.false_eq_true, if_false]
    rw [bind_ok h1, bind_ok h1]
    exact reset_congr hu hd

/-! ### What the destructor may do to the object -/

/-- A destructor that also gives the dying payload of `x` another value, for example `ptr = nullptr`. -/
def Clearing (Γ : Env V G) (x : Nat) (f : V → V) (v : V) : M V G Unit := do
  setPayload (Γ x).cfg x (f v)
  plainDtor (Γ x).ops v

private theorem fill_fill (b : Nat → Option (BitVec 8)) (o n : Nat) (f g : Nat → Option (BitVec 8)) :
    fill (fill b o n f) o n g = fill b o n g := by
  funext i
  unfold fill
  split <;> rfl

/-- C70. What the destructor leaves behind in the object does not matter, not even if it is a reserved value: destroying the payload
has the same effect as with a destructor that leaves the object alone, in every state. -/
theorem C70_clearing (Γ : Env V G) (x : Nat) (f : V → V) : Re.destroyPayload Γ x (Clearing Γ x f) = destroyPayloadOf Γ x := by
  rw [← C62_same_destroy]
  funext w
  simp only [Re.destroyPayload, Re.endPayload_eq]
  apply congr_noexceptIf
  rcases hx : w.mem x with _ | s
  · have hg : getPayload x w = (.abort (.ub .noOptional), w) := bind_abort (readStorage_none hx)
    rw [bind_abort hg, bind_abort hg]
  · rcases hp : s.payload with _ | p
    · have hg : getPayload x w = (.abort (.ub .noObject), w) := by
        unfold getPayload
        rw [bind_ok (readStorage_ok hx)]
        simp only [hp]
        rfl
      rw [bind_abort hg, bind_abort hg]
    · have hg : getPayload x w = (.ok p.val, w) := by
        unfold getPayload
        rw [bind_ok (readStorage_ok hx)]
        simp only [hp]
        rfl
      let s' : Storage V := { s with payload := some ⟨p.id, f p.val⟩, bytes := fill s.bytes 0 (Γ x).cfg.size ((Γ x).cfg.repr (f p.val)) }
      let w₁ : World V G := { w with mem := fun z => if z = x then some s' else w.mem z }
      have hs : setPayload (Γ x).cfg x (f p.val) w = (.ok (), w₁) := by
        unfold setPayload
        rw [bind_ok (readStorage_ok hx)]
        simp only [hp]
        rfl
      let g := (Γ x).ops.dtor p.val w.user
      have hc : Clearing Γ x f p.val w = (.ok (), { w₁ with user := g }) := by
        unfold Clearing
        rw [bind_ok hs]
        rfl
      have hpl : plainDtor (Γ x).ops p.val w = (.ok (), { w with user := g }) := rfl
      have hx' : w₁.mem x = some s' := if_pos rfl
      rw [bind_ok hg, bind_ok hc, bind_ok (readStorage_ok (w := { w₁ with user := g }) hx'), bind_ok hg, bind_ok hpl,
        bind_ok (readStorage_ok (w := { w with user := g }) hx)]
      simp only [hp, s']
      show (Res.ok (), _) = (Res.ok (), _)
      congr 2
      funext z
      simp only [w₁]
      split
      · rw [fill_fill]
      · rfl

/-- C70. The same for `reset` and `= nullopt`, the destructor and `emplace`. -/
theorem C70_clearing_calls (Γ : Env V G) (x : Nat) (f : V → V) :
    Re.reset Γ x (Clearing Γ x f) = reset Γ x ∧
    Re.storageDtor Γ x (Clearing Γ x f) = dtor Γ x ∧
    (∀ a, Re.emplace Γ x (nothrowArg (Γ x).ops a) (Clearing Γ x f) (evalArg Γ (Γ x).ops a) = emplace Γ x a) := by
  have hr : Re.reset Γ x (Clearing Γ x f) = Re.reset Γ x (plainDtor (Γ x).ops) := by
    unfold Re.reset
    rw [C70_clearing, C62_same_destroy]
  refine ⟨hr.trans (C62_same_reset Γ x), ?_, fun a => ?_⟩
  · rw [← C62_same_dtor]
    unfold Re.storageDtor
    rw [C70_clearing, C62_same_destroy]
  · rw [← C62_same_emplace]
    unfold Re.emplace
    rw [hr]

/-- C70. The same for copy assignment and move assignment. -/
theorem C70_clearing_assign (Γ : Env V G) (rv : Bool) (x y : Nat) (f : V → V) :
    Re.assignFrom Γ rv x y (payloadAssign Γ x (if rv then .moveOf y else .copyOf y))
        (evalArg Γ (Γ x).ops (if rv then .moveOf y else .copyOf y)) (Clearing Γ x f) =
      if rv then moveAssign Γ x y else copyAssign Γ x y := by
  rw [← C62_same_assign_from]
  unfold Re.assignFrom Re.copyOrMoveAssign
  rw [(C70_clearing_calls Γ x f).1, C62_same_reset]

/-- C70. The same for `swap` with an empty optional, either way round, whatever the move construction does. -/
theorem C70_clearing_swap (h : hasValue Γ x w = (.ok true, w)) (hy : IsEmpty Γ y w) (hxy : Γ x = Γ y) (swp : M V G Unit)
    (c : Nat → M V G V) (f : V → V) :
    Re.swap Γ x y swp c (Clearing Γ x f) w = Re.swap Γ x y swp c (plainDtor (Γ x).ops) w ∧
    Re.swap Γ y x swp c (Clearing Γ x f) w = Re.swap Γ y x swp c (plainDtor (Γ y).ops) w := by
  constructor <;> unfold Re.swap <;> apply congr_noexceptIf
  · rw [bind_ok h, bind_ok hy, bind_ok h, bind_ok hy]
    simp only [show (true == false) = false from rfl, Bool.false_eq_true, if_false, if_true]
    rw [(C70_clearing_calls Γ x f).1, C62_same_reset]
  · rw [bind_ok hy, bind_ok h, bind_ok hy, bind_ok h]
    simp only [show (false == true) = false from rfl, Bool.false_eq_true, if_false]
    rw [(C70_clearing_calls Γ x f).1, ← hxy, C62_same_reset]

/-! ### What it must not do -/

/-- C70. Emptying the optional from within the destructor of its payload is undefined behaviour in every configuration: the destructor
of the same object is run again. -/
theorem C70_twice (hΓ : EnvWF Γ) (hw : Reach Γ w) (h : Holds Γ x v w) :
    (∃ w', Re.reset Γ x (fun _ => reset Γ x) w = (.abort (.ub .noObject), w')) ∧
    ∃ w', Re.storageDtor Γ x (fun _ => reset Γ x) w = (.abort (.ub .noObject), w') := by
  obtain ⟨sw, hR, _⟩ := hw.rel hΓ
  have hv := (hR.holds_iff hΓ).1 h
  obtain ⟨w₁, h1, hR1⟩ := reset_sim hΓ hR (x := x) (by simp [Spec.reset, sm_bind, Spec.get, hv, Spec.destroyVal])
  have hr : reset Γ x w = (.ok (), w₁) := by
    rw [h1]
    simp [Spec.reset, sm_bind, Spec.get, hv, Spec.destroyVal, lift, SResToRes]
  have hx1 : (Spec.reset (Γ x).ops x sw).2.vars x = some none := by
    simp [Spec.reset, sm_bind, Spec.get, hv, Spec.destroyVal]
  obtain ⟨s, hs, he⟩ := hR1.emp hx1
  have hd : Re.destroyPayload Γ x (fun _ => reset Γ x) w = (.abort (.ub .noObject), w₁) := by
    rw [Re.destroyPayload, Re.endPayload_eq]
    apply noexceptIf_abort
    rw [bind_ok (getPayload_of_holds h), bind_ok hr, bind_ok (readStorage_ok hs)]
    simp only [he.1]
    rfl
  refine ⟨⟨w₁, ?_⟩, w₁, ?_⟩
  · unfold Re.reset
    apply noexceptIf_abort
    rw [bind_ok h.1]
    simp only [if_true]
    exact bind_abort hd
  · unfold Re.storageDtor
    apply noexceptIf_abort
    rw [bind_ok h.1]
    simp only [if_true]
    exact bind_abort hd

end

/-! ### The claims at work -/

/-- A destructor that writes down what it sees: whether the optional has a value, and which one. -/
private def exNote (_ : BitVec 8) (a : Bool × BitVec 8) : M (BitVec 8) (List String) Unit :=
  userPure fun g => ((), g ++ [s!"{a.1} {a.2.toNat}"])

/-- Separate flag (0) or sentinel (20): the destructor sees the old value, and the optional is empty afterwards. -/
example :
    (Re.reset exEnv 20 (Looking (do return (← hasValue exEnv 20, ← deref exEnv 20)) exNote) exWorld).2.user =
      (Re.reset exEnv 20 (fun u => exNote u (true, 5#8)) exWorld).2.user ∧
    (Re.reset exEnv 20 (fun u => exNote u (true, 5#8)) exWorld).2.user = exWorld.user ++ ["true 5"] ∧
    IsEmpty exEnv 20 (Re.reset exEnv 20 (fun u => exNote u (true, 5#8)) exWorld).2 :=
  ⟨congrArg (·.2.user) (C70_sees_itself ex20 exNote).1, by decide +kernel, rfl⟩

example : Re.storageDtor exEnv 0 (Looking (do return (← hasValue exEnv 0, ← deref exEnv 0)) exNote) exWorld =
    Re.storageDtor exEnv 0 (fun u => exNote u (true, 42#8)) exWorld :=
  (C70_sees_itself ex0 exNote).2

/-- Emptied by assigning an empty optional, the destructor asks for another optional. -/
example : Re.assignFrom exEnv false 20 21 (pure ()) (pure 0#8) (Looking (hasValue exEnv 22) fun _ b => exNote 0#8 (b, 0#8)) exWorld =
    Re.assignFrom exEnv false 20 21 (pure ()) (pure 0#8) (fun _ => exNote 0#8 (true, 0#8)) exWorld :=
  (C70_sees_old_state ex20 ex22.1 _).2.2.2 ex21 false _ _

private def exSwapped : World (BitVec 8) (List String) :=
  (constructWith exEnv 21 (exEnv 21).ops.nothrowMoveCtor (evalArg exEnv (exEnv 20).ops (.moveOf 20)) exWorld).2

/-- Swapping with an empty optional: the destructor of the moved-from payload finds the other optional engaged already. -/
example : Re.swap exEnv 20 21 (pure ()) (fun y => evalArg exEnv (exEnv 20).ops (.moveOf y))
      (Looking (do return (← hasValue exEnv 21, ← deref exEnv 20)) exNote) exWorld =
    Re.swap exEnv 20 21 (pure ()) (fun y => evalArg exEnv (exEnv 20).ops (.moveOf y)) (fun u => exNote u (true, 0#8)) exWorld :=
  (C70_swap ex20.1 ex21 (w₁ := exSwapped) rfl (u := 0#8) ⟨rfl, rfl⟩ (m := do return (← hasValue exEnv 21, ← deref exEnv 20)) rfl _ _).1

/-- The destructor leaves the reserved value 42 behind. -/
example : Re.reset exEnv 20 (Clearing exEnv 20 fun _ => 42#8) exWorld = reset exEnv 20 exWorld ∧
    (Clearing exEnv 20 (fun _ => 42#8) 5#8 >>= fun _ => hasValue exEnv 20) exWorld =
      (.ok false, (Clearing exEnv 20 (fun _ => 42#8) 5#8 exWorld).2) :=
  ⟨congrFun (C70_clearing_calls exEnv 20 _).1 _, rfl⟩

/-- Also in `swap`, which afterwards is the library's. -/
example : Re.swap exEnv 20 21 (pure ()) (fun y => evalArg exEnv (exEnv 20).ops (.moveOf y)) (Clearing exEnv 20 fun _ => 42#8) exWorld =
    Re.swap exEnv 20 21 (pure ()) (fun y => evalArg exEnv (exEnv 20).ops (.moveOf y)) (plainDtor (exEnv 20).ops) exWorld :=
  (C70_clearing_swap ex20.1 ex21 rfl _ _ _).1

example : ∃ w', Re.reset exEnv 20 (fun _ => reset exEnv 20) exWorld = (.abort (.ub .noObject), w') := (C70_twice exEnv_wf ex_reach ex20).1

end Verif.Props
