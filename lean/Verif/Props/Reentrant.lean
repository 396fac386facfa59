import Verif.Lemmas.Calm
import Verif.Lemmas.Frame
import Verif.Lemmas.Reentrant
import Verif.Props.Construct

/-! # C62: user code that calls the library while the library is calling it -/

namespace Verif.Props
open Verif Verif.Model
open Verif.Spec (SM SWorld SRes specProg)

section
variable {V G α : Type} {Γ : Env V G}

/-! ### The code is that of the other claims -/

/-- The destructor of the other claims: a function of the value and the user state. -/
def plainDtor (o : Ops V G) (v : V) : M V G Unit := userPure fun g => ((), o.dtor v g)

/-- C62. `DestroyPayload`. -/
theorem C62_same_destroy (Γ : Env V G) (x : Nat) : Re.destroyPayload Γ x (plainDtor (Γ x).ops) = destroyPayloadOf Γ x := by
  funext w
  rw [Re.destroyPayload, Re.endPayload_eq]
  unfold destroyPayloadOf destroyPayload noexceptIf
  rcases hx : w.mem x with _ | s
  · rw [bind_abort (m := getPayload x) (k := .ub .noOptional) (w' := w) (bind_abort (readStorage_none hx)),
      bind_abort (readStorage_none hx)]
  · rcases hp : s.payload with _ | p
    · have h1 : getPayload x w = (.abort (.ub .noObject), w) := by
        unfold getPayload
        rw [bind_ok (readStorage_ok hx)]
        simp only [hp]
        rfl
      rw [bind_abort h1, bind_ok (readStorage_ok hx)]
      simp only [hp]
      rfl
    · have h1 : getPayload x w = (.ok p.val, w) := by
        unfold getPayload
        rw [bind_ok (readStorage_ok hx)]
        simp only [hp]
        rfl
      have h2 : plainDtor (Γ x).ops p.val w = (.ok (), { w with user := (Γ x).ops.dtor p.val w.user }) := rfl
      rw [bind_ok h1, bind_ok h2, bind_ok (readStorage_ok (w := { w with user := (Γ x).ops.dtor p.val w.user }) hx),
        bind_ok (readStorage_ok hx)]
      simp only [hp]
      rfl

/-- C62. `reset`, `x = std::nullopt`. -/
theorem C62_same_reset (Γ : Env V G) (x : Nat) : Re.reset Γ x (plainDtor (Γ x).ops) = reset Γ x := by
  unfold Re.reset reset
  rw [C62_same_destroy]

/-- C62. The destructor. -/
theorem C62_same_dtor (Γ : Env V G) (x : Nat) : Re.storageDtor Γ x (plainDtor (Γ x).ops) = dtor Γ x := by
  unfold Re.storageDtor dtor storageDtor
  rw [C62_same_destroy]

/-- C62. In-place constructor, converting constructors, `make_optional`. -/
theorem C62_same_construct (Γ : Env V G) (x : Nat) (a : Arg V G) :
    Re.storageCtor Γ x (nothrowArg (Γ x).ops a) (evalArg Γ (Γ x).ops a) = inPlaceCtor Γ x a := by
  simp only [Re.storageCtor, inPlaceCtor, storageInPlaceCtor, constructPayload]

/-- C62. Copy and move constructor. -/
theorem C62_same_transfer (Γ : Env V G) (rv : Bool) (x y : Nat) :
    Re.transfer Γ rv x y (evalArg Γ (Γ x).ops (if rv then .moveOf y else .copyOf y)) =
      if rv then moveCtor Γ x y else copyCtor Γ x y := by
  cases rv <;>
    simp only [Re.transfer, Bool.false_eq_true, if_false, if_true, copyCtor, moveCtor, Re.copyOrMoveCtor, copyOrMoveCtor,
      constructPayload, nothrowArg]

/-- C62. `x = arg`. -/
theorem C62_same_assign (Γ : Env V G) (x : Nat) (a : AArg V G) :
    Re.assignValue Γ x (nothrowArg (Γ x).ops a.toArg) (payloadAssign Γ x a) (evalArg Γ (Γ x).ops a.toArg) = assignVal Γ x a := by
  simp only [Re.assignValue, assignVal, assignValue, constructPayload]

/-- C62. Copy and move assignment. -/
theorem C62_same_assign_from (Γ : Env V G) (rv : Bool) (x y : Nat) :
    Re.assignFrom Γ rv x y (payloadAssign Γ x (if rv then .moveOf y else .copyOf y))
        (evalArg Γ (Γ x).ops (if rv then .moveOf y else .copyOf y)) (plainDtor (Γ x).ops) =
      if rv then moveAssign Γ x y else copyAssign Γ x y := by
  cases rv <;>
    simp only [Re.assignFrom, Bool.false_eq_true, if_false, if_true, copyAssign, moveAssign, Re.copyOrMoveAssign, copyOrMoveAssign,
      C62_same_reset, Re.assignValue, assignValue, constructPayload, nothrowArg, AArg.toArg]

/-- C62. `emplace`. -/
theorem C62_same_emplace (Γ : Env V G) (x : Nat) (a : Arg V G) :
    Re.emplace Γ x (nothrowArg (Γ x).ops a) (plainDtor (Γ x).ops) (evalArg Γ (Γ x).ops a) = emplace Γ x a := by
  simp only [Re.emplace, emplace, C62_same_reset, constructPayload]

/-- C62. `swap`. -/
theorem C62_same_swap (Γ : Env V G) (x y : Nat) (hxy : Γ x = Γ y) :
    Re.swap Γ x y (do
        let a ← getPayload x
        let b ← getPayload y
        if x = y then do
          let (e, a') ← userPure (fun g => let (e, a', g') := (Γ x).ops.selfSwap a g; ((e, a'), g'))
          setPayload (Γ x).cfg x a'
          checkE e
        else do
          let (e, a', b') ← userPure (fun g => let (e, a', b', g') := (Γ x).ops.swap a b g; ((e, a', b'), g'))
          setPayload (Γ x).cfg x a'
          setPayload (Γ y).cfg y b'
          checkE e)
      (fun y => evalArg Γ (Γ x).ops (.moveOf y)) (plainDtor (Γ x).ops) = swap Γ x y := by
  unfold Re.swap swap
  rw [C62_same_reset, show Re.reset Γ y (plainDtor (Γ x).ops) = reset Γ y by rw [hxy, C62_same_reset]]
  simp only [constructPayload, nothrowArg, ← hxy]

/-- C62. `value_or`. -/
theorem C62_same_value_or (Γ : Env V G) (rv : Bool) (x : Nat) (d : G → Except Exn V × G) :
    Re.valueOr Γ x (evalArg Γ (Γ x).ops (if rv then .moveOf x else .copyOf x)) (userCall d) = valueOr Γ rv x d := by
  simp only [Re.valueOr, valueOr]

/-- C62. `transform`: the callable gets the payload. -/
theorem C62_same_transform (Γ : Env V G) (nt : Bool) (x dst : Nat) (f : V → G → Except Exn V × V × G) :
    Re.transform Γ nt x dst (do
      let v ← getPayload x
      let (r, v') ← userPure (fun g => let (r, v', g') := f v g; ((r, v'), g'))
      setPayload (Γ x).cfg x v'
      match r with
      | .ok a => pure a
      | .error e => throwE e) = transform Γ nt x dst f := by
  simp only [Re.transform, Re.storageCtor, transform, storageFunctionCtor, constructPayloadFromFunction]
  refine congrArg (hasValue Γ x >>= ·) (funext fun b => ?_)
  cases b
  · rfl
  · rw [if_pos rfl, if_pos rfl]
    refine congrArg (assertHas Γ x true >>= ·) (funext fun _ => congrArg (allocate dst >>= ·) (funext fun _ => ?_))
    refine congrArg (onThrow · _) (congrArg (initEmptyFlag (Γ dst).cfg dst >>= ·) (funext fun _ => congrArg (constructWith Γ dst _) ?_))
    refine congrArg (getPayload x >>= ·) (funext fun v => congrArg (userPure _ >>= ·) (funext fun p =>
      congrArg (setPayload (Γ x).cfg x p.2 >>= ·) (funext fun _ => ?_)))
    cases p.1 <;> rfl

private theorem m_assoc {β γ : Type} (m : M V G α) (f : α → M V G β) (h : β → M V G γ) :
    ((m >>= f) >>= h) = (m >>= fun a => f a >>= h) := by
  funext w
  rcases hw : m w with ⟨a | e | k, w'⟩
  · rw [bind_ok hw]
    rcases hf : f a w' with ⟨b | e | k, w''⟩
    · rw [bind_ok (m := m >>= f) (by rw [bind_ok hw]; exact hf), bind_ok hf]
    · rw [bind_throw (m := m >>= f) (by rw [bind_ok hw]; exact hf), bind_throw hf]
    · rw [bind_abort (m := m >>= f) (by rw [bind_ok hw]; exact hf), bind_abort hf]
  · rw [bind_throw hw, bind_throw (m := m >>= f) (bind_throw hw)]
  · rw [bind_abort hw, bind_abort (m := m >>= f) (bind_abort hw)]

private theorem m_unit (m : M V G Unit) : (m >>= fun _ => (pure () : M V G Unit)) = m := by
  funext w
  rcases hw : m w with ⟨a | e | k, w'⟩
  · rw [bind_ok hw]; rfl
  · rw [bind_throw hw]
  · rw [bind_abort hw]

private theorem m_nothrow {m : M V G α} (h : NoThrow m) (b : Bool) : noexceptIf b m = m := by
  funext w
  unfold noexceptIf
  have := h w
  rcases hw : m w with ⟨a | e | k, w'⟩
  · rfl
  · rw [hw] at this; exact absurd rfl (this e)
  · rfl

/-- C62. `and_then`: the callable gets the payload and constructs the result. -/
theorem C62_same_and_then (Γ : Env V G) (x dst : Nat) (f : V → G → Except Exn (Option V) × V × G) (ctor : Nat → M V G V) :
    Re.andThen Γ x dst (do
      let v ← getPayload x
      let (r, v') ← userPure (fun g => let (r, v', g') := f v g; ((r, v'), g'))
      setPayload (Γ x).cfg x v'
      match r with
      | .ok a => do
        materialize Γ dst a
        pure .object
      | .error e => throwE e) ctor = andThen Γ x dst f := by
  unfold Re.andThen andThen
  refine congrArg (hasValue Γ x >>= ·) (funext fun b => ?_)
  cases b
  · rfl
  · rw [if_pos rfl, if_pos rfl]
    unfold invokeOn deref
    rw [m_nothrow ((calm_assertHas x true).bind fun _ => calm_getPayload x).1]
    simp only [m_assoc]
    refine congrArg (assertHas Γ x true >>= ·) (funext fun _ => congrArg (getPayload x >>= ·) (funext fun v =>
      congrArg (userPure _ >>= ·) (funext fun p => congrArg (setPayload (Γ x).cfg x p.2 >>= ·) (funext fun _ => ?_))))
    cases p.1 with
    | error e => rfl
    | ok a => exact (m_assoc _ _ _).trans (m_unit _)

/-- C62. `or_else`. -/
theorem C62_same_or_else (Γ : Env V G) (rv : Bool) (x dst : Nat) (f : G → Except Exn (Option V) × G) :
    Re.orElse Γ rv x dst (do
      let r ← userCall f
      materialize Γ dst r
      pure .object) (fun y => evalArg Γ (Γ dst).ops (if rv then .moveOf y else .copyOf y)) = orElse Γ rv x dst f := by
  unfold Re.orElse orElse
  refine congrArg (hasValue Γ x >>= ·) (funext fun b => ?_)
  cases b
  · rw [if_neg Bool.false_ne_true, if_neg Bool.false_ne_true, m_assoc]
    refine congrArg (userCall f >>= ·) (funext fun r => ?_)
    cases rv <;> exact (m_assoc _ _ _).trans (m_unit _)
  · rw [if_pos rfl, if_pos rfl]
    exact C62_same_transfer Γ rv dst x

/-- C62. Comparisons of two optionals. -/
theorem C62_same_compare {A B : Type} (l : OptLike V G A) (r : OptLike V G B) :
    (∀ op (cmp : Spec.RelOp → UserCmp G A B Bool), Re.compare l r (.rel op) (fun a b => userCall (cmp op a b)) = optRel l r op cmp) ∧
    (∀ cmp : UserCmp G A B Spec.Cmp, Re.compare l r .spaceship (fun a b => userCall (cmp a b)) = optSpaceship l r cmp) :=
  ⟨fun op _ => by cases op <;> rfl, fun _ => rfl⟩

/-- User code that compares a payload with the payload of a `std::optional`, if there is one. -/
def againstStd {A U R : Type} (o : Option U) (cmp : A → U → G → Except Exn R × G) (a : A) : M V G R :=
  match o with
  | some u => userCall (cmp a u)
  | none => ubM .noObject

/-- C62. Comparisons with a `std::optional`. -/
theorem C62_same_compare_std {U : Type} (Γ : Env V G) (x : Nat) (o : Option U) :
    (∀ op (cmp : Spec.RelOp → UserCmp G V U Bool),
      Re.inspect Γ x (.withStd false op o.isSome) (againstStd o (cmp op)) = optRel (tinyOpt Γ x) (stdOpt o) op cmp) ∧
    (∀ op (cmp : Spec.RelOp → UserCmp G U V Bool),
      Re.inspect Γ x (.withStd true op o.isSome) (againstStd o fun v u => cmp op u v) = optRel (stdOpt o) (tinyOpt Γ x) op cmp) ∧
    (∀ cmp : UserCmp G V U Spec.Cmp,
      Re.inspect Γ x (.spaceshipStd false o.isSome) (againstStd o cmp) = optSpaceship (tinyOpt Γ x) (stdOpt o) cmp) ∧
    (∀ cmp : UserCmp G U V Spec.Cmp,
      Re.inspect Γ x (.spaceshipStd true o.isSome) (againstStd o fun v u => cmp u v) = optSpaceship (stdOpt o) (tinyOpt Γ x) cmp) := by
  have key : ∀ {R : Type} (cmp : UserCmp G V U R), Re.payloadCmp (tinyOpt Γ x) (stdOpt (if o.isSome = true then some () else none))
      (fun v _ => againstStd o cmp v) = payloadCmp (tinyOpt Γ x) (stdOpt o) cmp := by
    intro R cmp
    cases o <;> rfl
  have key' : ∀ {R : Type} (cmp : UserCmp G U V R), Re.payloadCmp (stdOpt (if o.isSome = true then some () else none)) (tinyOpt Γ x)
      (fun _ v => againstStd o (fun v u => cmp u v) v) = payloadCmp (stdOpt o) (tinyOpt Γ x) cmp := by
    intro R cmp
    cases o <;> rfl
  have hv : (stdOpt (if o.isSome = true then some () else none) : OptLike V G Unit).hasValue = (stdOpt o : OptLike V G U).hasValue := by
    cases o <;> rfl
  refine ⟨fun op cmp => ?_, fun op cmp => ?_, fun cmp => ?_, fun cmp => ?_⟩
  · cases op <;> simp only [Re.inspect, Re.optRel, Re.optEq, Re.optNe, Re.optLt, Re.optLe, Re.optGt, Re.optGe, optRel, optEq, optNe,
      optLt, optLe, optGt, optGe, hv, key]
  · cases op <;> simp only [Re.inspect, Re.optRel, Re.optEq, Re.optNe, Re.optLt, Re.optLe, Re.optGt, Re.optGe, optRel, optEq, optNe,
      optLt, optLe, optGt, optGe, hv, key']
  · simp only [Re.inspect, Re.optSpaceship, optSpaceship, hv, key]
  · simp only [Re.inspect, Re.optSpaceship, optSpaceship, hv, key']

/-- C62. Comparisons with a value, and the hash. -/
theorem C62_same_compare_value {U : Type} (Γ : Env V G) (x : Nat) (u : U) :
    (∀ op (cmp : Spec.RelOp → UserCmp G V U Bool),
      Re.inspect Γ x (.withValue false op) (fun v => userCall (cmp op v u)) = relValue Γ x u op cmp) ∧
    (∀ op (cmp : Spec.RelOp → UserCmp G U V Bool),
      Re.inspect Γ x (.withValue true op) (fun v => userCall (cmp op u v)) = valueRel Γ x u op cmp) ∧
    (∀ cmp : UserCmp G V U Spec.Cmp, Re.inspect Γ x .spaceshipValue (fun v => userCall (cmp v u)) = spaceshipValue Γ x u cmp) ∧
    (∀ h : V → G → Except Exn Nat × G, Re.inspect Γ x .hash (fun v => userCall (h v)) = hashOf Γ x h) :=
  ⟨fun op _ => by cases op <;> rfl, fun op _ => by cases op <;> rfl, fun _ => rfl, fun _ => rfl⟩
end

section
variable {V G α : Type} {Γ : Env V G}

/-- C62 (the part that holds). From every reachable world, also one that programs with such user code have left behind, every program that has a
meaning for `std::optional` has its outcome: see `C62_reentrant_partial`. -/
theorem C62_program_partial (hΓ : EnvWF Γ) {w : World V G} {sw sw' : SWorld V G} (hw : Reach Γ w) (hs : Sees Γ w sw) (p : Prog V G α)
    (hp : ProgOK Γ p) {r : SRes α} (he : specProg (fun x => (Γ x).ops) (exclusions Γ) [] p sw = (r, sw')) (hu : r ≠ .undef)
    (ht : NoReserved Γ sw'.trace) :
    (runProg Γ p w).1 = SResToRes r ∧ Sees Γ (runProg Γ p w).2 sw' ∧ ∀ id, leaked (runProg Γ p w).2.log id = 0 := by
  rw [exclusions] at he
  obtain ⟨w', hw', hR⟩ := (sim_prog hΓ rfl p hp []).sim w sw (hs.rw hΓ hw) (by simp) (by rw [he]; exact hu) (by rw [he]; exact ht)
  rw [he] at hR hw'
  rw [hw'.eq]
  exact ⟨by cases r <;> first | rfl | exact absurd rfl hu, hR.sees hΓ, leaked_zero hR.noLeak⟩

/-- C62 (the part that holds). Every program, whose user code may call the library at any time and to any depth, and which has a
meaning for `std::optional`, has the outcome that `std::optional` prescribes; all variables and the user state are as prescribed
afterwards, and no payload was leaked. Missing for the full claim: the executions that `exclusions` leaves out, for which it is false
(`C62_false_transform`, `C62_false_assign`, `C62_false_copy`), and callables of `or_else` that return references of the kinds in `C71_false`. -/
theorem C62_reentrant_partial (hΓ : EnvWF Γ) (p : Prog V G α) (hp : ProgOK Γ p) (g : G) {r : SRes α} {sw : SWorld V G}
    (hs : specProg (fun x => (Γ x).ops) (exclusions Γ) [] p (.init g) = (r, sw)) (hu : r ≠ .undef) (ht : NoReserved Γ sw.trace) :
    (runProg Γ p (.init g)).1 = SResToRes r ∧ Sees Γ (runProg Γ p (.init g)).2 sw ∧
      ∀ id, leaked (runProg Γ p (.init g)).2.log id = 0 :=
  C62_program_partial hΓ ⟨_, .init g⟩ (R.sees hΓ (R_init g)) p hp hs hu ht

/-- C62. With `NDEBUG` of `exclusions` only the throwing callables of `transform` (C17) remain. -/
theorem C62_reentrant_release_partial (hΓ : EnvWF Γ) (hn : ∀ x, (Γ x).cfg.ndebug = true) (p : Prog V G α) (hp : ProgOK Γ p) (g : G)
    {r : SRes α} {sw : SWorld V G}
    (hs : specProg (fun x => (Γ x).ops) ⟨true, fun _ => false⟩ [] p (.init g) = (r, sw))
    (hu : r ≠ .undef) (ht : NoReserved Γ sw.trace) :
    (runProg Γ p (.init g)).1 = SResToRes r ∧ Sees Γ (runProg Γ p (.init g)).2 sw ∧
      ∀ id, leaked (runProg Γ p (.init g)).2.log id = 0 := by
  refine C62_reentrant_partial hΓ p hp g ?_ hu ht
  have : exclusions Γ = ⟨true, fun _ => false⟩ := by
    unfold exclusions
    congr 1
    funext x
    simp [hn]
  rw [this]
  exact hs

/-- C62. Without any precondition, for all programs (also if they use busy optionals, store reserved values, or end in an abort): every
payload object is created at most once and destroyed or leaked at most once, after its creation; at the end it is alive exactly if
some optional holds it; no two optionals hold the same object. -/
theorem C62_accounting (Γ : Env V G) (p : Prog V G α) (g : G) (id : Nat) :
    let w := (runProg Γ p (.init g)).2
    (∀ l, l <+: w.log → created l id ≤ 1 ∧ destroyed l id + leaked l id ≤ created l id) ∧
    ((∃ x, HoldsPayload x id w) → created w.log id = 1 ∧ destroyed w.log id = 0 ∧ leaked w.log id = 0) ∧
    ((¬ ∃ x, HoldsPayload x id w) → created w.log id = destroyed w.log id + leaked w.log id) ∧
    (∀ x y, HoldsPayload x id w → HoldsPayload y id w → x = y) := by
  intro w
  have hl : Life w := life_runProg Γ p g
  have hc := counts_of_status id w.log (hl.ok id)
  refine ⟨fun p hp => ?_, fun hh => ?_, fun hh => ?_, fun x y hx hy => ?_⟩
  · have := counts_of_status id p (status_prefix hp (hl.ok id))
    generalize status p id = s at this
    cases s <;> simp only [LS.counts, Prod.mk.injEq] at this <;> omega
  · have ha := (hl.payload id).2 (by obtain ⟨x, hx⟩ := hh; exact ⟨x, pidS_iff.2 hx⟩)
    rw [ha] at hc
    simp only [LS.counts, Prod.mk.injEq] at hc
    exact ⟨hc.1, hc.2.1, hc.2.2.1⟩
  · have ha : status w.log id ≠ .alive := fun ha => hh (by
      obtain ⟨x, hx⟩ := (hl.payload id).1 ha
      exact ⟨x, pidS_iff.1 hx⟩)
    generalize status w.log id = s at hc ha
    cases s <;> simp only [LS.counts, Prod.mk.injEq, ne_eq, not_true_eq_false] at hc ha <;> omega
  · exact hl.uniqP x y id (pidS_iff.2 hx) (pidS_iff.2 hy)
end

/-! ### What `exclusions` leaves out -/

section
open Examples

/-- End of the program, whatever happened. -/
private def fin {V G : Type} : Except Exn Unit → Prog V G Unit := fun r => .ret r

/-- `optional x(v);` -/
private def mk {V G : Type} (x : Nat) (v : V) (k : Prog V G Unit) : Prog V G Unit := .construct x true (.ret (.ok v)) fun _ => k

private def transformProg : Prog (BitVec 8) Unit Unit := mk 20 5#8 (.transform true 20 25 (.ret (.error (.user 3))) fin)

private def assignProg : Prog (BitVec 8) Unit Unit :=
  mk 20 5#8 (.assign 20 true (.reset 20 (fun _ => .ret (.ok ())) fin) (.ret (.ok 6#8)) fin)

private def copyProg : Prog (BitVec 8) Unit Unit :=
  mk 20 5#8 (.transfer false 21 20 (.reset 20 (fun _ => .ret (.ok ())) fun _ => .ret (.ok 5#8)) fin)

/-- C62 is false: the callable of a `transform` throws (finding 1, C17). -/
theorem C62_false_transform : ∃ (Γ : Env (BitVec 8) Unit) (p : Prog (BitVec 8) Unit Unit), EnvWF Γ ∧ ProgOK Γ p ∧
    (specProg (fun x => (Γ x).ops) .none [] p (.init ())).1 = .throw (.user 3) ∧
    NoReserved Γ (specProg (fun x => (Γ x).ops) .none [] p (.init ())).2.trace ∧
    (runProg Γ p (.init ())).1 = .abort .terminate := by
  refine ⟨env Unit scalarOps true, transformProg, env_wf scalarOps_lawful true,
    ⟨trivial, fun _ => ⟨trivial, fun _ => trivial⟩⟩, by decide +kernel, ?_, by decide +kernel⟩
  rw [show (specProg (fun x => (env Unit scalarOps true x).ops) .none [] transformProg (.init ())).2.trace = [(20, 5#8)]
    by decide +kernel]
  simp only [NoReserved, List.mem_singleton, forall_eq]
  simp [Config.Storable, Config.loc, env, sentCfg]

/-- C62 is false with asserts: the payload's assignment operator empties the optional (as a class may do with itself, like
`delete this`), which `std::optional` allows; the library asserts afterwards that there is a value (optional.h:1130-1132). -/
theorem C62_false_assign : ∃ (Γ : Env (BitVec 8) Unit) (p : Prog (BitVec 8) Unit Unit), EnvWF Γ ∧ ProgOK Γ p ∧
    (specProg (fun x => (Γ x).ops) .none [] p (.init ())).1 = .ok () ∧
    NoReserved Γ (specProg (fun x => (Γ x).ops) .none [] p (.init ())).2.trace ∧
    (runProg Γ p (.init ())).1 = .abort .assertFail := by
  refine ⟨env Unit scalarOps false, assignProg, env_wf scalarOps_lawful false,
    ⟨trivial, fun _ => ⟨⟨fun _ => trivial, fun _ => trivial⟩, trivial, fun _ => trivial⟩⟩, by decide +kernel, ?_, by decide +kernel⟩
  rw [show (specProg (fun x => (env Unit scalarOps false x).ops) .none [] assignProg (.init ())).2.trace = [(20, 5#8)]
    by decide +kernel]
  simp only [NoReserved, List.mem_singleton, forall_eq]
  simp [Config.Storable, Config.loc, env, sentCfg]

/-- C62 is false with asserts: the payload's copy constructor empties the optional from which it copies, after it has taken the
value; the library asserts afterwards that source and copy are both engaged (optional.h:1247). -/
theorem C62_false_copy : ∃ (Γ : Env (BitVec 8) Unit) (p : Prog (BitVec 8) Unit Unit), EnvWF Γ ∧ ProgOK Γ p ∧
    (specProg (fun x => (Γ x).ops) .none [] p (.init ())).1 = .ok () ∧
    NoReserved Γ (specProg (fun x => (Γ x).ops) .none [] p (.init ())).2.trace ∧
    (runProg Γ p (.init ())).1 = .abort .assertFail := by
  refine ⟨env Unit scalarOps false, copyProg, env_wf scalarOps_lawful false,
    ⟨trivial, fun _ => ⟨⟨fun _ => trivial, fun _ => trivial⟩, fun _ => trivial⟩⟩, by decide +kernel, ?_, by decide +kernel⟩
  rw [show (specProg (fun x => (env Unit scalarOps false x).ops) .none [] copyProg (.init ())).2.trace = [(20, 5#8), (21, 5#8)]
    by decide +kernel]
  simp only [NoReserved, List.mem_cons, List.not_mem_nil, or_false, forall_eq_or_imp, forall_eq]
  simp [Config.Storable, Config.loc, env, sentCfg]

/-! ### Examples -/

example := C62_same_swap (env (List String) throwingOps false) 20 25 rfl

private abbrev P (α : Type) := Prog (BitVec 8) (List String) α

private def say {α : Type} (s : String) (k : P α) : P α := .user (· ++ [s]) fun _ => k

private def done : P Unit := .ret (.ok ())

/-- The payload's destructor, which puts the value into optional 1. -/
private def leaveNote (v : BitVec 8) : P Unit :=
  say "dtor" (.emplace 1 true (fun _ => say "dtor of 1" done) (.ret (.ok v)) fun _ => done)

/-- A payload constructor that uses a local optional 11, whose payload constructor assigns to optional 1 and then throws; the second
attempt succeeds. -/
private def ctorWithHelp : P (BitVec 8) :=
  .construct 11 false (.assign 1 true done (.ret (.ok 70#8)) fun _ => .ret (.error (.user 4))) fun r =>
  say (match r with | .ok _ => "no exception" | .error _ => "exception") <|
  .construct 11 true (.ret (.ok 8#8)) fun _ =>
  .call (.deref 11) fun r =>
  .destroy 11 (fun _ => say "local" done) fun _ =>
  .ret (match r with | .ok (.val v) => .ok v | _ => .error (.user 5))

/-- `transform` with a callable that empties the very optional it was called for (whose destructor leaves a note in 1); `or_else` with
a callable that creates optional 30 and returns a reference to it; `swap`; `emplace` with a constructor that resets another optional
and throws. -/
private def exProg : P Unit :=
  .call (.ctorDefault 1) fun _ =>
  .construct 20 false ctorWithHelp fun _ =>
  .transform false 20 25 (.reset 20 leaveNote fun _ => .ret (.ok 9#8)) fun _ =>
  .orElse false 20 26 (.construct 30 true (.ret (.ok 33#8)) fun _ => .ret (.ok (.lref 30))) (fun _ => .ret (.ok 33#8)) fun _ =>
  .swap 20 25 done (fun _ => .ret (.ok 9#8)) leaveNote fun _ =>
  .emplace 20 false leaveNote (.reset 26 leaveNote fun _ => .ret (.error (.user 6))) fun r =>
  .ret (match r with | .ok _ => .ok () | .error e => .error e)

private theorem exProg_ok : ProgOK (env _ throwingOps false) exProg := by
  simp [exProg, ctorWithHelp, leaveNote, say, done, ProgOK, OpOK, env]

private def exSpec := specProg (fun x => (env _ throwingOps false x).ops) (exclusions (env _ throwingOps false)) [] exProg (.init [])

private theorem exSpec_eq : specProg (fun x => (env _ throwingOps false x).ops) (exclusions (env _ throwingOps false)) [] exProg
    (.init []) = (exSpec.1, exSpec.2) := by
  unfold exSpec
  exact (Prod.eta _).symm

private theorem exSpec_trace : exSpec.2.trace =
    [(1, 70#8), (11, 8#8), (20, 8#8), (1, 8#8), (25, 9#8), (30, 33#8), (26, 33#8), (20, 9#8), (1, 9#8), (1, 9#8), (1, 33#8)] := by
  decide +kernel

private theorem exSpec_storable : NoReserved (env (List String) throwingOps false) exSpec.2.trace := by
  rw [exSpec_trace]
  simp only [NoReserved, List.mem_cons, List.not_mem_nil, or_false, forall_eq_or_imp, forall_eq]
  simp [Config.Storable, Config.loc, byteRepr, env, sepCfg, sentCfg, patCfg, customCfg]

example := C62_reentrant_partial (env_wf throwingOps_lawful false) exProg exProg_ok [] (r := exSpec.1) (sw := exSpec.2) exSpec_eq
  (by decide +kernel) exSpec_storable

/-- What the program leaves behind is a reachable world. -/
private theorem exProg_reach : ReachAs (env _ throwingOps false) (runProg (env _ throwingOps false) exProg (.init [])).2 exSpec.2 :=
  .program exProg (.init []) exProg_ok exSpec_eq (by decide +kernel) exSpec_storable

/-- Another program after it: the constructor of the payload of 20 takes the value of 30 away. -/
private def next : P Unit :=
  .emplace 20 false leaveNote (.call (.deref 30) fun r => .reset 30 leaveNote fun _ =>
    .ret (match r with | .ok (.val v) => .ok v | _ => .error (.user 5))) fun _ => done

private def nextSpec := specProg (fun x => (env _ throwingOps false x).ops) (exclusions (env _ throwingOps false)) [] next exSpec.2

private theorem nextSpec_eq : nextSpec.1 = .ok () ∧ nextSpec.2.vars 20 = some (some 33#8) ∧ nextSpec.2.vars 30 = some none := by
  decide +kernel

example : Holds (env _ throwingOps false) 20 33#8 (runProg (env _ throwingOps false) next
      (runProg (env _ throwingOps false) exProg (.init [])).2).2 := by
  have hr := exProg_reach.rel (env_wf throwingOps_lawful false)
  have h := C62_program_partial (env_wf throwingOps_lawful false) ⟨_, exProg_reach⟩ (hr.1.sees (env_wf throwingOps_lawful false)) next
    (by simp [next, leaveNote, say, done, ProgOK, OpOK]) (r := nextSpec.1) (sw' := nextSpec.2) (Prod.eta nextSpec).symm
    (by rw [nextSpec_eq.1]; intro h; cases h) (by
      have e : nextSpec.2.trace = exSpec.2.trace ++ [(1, 33#8), (20, 33#8)] := by decide +kernel
      intro q hq
      rw [e] at hq
      rcases List.mem_append.1 hq with hq | hq
      · exact hr.2 q hq
      · simp only [List.mem_cons, List.not_mem_nil, or_false] at hq
        rcases hq with rfl | rfl <;> simp [Config.Storable, Config.loc, env, sepCfg, sentCfg])
  exact ((h.2.1.2 20).2.2 _).2 nextSpec_eq.2.1

/-- A call after it. -/
example : ∃ w', execOp (env _ throwingOps false) (.emplace 25 (.ext true fun g => (.ok 7#8, g)))
      (runProg (env _ throwingOps false) exProg (.init [])).2 = (.ok (.val 7#8), w') ∧ Holds (env _ throwingOps false) 25 7#8 w' := by
  have hs := (exProg_reach.rel (env_wf throwingOps_lawful false)).1.sees (env_wf throwingOps_lawful false)
  obtain ⟨w', h1, _, h2, _⟩ := C05_emplace_empty (env_wf throwingOps_lawful false) ⟨_, exProg_reach⟩
    (((hs.2 25).2.1).2 (by decide +kernel)) (nt := true) (c := fun g => (.ok 7#8, g)) (fun _ _ => ⟨_, rfl⟩) rfl
    (ex_storable (by decide) 25 (by omega))
  exact ⟨w', h1, h2⟩

private theorem exProg_ok' : ProgOK (env _ throwingOps true) exProg := by
  simp [exProg, ctorWithHelp, leaveNote, say, done, ProgOK, OpOK, env]

private def exRelease := specProg (fun x => (env _ throwingOps true x).ops)
  ⟨true, fun _ => false⟩ [] exProg (.init [])

private theorem exRelease_trace : exRelease.2.trace = exSpec.2.trace := by decide +kernel

/-- The same program in a build without asserts. -/
example := C62_reentrant_release_partial (env_wf throwingOps_lawful true) (fun x => by unfold env; (repeat' split) <;> rfl) exProg exProg_ok' []
  (r := exRelease.1) (sw := exRelease.2) (Prod.eta exRelease).symm (by decide +kernel)
  (by
    rw [exRelease_trace, exSpec_trace]
    simp only [NoReserved, List.mem_cons, List.not_mem_nil, or_false, forall_eq_or_imp, forall_eq]
    simp [Config.Storable, Config.loc, byteRepr, env, sepCfg, sentCfg, patCfg, customCfg])

/-- What the program does. -/
example : exSpec.1 = .throw (.user 6) ∧ exSpec.2.user = ["exception", "local", "dtor", "dtor of 1", "dtor", "dtor of 1", "dtor",
    "dtor of 1", "dtor", "dtor of 1"] ∧ ([1, 11, 20, 25, 26, 30].map exSpec.2.vars) =
    [some (some 33#8), none, some none, some none, some none, some (some 33#8)] := by decide +kernel

/-- An `operator==` of payloads that empties the right optional, compares the left one with another value (with an operator that
throws), and asks for the hash of the emptied one. -/
private def oddEq (a b : BitVec 8) : P Bool :=
  say "==" <|
  .reset 25 leaveNote fun _ =>
  .inspect (.withValue true .lt) 20 (fun v => say (if v == a then "same" else "other") (.ret (.error (.user 7)))) fun r =>
  .inspect .hash 25 (fun _ => say "never" (.ret (.ok 1))) fun h =>
  .ret (match r, h with | .error _, .ok 0 => .ok (a != b) | _, _ => .ok false)

private def cmpProg : P Bool :=
  .call (.ctorDefault 1) fun _ =>
  .construct 20 true (.ret (.ok 5#8)) fun _ =>
  .construct 25 true (.ret (.ok 6#8)) fun _ =>
  .compare (.rel .eq) 20 25 oddEq fun r =>
  .compare .spaceship 25 20 (fun _ _ => say "never" (.ret (.ok .equal))) fun c =>
  .inspect (.withStd true .ge false) 25 (fun _ => say "never" (.ret (.ok false))) fun b =>
  .ret (match r, c, b with | .ok true, .ok .less, .ok true => .ok true | _, _, _ => .ok false)

private theorem cmpProg_ok : ProgOK (env _ throwingOps false) cmpProg := by
  simp [cmpProg, oddEq, leaveNote, say, done, ProgOK, OpOK]

private def cmpSpec := specProg (fun x => (env _ throwingOps false x).ops) (exclusions (env _ throwingOps false)) [] cmpProg (.init [])

private theorem cmpSpec_trace : cmpSpec.2.trace = [(20, 5#8), (25, 6#8), (1, 6#8)] := by decide +kernel

/-- The claim for a program with such comparisons. -/
example := C62_reentrant_partial (env_wf throwingOps_lawful false) cmpProg cmpProg_ok [] (r := cmpSpec.1) (sw := cmpSpec.2)
  (Prod.eta cmpSpec).symm (by decide +kernel)
  (by
    rw [cmpSpec_trace]
    simp only [NoReserved, List.mem_cons, List.not_mem_nil, or_false, forall_eq_or_imp, forall_eq]
    simp [Config.Storable, Config.loc, env, sepCfg, sentCfg])

/-- What it does. -/
example : cmpSpec.1 = .ok true ∧ cmpSpec.2.user = ["==", "dtor", "same"] ∧ ([1, 20, 25].map cmpSpec.2.vars) =
    [some (some 6#8), some (some 5#8), some none] := by decide +kernel
end

end Verif.Props
