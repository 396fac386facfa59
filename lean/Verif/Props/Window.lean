import Verif.Lemmas.History
import Verif.Lemmas.Sim
import Verif.Examples
import Verif.Props.Compare

/-!
# C50: looking at an optional from inside its payload's constructor

`constructWith Γ x nt mk` is `ConstructPayload` / `ConstructPayloadFromFunction` on the empty optional `x` where `mk` is the
payload's constructor (respectively the function given to `transform`). Here `mk` is an arbitrary program that may use
the optionals, so the user code can look at `x` itself.
-/

namespace Verif.Props
open Verif Verif.Model Verif.Examples

variable {V G : Type} {Γ : Env V G} {w : World V G} {x : Nat}

/-- User code that first asks for `x.has_value()` and continues with `f` of the answer, in the constructor of the payload of
`x`. -/
def AsksItself (Γ : Env V G) (x : Nat) (nt : Bool) (f : Bool → M V G V) : M V G Unit :=
  constructWith Γ x nt (do
    let b ← hasValue Γ x
    f b)

/-- The optional under construction is seen as empty: the outcome is always that of the continuation with `false`. -/
def SeenEmpty (Γ : Env V G) (x : Nat) (w : World V G) : Prop :=
  ∀ nt f, AsksItself Γ x nt f w = constructWith Γ x nt (f false) w

/-- `constructWith` runs `mk` in the world left behind by `invalidate_empty_flag`. -/
private theorem constructWith_congr {w₁ : World V G} (h0 : assertHas Γ x false w = (.ok (), w))
    (h1 : invalidateEmptyFlag (Γ x).cfg (Γ x).ops.dtor x w = (.ok (), w₁)) (nt : Bool) {mk mk' : M V G V}
    (h : mk w₁ = mk' w₁) : constructWith Γ x nt mk w = constructWith Γ x nt mk' w := by
  have hb : ∀ f : V → M V G Unit, (mk >>= f) w₁ = (mk' >>= f) w₁ := fun f => by
    show M.bind mk f w₁ = M.bind mk' f w₁
    simp only [M.bind, h]
  unfold constructWith
  have : ∀ (a b : M V G Unit), a w = b w → noexceptIf nt a w = noexceptIf nt b w := fun a b hab => by
    simp only [noexceptIf, hab]
  apply this
  rw [bind_ok h0, bind_ok h1, bind_ok h0, bind_ok h1]
  cases nt
  · simp only [Bool.false_eq_true, if_false]
    have : onThrow (mk >>= fun v => newPayload (Γ x).cfg x v) (initEmptyFlag (Γ x).cfg x) w₁ =
        onThrow (mk' >>= fun v => newPayload (Γ x).cfg x v) (initEmptyFlag (Γ x).cfg x) w₁ := by
      simp only [onThrow, hb]
    show M.bind _ _ w₁ = M.bind _ _ w₁
    unfold M.bind
    rw [this]
  · simp only [if_true]
    exact hb _

/-- In place: the flag object is gone and the payload not yet there, nothing can be read. -/
private theorem isEmpty_raw {c : Config V} (hc : c.WF) {s : Storage V} (hr : Raw0 s) (hm : c.manip ≠ .separate)
    (hb : ∀ sent, c.manip = .memcpy sent → sent ≠ [] ∧ s.bytes c.loc.off = none) : ∃ k, c.isEmpty s = .error k := by
  unfold Config.isEmpty
  cases h : c.manip with
  | separate => exact absurd h hm
  | memcpy sent =>
    obtain ⟨hne, hby⟩ := hb sent h
    have h1 := hc.sentinelFits _ h
    have h2 := hc.inside
    simp only [if_pos (show c.loc.off + sent.length ≤ c.size by omega)]
    cases sent with
    | nil => exact absurd rfl hne
    | cons a as => exact ⟨.indeterminate, by simp [memcmpEq, hby]⟩
  | assign sv eq => exact ⟨.noObject, by simp [Config.readFlag, hr.1, hr.2]⟩
  | custom p ev => exact ⟨.noObject, by simp [Config.readFlag, hr.1, hr.2]⟩

/-- What the window between `invalidate_empty_flag` and the placement new looks like. -/
private theorem window (hΓ : EnvWF Γ) (hw : Reach Γ w) (hx : IsEmpty Γ x w) :
    ∃ w₁ s, invalidateEmptyFlag (Γ x).cfg (Γ x).ops.dtor x w = (.ok (), w₁) ∧ w₁.mem x = some s ∧ Raw (Γ x).cfg s ∧
      (∀ sent, (Γ x).cfg.manip = .memcpy sent → sent ≠ [] → s.bytes (Γ x).cfg.loc.off = none) ∧
      (∀ y, y ≠ x → w₁.mem y = w.mem y) := by
  obtain ⟨sw, hR, _⟩ := hw.rel hΓ
  have hv := (hR.isEmpty_iff hΓ).1 hx
  obtain ⟨w₁, h1, hR1⟩ := hR.invalidate hΓ hv
  obtain ⟨_, s, hs, hraw⟩ := hR1.hole
  refine ⟨w₁, s, h1, hs, hraw, fun sent hm hne => ?_, fun y hy => ?_⟩
  · obtain ⟨s₀, hs₀, _, he⟩ := hR.emp hv
    simp only [hm] at he
    obtain ⟨⟨id, hf⟩, _⟩ := he
    unfold invalidateEmptyFlag at h1
    rw [bind_ok (readStorage_ok hs₀)] at h1
    simp only [hm, hf] at h1
    have h2 := congrArg (fun r => r.2.mem x) h1
    have h3 : (some { s₀ with flag := none, bytes := fill s₀.bytes (Γ x).cfg.loc.off (Γ x).cfg.loc.size (fun _ => none) } :
        Option (Storage V)) = w₁.mem x := by
      refine Eq.trans ?_ h2
      show some _ = if x = x then some _ else _
      rw [if_pos rfl]
    rw [hs] at h3
    injection h3 with h3
    rw [← h3]
    dsimp only
    have hl := (hΓ.cfg x).sentinelFits _ hm
    have : 0 < sent.length := List.length_pos_iff.2 hne
    exact fill_in (b := s₀.bytes) (off := (Γ x).cfg.loc.off) (n := (Γ x).cfg.loc.size) (f := fun _ => none) (i := 0) (by omega)
  · obtain ⟨s₀, hs₀, _, he⟩ := hR.emp hv
    unfold invalidateEmptyFlag at h1
    rw [bind_ok (readStorage_ok hs₀)] at h1
    have hdone : ∀ {s' : Storage V} {e : Event}, (writeStorage x s' >>= fun _ => emit e : M V G Unit) w = (.ok (), w₁) →
        w₁.mem y = w.mem y := by
      intro s' e h
      have h2 := congrArg (fun r => r.2.mem y) h
      refine Eq.trans h2.symm ?_
      show (if y = x then some s' else w.mem y) = _
      rw [if_neg hy]
    cases hm : (Γ x).cfg.manip with
    | separate =>
      simp only [hm] at h1
      have h2 := congrArg (fun r => r.2.mem y) h1
      refine Eq.trans h2.symm ?_
      show (if y = x then some _ else w.mem y) = _
      rw [if_neg hy]
    | memcpy sent =>
      simp only [hm] at h1 he
      obtain ⟨⟨id, hf⟩, _⟩ := he
      simp only [hf] at h1
      exact hdone h1
    | assign sv eq =>
      simp only [hm] at h1 he
      obtain ⟨id, hf⟩ := he
      simp only [hf] at h1
      exact hdone h1
    | custom p ev =>
      simp only [hm] at h1 he
      obtain ⟨id, hf⟩ := he
      simp only [hf] at h1
      exact hdone h1

/-- C50, separate flag: the optional under construction claims to have a value, and `*x` is undefined behaviour. -/
theorem C50_separate (hΓ : EnvWF Γ) (hw : Reach Γ w) (hx : IsEmpty Γ x w) (hm : (Γ x).cfg.manip = .separate) (nt : Bool) :
    (∀ f, AsksItself Γ x nt f w = constructWith Γ x nt (f true) w) ∧
    ∀ f : V → M V G V, ∃ w', constructWith Γ x nt (deref Γ x >>= f) w = (.abort (.ub .noObject), w') := by
  obtain ⟨w₁, s, h1, hs, hraw, _⟩ := window hΓ hw hx
  have he : (Γ x).cfg.isEmpty s = .ok false := by simp [Config.isEmpty, hm, hraw.2 hm, readBool]
  have hh : hasValue Γ x w₁ = (.ok true, w₁) := hasValue_run hs he
  refine ⟨fun f => constructWith_congr (assertHas_run hx) h1 nt (bind_ok hh), fun f => ?_⟩
  have hd : deref Γ x w₁ = (.abort (.ub .noObject), w₁) := by
    unfold deref
    apply noexceptIf_abort
    rw [bind_ok (assertHas_run hh)]
    unfold getPayload
    rw [bind_ok (readStorage_ok hs)]
    simp only [hraw.1.1]
    rfl
  obtain ⟨sw, hR, _⟩ := hw.rel hΓ
  have hv := (hR.isEmpty_iff hΓ).1 hx
  unfold constructWith
  refine ⟨w₁, noexceptIf_abort ?_⟩
  rw [bind_ok (assertHas_run hx), bind_ok h1]
  have hb : (deref Γ x >>= f) w₁ = (.abort (.ub .noObject), w₁) := bind_abort hd
  cases nt
  · simp only [Bool.false_eq_true, if_false]
    exact bind_abort (onThrow_abort (bind_abort hb))
  · simp only [if_true]
    exact bind_abort hb

/-- C50, all in-place configurations (with a non-empty bit pattern): already `has_value()` of the optional under construction
is undefined behaviour. -/
theorem C50_in_place (hΓ : EnvWF Γ) (hw : Reach Γ w) (hx : IsEmpty Γ x w) (hm : (Γ x).cfg.manip ≠ .separate)
    (hne : (Γ x).cfg.manip ≠ .memcpy []) (nt : Bool) (f : Bool → M V G V) :
    ∃ k w', AsksItself Γ x nt f w = (.abort (.ub k), w') := by
  obtain ⟨w₁, s, h1, hs, hraw, hby, _⟩ := window hΓ hw hx
  obtain ⟨k, hk⟩ := isEmpty_raw (hΓ.cfg x) hraw.1 hm fun sent hms =>
    ⟨fun he => hne (he ▸ hms), hby sent hms fun he => hne (he ▸ hms)⟩
  have hh : hasValue Γ x w₁ = (.abort (.ub k), w₁) := by
    unfold hasValue
    rw [bind_ok (readStorage_ok hs), hk]
    rfl
  refine ⟨k, w₁, ?_⟩
  unfold AsksItself constructWith
  apply noexceptIf_abort
  rw [bind_ok (assertHas_run hx), bind_ok h1]
  have hb : (hasValue Γ x >>= f) w₁ = (.abort (.ub k), w₁) := bind_abort hh
  cases nt
  · simp only [Bool.false_eq_true, if_false]
    exact bind_abort (onThrow_abort (bind_abort hb))
  · simp only [if_true]
    exact bind_abort hb

/-- C50 is false, in every configuration and state: the optional under construction is never seen as empty. -/
theorem C50_false (hΓ : EnvWF Γ) (hw : Reach Γ w) (hx : IsEmpty Γ x w) (hne : (Γ x).cfg.manip ≠ .memcpy []) :
    ¬ SeenEmpty Γ x w := by
  intro h
  obtain ⟨w₁, s, h1, _⟩ := window hΓ hw hx
  -- a constructor that throws a different exception for each answer
  let f : Bool → M V G V := fun b => if b then throwE .badOptionalAccess else throwE (.user 0)
  have hthrow : ∀ e : Exn, (constructWith Γ x false (throwE e) w).1 = .throw e ∨
      ∃ a, (constructWith Γ x false (throwE e) w).1 = .abort a := by
    intro e
    unfold constructWith
    simp only [noexceptIf]
    rw [bind_ok (assertHas_run hx), bind_ok h1]
    simp only [Bool.false_eq_true, if_false]
    have hb : ((throwE e : M V G V) >>= fun v => newPayload (Γ x).cfg x v) w₁ = (.throw e, w₁) := bind_throw rfl
    rcases hi : initEmptyFlag (Γ x).cfg x w₁ with ⟨r | e' | a, w₂⟩
    · rw [bind_throw (onThrow_throw hb hi)]; exact .inl rfl
    · rw [bind_abort (k := .terminate) (w' := w₂) (by simp [onThrow, hb, hi])]; exact .inr ⟨_, rfl⟩
    · rw [bind_abort (k := a) (w' := w₂) (by simp [onThrow, hb, hi])]; exact .inr ⟨_, rfl⟩
  -- it does not abort, because the empty state can be restored
  obtain ⟨sw, hR, _⟩ := hw.rel hΓ
  have hv := (hR.isEmpty_iff hΓ).1 hx
  have hex : ∀ e : Exn, (constructWith Γ x false (throwE e) w).1 = .throw e := by
    intro e
    obtain ⟨w', h', _⟩ := constructWith_throw (e := e) (mk := throwE e) (vars' := sw.vars) (g' := sw.user) hΓ hR hv
      fun w₁ hw₁ => ⟨w₁, rfl, hw₁⟩
    rw [h']
  have hfalse := h false f
  by_cases hm : (Γ x).cfg.manip = .separate
  · rw [(C50_separate hΓ hw hx hm false).1 f] at hfalse
    have := congrArg Prod.fst hfalse
    simp only [f, if_true, Bool.false_eq_true, if_false, hex] at this
    injection this with this
    cases this
  · obtain ⟨k, w', hk⟩ := C50_in_place hΓ hw hx hm hne false f
    rw [hk] at hfalse
    have := congrArg Prod.fst hfalse
    simp only [f, Bool.false_eq_true, if_false, hex] at this
    cases this

/-- C50 (the part that holds): every other optional is seen unchanged by the constructor. -/
theorem C50_others_partial (hΓ : EnvWF Γ) (hw : Reach Γ w) (hx : IsEmpty Γ x w) {y : Nat} (hy : y ≠ x) {o : Option V}
    (ho : Views Γ y o w) (nt : Bool) :
    (∀ f : Bool → M V G V, constructWith Γ x nt (hasValue Γ y >>= f) w = constructWith Γ x nt (f o.isSome) w) ∧
    ∀ v, o = some v → ∀ f : V → M V G V, constructWith Γ x nt (deref Γ y >>= f) w = constructWith Γ x nt (f v) w := by
  obtain ⟨w₁, s, h1, _, _, _, hoth⟩ := window hΓ hw hx
  have hmem := hoth y hy
  obtain ⟨sw, hR, _⟩ := hw.rel hΓ
  have hvy : sw.vars y = some o := by
    cases o with
    | none => exact (hR.isEmpty_iff hΓ).1 ho
    | some v => exact (hR.holds_iff hΓ).1 ho
  have hh : hasValue Γ y w₁ = (.ok o.isSome, w₁) := by
    cases o with
    | none =>
      obtain ⟨s, hs, he⟩ := hR.emp hvy
      exact hasValue_run (hmem.trans hs) (isEmpty_emp (hΓ.cfg y) he)
    | some v =>
      obtain ⟨s, hs, he⟩ := hR.full hvy
      exact hasValue_run (hmem.trans hs) (isEmpty_full (hΓ.cfg y) he)
  refine ⟨fun f => constructWith_congr (assertHas_run hx) h1 nt (bind_ok hh), ?_⟩
  rintro v rfl f
  obtain ⟨s, hs, ⟨id, hp⟩, _⟩ := hR.full hvy
  have hd : deref Γ y w₁ = (.ok v, w₁) := by
    unfold deref
    apply noexceptIf_ok
    rw [bind_ok (assertHas_run (b := true) hh)]
    unfold getPayload
    rw [bind_ok (readStorage_ok (hmem.trans hs))]
    simp only [hp]
    rfl
  exact constructWith_congr (assertHas_run hx) h1 nt (bind_ok hd)

/-! ### The hypotheses can be met: 1 has a separate flag, 21 is in place (sentinel 42), 20 holds 5 -/

example (f : Bool → M (BitVec 8) (List String) (BitVec 8)) :
    AsksItself exEnv 1 false f exWorld = constructWith exEnv 1 false (f true) exWorld :=
  (C50_separate exEnv_wf ex_reach ex1 rfl false).1 f

/-- The payload stores the answer it got: 1 for "has a value". -/
example : (AsksItself exEnv 1 false (fun b => pure (if b then 1#8 else 0#8)) exWorld).1 = .ok () := rfl

example (f : Bool → M (BitVec 8) (List String) (BitVec 8)) :
    ∃ k w', AsksItself exEnv 21 true f exWorld = (.abort (.ub k), w') :=
  C50_in_place exEnv_wf ex_reach ex21 (by simp [env, sentCfg]) (by simp [env, sentCfg]) true f

example : ¬ SeenEmpty exEnv 21 exWorld := C50_false exEnv_wf ex_reach ex21 (by simp [env, sentCfg])

example (f : BitVec 8 → M (BitVec 8) (List String) (BitVec 8)) :
    constructWith exEnv 21 false (deref exEnv 20 >>= f) exWorld = constructWith exEnv 21 false (f 5#8) exWorld :=
  (C50_others_partial exEnv_wf ex_reach ex21 (y := 20) (by decide) (o := some 5#8) ex20 false).2 _ rfl f

end Verif.Props
