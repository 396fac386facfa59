import Verif.Spec.Growth
import Verif.Spec.WellTyped
import Verif.Lemmas.Rearrange

/-! Helper lemmas for C92. -/

namespace Verif.Spec
variable {V G : Type} {D : V → Prop} {ops : Nat → Ops V G} {lim : Re.Limits}

/-- A call of a program. -/
theorem call_run {α : Type} {op : Op V G} {k : Except Exn (Obs V) → Prog V G α} {w : SWorld V G} (hn : Re.callThrows lim op = false) :
    specProg ops lim [] (.call op k) w = match specOp ops op w with
      | (.ok o, w') => specProg ops lim [] (k (.ok o)) w'
      | (.throw e, w') => specProg ops lim [] (k (.error e)) w'
      | (.undef, w') => (.undef, w') := by
  have hreq : (Re.require ((op.reads ++ op.writes).all (· ∉ ([] : List Nat))) : SM V G Unit) = SM.pure () := by
    unfold Re.require
    rw [if_pos (by simp)]
  rw [specProg, hreq, hn]
  show SM.bind (SM.pure ()) (fun _ => SM.bind (Re.attempt (Re.never false (specOp _ op))) _) _ = _
  unfold SM.bind SM.pure Re.attempt Re.never
  rcases hc : specOp ops op w with ⟨r, w'⟩
  cases r <;> simp [hc]

theorem dtor_run {x : Nat} {w : SWorld V G} {o : Option V} (h : w.vars x = some o) :
    ∃ g', specOp ops (.dtor x) w = (.ok .unit, ⟨fun z => if z = x then none else w.vars z, g', w.trace⟩) := by
  obtain ⟨v, g, tr⟩ := w
  simp only at h
  cases o with
  | none => exact ⟨g, by simp [specOp, Spec.dtor, Spec.get, Spec.remove, Bind.bind, SM.bind, SM.pure, h]⟩
  | some a =>
    refine ⟨(ops x).dtor a g, ?_⟩
    simp [specOp, Spec.dtor, Spec.get, Spec.remove, Spec.destroyVal, Bind.bind, SM.bind, SM.pure, h]
    funext z
    by_cases hz : z = x <;> simp [hz]

/-- The elements `x`, …, `x + n - 1` are gone afterwards. -/
theorem destroyAll_run {k : Prog V G Unit} (x : Nat) : ∀ (n : Nat) (w : SWorld V G), (∀ z, x ≤ z → z < x + n → ∃ o, w.vars z = some o) →
    ∃ g', specProg ops lim [] (destroyAll x n k) w =
      specProg ops lim [] k ⟨fun z => if x ≤ z ∧ z < x + n then none else w.vars z, g', w.trace⟩
  | 0, w, _ => by
    refine ⟨w.user, ?_⟩
    have : (fun z => if x ≤ z ∧ z < x + 0 then none else w.vars z) = w.vars := by
      funext z
      rw [if_neg (by omega)]
    rw [this]
    rfl
  | n + 1, w, h => by
    obtain ⟨o, ho⟩ := h (x + n) (by omega) (by omega)
    obtain ⟨g1, h1⟩ := dtor_run (ops := ops) ho
    obtain ⟨g2, h2⟩ := destroyAll_run (k := k) x n ⟨fun z => if z = x + n then none else w.vars z, g1, w.trace⟩ (fun z hz hz' => by
      obtain ⟨o, ho⟩ := h z hz (by omega)
      exact ⟨o, by simp [show z ≠ x + n by omega, ho]⟩)
    refine ⟨g2, ?_⟩
    rw [destroyAll, call_run rfl, h1]
    simp only
    rw [h2]
    congr 2
    funext z
    simp only
    grind

/-- One element that is copied. If the constructor throws, the variables are unchanged. -/
theorem copy_run {x y : Nat} (hf : Faithful (ops x) D) {w : SWorld V G} {o : Option V} (hx : w.vars x = none) (hy : w.vars y = some o)
    (hD : ∀ a, o = some a → D a) :
    ∃ g' tr', Adds (fun z => z = x) D w.trace tr' ∧
      (specOp ops (.ctorCopy x y) w = (.ok .unit, ⟨fun z => if z = x then some o else w.vars z, g', tr'⟩) ∨
        ∃ e, specOp ops (.ctorCopy x y) w = (.throw e, ⟨w.vars, g', tr'⟩)) := by
  obtain ⟨v, g, tr⟩ := w
  simp only at hx hy
  cases o with
  | none =>
    refine ⟨g, tr, .refl _, .inl ?_⟩
    simp [specOp, Spec.ctorCopy, Spec.fresh, Spec.get, Spec.setEmpty, Bind.bind, SM.bind, SM.pure, hx, hy]
  | some a =>
    rcases hc : (ops x).copyCtor a g with ⟨e | b, g'⟩
    · refine ⟨g', tr, .refl _, .inr ⟨e, ?_⟩⟩
      simp [specOp, Spec.ctorCopy, Spec.fresh, Spec.get, Spec.argVal, Spec.getVal, Spec.user, Bind.bind, SM.bind, hx, hy, hc]
    · have hb : b = a := hf.copy a g b (hD a rfl) (by rw [hc])
      subst hb
      refine ⟨g', tr ++ [(x, b)], fun q hq => ?_, .inl ?_⟩
      · simp at hq
        rcases hq with hq | rfl
        · exact .inl hq
        · exact .inr ⟨rfl, hD b rfl⟩
      · simp [specOp, Spec.ctorCopy, Spec.fresh, Spec.get, Spec.argVal, Spec.getVal, Spec.user, Spec.put, Bind.bind, SM.bind, SM.pure, hx, hy, hc]

/-- One element that is moved without exceptions. -/
theorem move_run {x y : Nat} (hf : Moves (ops x) D) {w : SWorld V G} {o : Option V} (hx : w.vars x = none) (hy : w.vars y = some o)
    (hD : ∀ a, o = some a → D a) (hnt : ∀ a g, ∃ b, ((ops x).moveCtor a g).1 = .ok b) :
    ∃ g' tr' o', Adds (fun z => z = x ∨ z = y) D w.trace tr' ∧ (∀ a, o' = some a → D a) ∧
      specOp ops (.ctorMove x y) w = (.ok .unit, ⟨fun z => if z = x then some o else if z = y then some o' else w.vars z, g', tr'⟩) := by
  obtain ⟨v, g, tr⟩ := w
  simp only at hx hy
  have hxy : x ≠ y := fun e => by rw [e, hy] at hx; cases hx
  cases o with
  | none =>
    refine ⟨g, tr, none, .refl _, nofun, ?_⟩
    simp [specOp, Spec.ctorMove, Spec.fresh, Spec.get, Spec.setEmpty, Bind.bind, SM.bind, SM.pure, hx, hy]
    funext z
    grind
  | some a =>
    obtain ⟨b, hb⟩ := hnt a g
    have hb' := hf.move a g b (hD a rfl) hb
    have hl := hf.left a g (hD a rfl)
    rcases hc : (ops x).moveCtor a g with ⟨r, u, g'⟩
    rw [hc] at hb hl
    simp only at hb hl
    subst hb hb'
    refine ⟨g', tr ++ [(y, u), (x, b)], some u, fun q hq => ?_, fun c h => by cases h; exact hl, ?_⟩
    · simp at hq
      rcases hq with hq | rfl | rfl
      · exact .inl hq
      · exact .inr ⟨.inr rfl, hl⟩
      · exact .inr ⟨.inl rfl, hD b rfl⟩
    · simp [specOp, Spec.ctorMove, Spec.fresh, Spec.get, Spec.argVal, Spec.put, Bind.bind, SM.bind, SM.pure, hx, hy, hc]

/-- What holds after `i` elements. -/
structure Filled (nt : Bool) (D : V → Prop) (N : Nat) (v : Nat → Option (Option V)) (i : Nat) (u : Nat → Option (Option V)) : Prop where
  kept : nt = false → ∀ z, z < N → u z = v z
  there : ∀ z, z < N → ∃ o, u z = some o
  rest : ∀ z, i ≤ z → z < N → u z = v z
  new : ∀ z, z < i → u (N + z) = v z
  free : ∀ z, i ≤ z → z < N → u (N + z) = none
  other : ∀ z, N + N ≤ z → u z = v z

theorem fillBuffer_run {N : Nat} {nt : Bool} (hf : ∀ x, x < N + N → Faithful (ops x) D)
    (hnt : nt = true → ∀ x, x < N + N → ∀ a g, ∃ b, ((ops x).moveCtor a g).1 = .ok b)
    {v : Nat → Option (Option V)} (hv : ∀ z, z < N → ∃ o, v z = some o ∧ ∀ a, o = some a → D a) (hfree : ∀ z, N ≤ z → z < N + N → v z = none) :
    ∀ (n i : Nat) (w : SWorld V G), i + n = N → Filled nt D N v i w.vars →
    ∃ r u g' tr', specProg ops lim [] (fillBuffer nt N n i) w = (r, ⟨u, g', tr'⟩) ∧ Adds (· < N + N) D w.trace tr' ∧
      (r = .ok () ∧ (u = fun z => if z < N then none else if z < N + N then v (z - N) else v z) ∨ nt = false ∧ u = v ∧ ∃ e, r = .throw e)
  | 0, i, w, hi, hw => by
    obtain ⟨g', h⟩ := destroyAll_run (ops := ops) (lim := lim) (k := .ret (.ok ())) 0 N w fun z _ hz => hw.there z (by omega)
    refine ⟨.ok (), _, g', w.trace, h, .refl _, .inl ⟨rfl, ?_⟩⟩
    funext z
    by_cases h1 : z < N
    · simp [h1]
    · by_cases h2 : z < N + N
      · have := hw.new (z - N) (by omega)
        rw [show N + (z - N) = z by omega] at this
        simp [h1, h2, this]
      · simp [h1, h2, hw.other z (by omega)]
  | n + 1, i, w, hi, hw => by
    obtain ⟨o, ho, hD⟩ := hv i (by omega)
    have hy : w.vars i = some o := by rw [hw.rest i (by omega) (by omega), ho]
    have hx : w.vars (N + i) = none := hw.free i (by omega) (by omega)
    cases nt with
    | false =>
      obtain ⟨g1, tr1, ht, h | ⟨e, h⟩⟩ := copy_run (hf (N + i) (by omega)) hx hy hD
      · have ht' : Adds (· < N + N) D w.trace tr1 := fun q hq => (ht q hq).imp_right fun h => ⟨by have := h.1; omega, h.2⟩
        obtain ⟨r, u, g', tr', e1, e2, e3⟩ := fillBuffer_run hf hnt hv hfree n (i + 1)
          ⟨fun z => if z = N + i then some o else w.vars z, g1, tr1⟩ (by omega)
          ⟨fun h z hz => by simp [show z ≠ N + i by omega, hw.kept h z hz], fun z hz => by simp [show z ≠ N + i by omega, hw.there z hz],
            fun z hz hz' => by simp [show z ≠ N + i by omega, hw.rest z (by omega) hz'],
            fun z hz => by
              by_cases hzi : z = i
              · simp [hzi, ho]
              · simp [hzi, hw.new z (by omega)],
            fun z hz hz' => by simp [show z ≠ i by omega, hw.free z (by omega) hz'],
            fun z hz => by simp [show z ≠ N + i by omega, hw.other z hz]⟩
        refine ⟨r, u, g', tr', ?_, ht'.trans e2, e3⟩
        rw [fillBuffer, call_run rfl]
        simp only [Bool.false_eq_true, if_false, h]
        exact e1
      · have ht' : Adds (· < N + N) D w.trace tr1 := fun q hq => (ht q hq).imp_right fun h => ⟨by have := h.1; omega, h.2⟩
        obtain ⟨g', hd⟩ := destroyAll_run (ops := ops) (lim := lim) (k := .ret (.error e)) N i ⟨w.vars, g1, tr1⟩ fun z hz hz' => by
          have := hw.new (z - N) (by omega)
          rw [show N + (z - N) = z by omega] at this
          obtain ⟨o, ho, _⟩ := hv (z - N) (by omega)
          exact ⟨o, this.trans ho⟩
        refine ⟨.throw e, fun z => if N ≤ z ∧ z < N + i then none else w.vars z, g', tr1, ?_, ht', .inr ⟨rfl, ?_, e, rfl⟩⟩
        · rw [fillBuffer, call_run rfl]
          simp only [Bool.false_eq_true, if_false, h]
          exact hd
        · funext z
          by_cases h1 : z < N
          · simp [show ¬ N ≤ z by omega, hw.kept rfl z h1]
          · by_cases h2 : z < N + N
            · rw [hfree z (by omega) h2]
              by_cases h3 : z < N + i
              · simp [show N ≤ z by omega, h3]
              · have := hw.free (z - N) (by omega) (by omega)
                rw [show N + (z - N) = z by omega] at this
                simp [h3, this]
            · simp [show ¬ z < N + i by omega, hw.other z (by omega)]
    | true =>
      obtain ⟨g1, tr1, o', ht, hD', h⟩ := move_run (hf (N + i) (by omega)).toMoves hx hy hD (hnt rfl (N + i) (by omega))
      have ht' : Adds (· < N + N) D w.trace tr1 := fun q hq => (ht q hq).imp_right fun h => ⟨by rcases h.1 with h | h <;> omega, h.2⟩
      obtain ⟨r, u, g', tr', e1, e2, e3⟩ := fillBuffer_run hf hnt hv hfree n (i + 1)
        ⟨fun z => if z = N + i then some o else if z = i then some o' else w.vars z, g1, tr1⟩ (by omega)
        ⟨nofun, fun z hz => by
            by_cases hzi : z = i
            · exact ⟨o', by simp only [hzi, if_neg (show i ≠ N + i by omega), if_true]⟩
            · simp [show z ≠ N + i by omega, hzi, hw.there z hz],
          fun z hz hz' => by simp [show z ≠ N + i by omega, show z ≠ i by omega, hw.rest z (by omega) hz'],
          fun z hz => by
            by_cases hzi : z = i
            · simp [hzi, ho]
            · simp [hzi, show N + z ≠ i by omega, hw.new z (by omega)],
          fun z hz hz' => by simp [show z ≠ i by omega, show N + z ≠ i by omega, hw.free z (by omega) hz'],
          fun z hz => by simp [show z ≠ N + i by omega, show z ≠ i by omega, hw.other z hz]⟩
      refine ⟨r, u, g', tr', ?_, ht'.trans e2, e3⟩
      rw [fillBuffer, call_run rfl]
      simp only [if_true, h]
      exact e1

/-- One element that is moved, maybe with an exception. -/
theorem move_try {x y : Nat} (hf : Moves (ops x) D) {w : SWorld V G} {o : Option V} (hx : w.vars x = none) (hy : w.vars y = some o)
    (hD : ∀ a, o = some a → D a) :
    ∃ g' tr' o', Adds (fun z => z = x ∨ z = y) D w.trace tr' ∧ (o' = none ↔ o = none) ∧ (∀ a, o' = some a → D a) ∧
      (specOp ops (.ctorMove x y) w = (.ok .unit, ⟨fun z => if z = x then some o else if z = y then some o' else w.vars z, g', tr'⟩) ∨
        ∃ e, specOp ops (.ctorMove x y) w = (.throw e, ⟨fun z => if z = y then some o' else w.vars z, g', tr'⟩)) := by
  obtain ⟨v, g, tr⟩ := w
  simp only at hx hy
  have hxy : x ≠ y := fun e => by rw [e, hy] at hx; cases hx
  cases o with
  | none =>
    refine ⟨g, tr, none, .refl _, Iff.rfl, nofun, .inl ?_⟩
    simp [specOp, Spec.ctorMove, Spec.fresh, Spec.get, Spec.setEmpty, Bind.bind, SM.bind, SM.pure, hx, hy]
    funext z
    grind
  | some a =>
    have hm := hf.move a g
    have hl := hf.left a g (hD a rfl)
    rcases hc : (ops x).moveCtor a g with ⟨e | b, u, g'⟩
    · rw [hc] at hl
      refine ⟨g', tr ++ [(y, u)], some u, fun q hq => ?_, by simp, fun c h => by cases h; exact hl, .inr ⟨e, ?_⟩⟩
      · simp at hq
        rcases hq with hq | rfl
        · exact .inl hq
        · exact .inr ⟨.inr rfl, hl⟩
      · simp [specOp, Spec.ctorMove, Spec.fresh, Spec.get, Spec.argVal, Bind.bind, SM.bind, hx, hy, hc]
    · rw [hc] at hl hm
      have hb := hm b (hD a rfl) rfl
      subst hb
      refine ⟨g', tr ++ [(y, u), (x, b)], some u, fun q hq => ?_, by simp, fun c h => by cases h; exact hl, .inl ?_⟩
      · simp at hq
        rcases hq with hq | rfl | rfl
        · exact .inl hq
        · exact .inr ⟨.inr rfl, hl⟩
        · exact .inr ⟨.inl rfl, hD b rfl⟩
      · simp [specOp, Spec.ctorMove, Spec.fresh, Spec.get, Spec.argVal, Spec.put, Bind.bind, SM.bind, SM.pure, hx, hy, hc]

/-- The elements below `N` have a value of `D` if they had one, and none if they had none. -/
def Engaged (D : V → Prop) (N : Nat) (v u : Nat → Option (Option V)) : Prop :=
  ∀ z, z < N → ∃ o, u z = some o ∧ (o = none ↔ v z = some none) ∧ ∀ a, o = some a → D a

theorem moveBuffer_run {N : Nat} (hf : ∀ x, x < N + N → Moves (ops x) D)
    {v : Nat → Option (Option V)} (hv : ∀ z, z < N → ∃ o, v z = some o ∧ ∀ a, o = some a → D a) (hfree : ∀ z, N ≤ z → z < N + N → v z = none) :
    ∀ (n i : Nat) (w : SWorld V G), i + n = N → Filled true D N v i w.vars → Engaged D N v w.vars →
    ∃ r u g' tr', specProg ops lim [] (fillBuffer true N n i) w = (r, ⟨u, g', tr'⟩) ∧ Adds (· < N + N) D w.trace tr' ∧
      (r = .ok () ∧ (u = fun z => if z < N then none else if z < N + N then v (z - N) else v z) ∨
        (∃ e, r = .throw e) ∧ Engaged D N v u ∧ ∀ z, N ≤ z → u z = v z)
  | 0, i, w, hi, hw, _ => by
    obtain ⟨g', h⟩ := destroyAll_run (ops := ops) (lim := lim) (k := .ret (.ok ())) 0 N w fun z _ hz => hw.there z (by omega)
    refine ⟨.ok (), _, g', w.trace, h, .refl _, .inl ⟨rfl, ?_⟩⟩
    funext z
    by_cases h1 : z < N
    · simp [h1]
    · by_cases h2 : z < N + N
      · have := hw.new (z - N) (by omega)
        rw [show N + (z - N) = z by omega] at this
        simp [h1, h2, this]
      · simp [h1, h2, hw.other z (by omega)]
  | n + 1, i, w, hi, hw, he => by
    obtain ⟨o, ho, hD⟩ := hv i (by omega)
    have hy : w.vars i = some o := by rw [hw.rest i (by omega) (by omega), ho]
    have hx : w.vars (N + i) = none := hw.free i (by omega) (by omega)
    obtain ⟨g1, tr1, o', ht, hoo, hD', h⟩ := move_try (hf (N + i) (by omega)) hx hy hD
    have ht' : Adds (· < N + N) D w.trace tr1 := fun q hq => (ht q hq).imp_right fun h => ⟨by rcases h.1 with h | h <;> omega, h.2⟩
    rcases h with h | ⟨e, h⟩
    · obtain ⟨r, u, g', tr', e1, e2, e3⟩ := moveBuffer_run hf hv hfree n (i + 1)
        ⟨fun z => if z = N + i then some o else if z = i then some o' else w.vars z, g1, tr1⟩ (by omega)
        ⟨nofun, fun z hz => by
            by_cases hzi : z = i
            · exact ⟨o', by simp only [hzi, if_neg (show i ≠ N + i by omega), if_true]⟩
            · simp [show z ≠ N + i by omega, hzi, hw.there z hz],
          fun z hz hz' => by simp [show z ≠ N + i by omega, show z ≠ i by omega, hw.rest z (by omega) hz'],
          fun z hz => by
            by_cases hzi : z = i
            · simp [hzi, ho]
            · simp [hzi, show N + z ≠ i by omega, hw.new z (by omega)],
          fun z hz hz' => by simp [show z ≠ i by omega, show N + z ≠ i by omega, hw.free z (by omega) hz'],
          fun z hz => by simp [show z ≠ N + i by omega, show z ≠ i by omega, hw.other z hz]⟩
        (fun z hz => by
          by_cases hzi : z = i
          · exact ⟨o', by simp only [hzi, if_neg (show i ≠ N + i by omega), if_true], by rw [hzi, ho, hoo]; simp, hD'⟩
          · obtain ⟨p, hp⟩ := he z hz
            exact ⟨p, by simp only [if_neg (show z ≠ N + i by omega), if_neg hzi, hp.1], hp.2⟩)
      refine ⟨r, u, g', tr', ?_, ht'.trans e2, e3⟩
      rw [fillBuffer, call_run rfl]
      simp only [if_true, h]
      exact e1
    · obtain ⟨g', hd⟩ := destroyAll_run (ops := ops) (lim := lim) (k := .ret (.error e)) N i
        ⟨fun z => if z = i then some o' else w.vars z, g1, tr1⟩ fun z hz hz' => by
          have := hw.new (z - N) (by omega)
          rw [show N + (z - N) = z by omega] at this
          obtain ⟨o, ho, _⟩ := hv (z - N) (by omega)
          exact ⟨o, by simp only [if_neg (show z ≠ i by omega), this, ho]⟩
      refine ⟨.throw e, fun z => if N ≤ z ∧ z < N + i then none else if z = i then some o' else w.vars z, g', tr1, ?_, ht',
        .inr ⟨⟨e, rfl⟩, fun z hz => ?_, fun z hz => ?_⟩⟩
      · rw [fillBuffer, call_run rfl]
        simp only [if_true, h]
        exact hd
      · by_cases hzi : z = i
        · exact ⟨o', by simp only [hzi, if_neg (show ¬ (N ≤ i ∧ i < N + i) by omega), if_true], by rw [hzi, ho, hoo]; simp, hD'⟩
        · obtain ⟨p, hp⟩ := he z hz
          exact ⟨p, by simp only [if_neg (show ¬ (N ≤ z ∧ z < N + i) by omega), if_neg hzi, hp.1], hp.2⟩
      · simp only [if_neg (show z ≠ i by omega)]
        by_cases h2 : z < N + N
        · rw [hfree z (by omega) h2]
          by_cases h3 : z < N + i
          · simp [hz, h3]
          · have := hw.free (z - N) (by omega) (by omega)
            rw [show N + (z - N) = z by omega] at this
            simp [h3, this]
        · simp [show ¬ z < N + i by omega, hw.other z (by omega)]

end Verif.Spec
