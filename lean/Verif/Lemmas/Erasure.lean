import Verif.Spec.Erasure
import Verif.Spec.WellTyped
import Verif.Lemmas.Growth

/-! Helper lemmas for C93. -/

namespace Verif.Spec
variable {V G : Type} {D : V → Prop} {ops : Nat → Ops V G} {lim : Re.Limits}

/-- One move assignment between different optionals. -/
theorem assignMove_run {x y : Nat} (hf : Movable (ops x) D) (hl : (ops x).Lawful) {w : SWorld V G} {o p : Option V} (hxy : x ≠ y)
    (hx : w.vars x = some o) (hy : w.vars y = some p) (hDo : ∀ a, o = some a → D a) (hDp : ∀ a, p = some a → D a) :
    ∃ o' p' g' tr', Adds (fun z => z = x ∨ z = y) D w.trace tr' ∧ (p' = none ↔ p = none) ∧ (∀ a, o' = some a → D a) ∧ (∀ a, p' = some a → D a) ∧
      (o' = p ∧ specOp ops (.assignMove x y) w =
          (.ok .unit, ⟨fun z => if z = x then some o' else if z = y then some p' else w.vars z, g', tr'⟩) ∨
        (o' = none ↔ o = none) ∧ ((ops x).nothrowMoveAssign && (ops x).nothrowMoveCtor) = false ∧
          ∃ e, specOp ops (.assignMove x y) w =
            (.throw e, ⟨fun z => if z = x then some o' else if z = y then some p' else w.vars z, g', tr'⟩)) := by
  obtain ⟨v, g, tr⟩ := w
  simp only at hx hy
  cases o with
  | none =>
    cases p with
    | none =>
      refine ⟨none, none, g, tr, .refl _, Iff.rfl, nofun, nofun, .inl ⟨rfl, ?_⟩⟩
      simp [specOp, Spec.assignMove, Spec.get, Bind.bind, SM.bind, SM.pure, hx, hy]
      funext z
      grind
    | some b =>
      have hm := hf.move b g
      have hd := hf.left b g (hDp b rfl)
      have hn := hl.moveCtor
      rcases hc : (ops x).moveCtor b g with ⟨e | c, u, g'⟩
      · rw [hc] at hd
        refine ⟨none, some u, g', tr ++ [(y, u)], fun q hq => ?_, by simp, nofun, fun a h => by cases h; exact hd, .inr ⟨Iff.rfl, ?_, e, ?_⟩⟩
        · simp at hq
          rcases hq with hq | rfl
          · exact .inl hq
          · exact .inr ⟨.inr rfl, hd⟩
        · cases h : (ops x).nothrowMoveCtor with
          | false => simp
          | true =>
            obtain ⟨c, h⟩ := hn h b g
            rw [hc] at h
            cases h
        · simp [specOp, Spec.assignMove, Spec.init, Spec.argVal, Spec.get, Bind.bind, SM.bind, hx, hy, hc]
          funext z
          grind
      · rw [hc] at hd hm
        have := hm c (hDp b rfl) rfl
        subst this
        refine ⟨some c, some u, g', tr ++ [(y, u), (x, c)], fun q hq => ?_, by simp, hDp, fun a h => by cases h; exact hd, .inl ⟨rfl, ?_⟩⟩
        · simp at hq
          rcases hq with hq | rfl | rfl
          · exact .inl hq
          · exact .inr ⟨.inr rfl, hd⟩
          · exact .inr ⟨.inl rfl, hDp c rfl⟩
        · simp [specOp, Spec.assignMove, Spec.init, Spec.argVal, Spec.get, Spec.put, Bind.bind, SM.bind, SM.pure, hx, hy, hc]
  | some a =>
    cases p with
    | none =>
      refine ⟨none, none, (ops x).dtor a g, tr, .refl _, Iff.rfl, nofun, nofun, .inl ⟨rfl, ?_⟩⟩
      simp [specOp, Spec.assignMove, Spec.destroyVal, Spec.get, Bind.bind, SM.bind, SM.pure, hx, hy]
      funext z
      grind
    | some b =>
      have ha := hf.assign a b g (hDo a rfl) (hDp b rfl)
      have h1 := hf.target a b g (hDo a rfl) (hDp b rfl)
      have h2 := hf.source a b g (hDo a rfl) (hDp b rfl)
      have hn := hl.moveAssign
      rcases hc : (ops x).moveAssign a b g with ⟨e, c, u, g'⟩
      rw [hc] at ha h1 h2
      simp only at ha h1 h2
      have had : Adds (fun z => z = x ∨ z = y) D tr (tr ++ [(x, c), (y, u)]) := fun q hq => by
        simp at hq
        rcases hq with hq | rfl | rfl
        · exact .inl hq
        · exact .inr ⟨.inl rfl, h1⟩
        · exact .inr ⟨.inr rfl, h2⟩
      refine ⟨some c, some u, g', _, had, by simp, fun _ h => by cases h; exact h1, fun _ h => by cases h; exact h2, ?_⟩
      cases e with
      | none =>
        refine .inl ⟨by rw [ha rfl], ?_⟩
        simp [specOp, Spec.assignMove, Spec.payloadAssign, Spec.get, Spec.getVal, Spec.user, Spec.put, Spec.check, Bind.bind, SM.bind, SM.pure, hx, hy,
          hxy, hc]
        funext z
        grind
      | some e =>
        refine .inr ⟨by simp, ?_, e, ?_⟩
        · cases h : (ops x).nothrowMoveAssign with
          | false => simp
          | true =>
            have := hn h a b g
            rw [hc] at this
            cases this
        · simp [specOp, Spec.assignMove, Spec.payloadAssign, Spec.get, Spec.getVal, Spec.user, Spec.put, Spec.check, Bind.bind, SM.bind, hx,
            hy, hxy, hc, Spec.throw]
          funext z
          grind

/-- What holds when the hole is at `i`. -/
structure Shifted (D : V → Prop) (k : Nat) (v : Nat → Option (Option V)) (i : Nat) (u : Nat → Option (Option V)) : Prop where
  before : ∀ x, x < k → u x = v x
  moved : ∀ x, k ≤ x → x < i → u x = v (x + 1)
  hole : ∃ o, u i = some o ∧ (o = none ↔ v i = some none) ∧ ∀ a, o = some a → D a
  behind : ∀ x, i < x → u x = v x

/-- The state after an exception at `j`. -/
structure Stuck (D : V → Prop) (k : Nat) (v : Nat → Option (Option V)) (j : Nat) (u : Nat → Option (Option V)) : Prop where
  before : ∀ x, x < k → u x = v x
  moved : ∀ x, k ≤ x → x < j → u x = v (x + 1)
  here : ∀ x, x = j ∨ x = j + 1 → ∃ o, u x = some o ∧ (o = none ↔ v x = some none) ∧ ∀ a, o = some a → D a
  behind : ∀ x, j + 1 < x → u x = v x

theorem shiftLeft_run {N k : Nat} (hf : ∀ x, x < N → Movable (ops x) D) (hl : ∀ x, x < N → (ops x).Lawful) {v : Nat → Option (Option V)}
    (hv : ∀ z, z < N → ∃ o, v z = some o ∧ ∀ a, o = some a → D a) : ∀ (n i : Nat) (w : SWorld V G), i + n + 1 = N → k ≤ i → Shifted D k v i w.vars →
    ∃ r u g' tr', specProg ops lim [] (shiftLeft n i) w = (r, ⟨u, g', tr'⟩) ∧ Adds (· < N) D w.trace tr' ∧
      (r = .ok () ∧ (u = fun x => if x < k then v x else if x + 1 < N then v (x + 1) else if x + 1 = N then none else v x) ∨
        ∃ e j, r = .throw e ∧ k ≤ j ∧ j + 1 < N ∧ ((ops j).nothrowMoveAssign && (ops j).nothrowMoveCtor) = false ∧ Stuck D k v j u)
  | 0, i, w, hi, hk, hw => by
    obtain ⟨o, ho, -⟩ := hw.hole
    obtain ⟨g', h⟩ := dtor_run (ops := ops) ho
    refine ⟨.ok (), fun z => if z = i then none else w.vars z, g', w.trace, ?_, .refl _, .inl ⟨rfl, ?_⟩⟩
    · rw [shiftLeft, call_run rfl, h]
      rfl
    · funext x
      by_cases h1 : x < k
      · simp [show x ≠ i by omega, h1, hw.before x h1]
      · by_cases h2 : x < i
        · simp [show x ≠ i by omega, h1, show x + 1 < N by omega, hw.moved x (by omega) h2]
        · by_cases h3 : x = i
          · simp [h3, show ¬ i < k by omega, show i + 1 = N by omega]
          · simp [h3, h1, show ¬ x + 1 < N by omega, show x + 1 ≠ N by omega, hw.behind x (by omega)]
  | n + 1, i, w, hi, hk, hw => by
    obtain ⟨o, ho, hoe, hDo⟩ := hw.hole
    obtain ⟨p, hp, hDp⟩ := hv (i + 1) (by omega)
    have hy : w.vars (i + 1) = some p := by rw [hw.behind (i + 1) (by omega), hp]
    obtain ⟨o', p', g1, tr1, ht, hpp, hDo', hDp', ⟨rfl, h⟩ | ⟨hoo, hn, e, h⟩⟩ :=
      assignMove_run (hf i (by omega)) (hl i (by omega)) (show i ≠ i + 1 by omega) ho hy hDo hDp
    · have ht' : Adds (· < N) D w.trace tr1 := fun q hq => (ht q hq).imp_right fun h => ⟨by rcases h.1 with h | h <;> omega, h.2⟩
      obtain ⟨r, u, g', tr', e1, e2, e3⟩ := shiftLeft_run (k := k) hf hl hv n (i + 1)
        ⟨fun z => if z = i then some o' else if z = i + 1 then some p' else w.vars z, g1, tr1⟩ (by omega) (by omega)
        ⟨fun x hx => by simp [show x ≠ i by omega, show x ≠ i + 1 by omega, hw.before x hx],
          fun x hx hx' => by
            by_cases hxi : x = i
            · simp [hxi, hp]
            · simp [hxi, show x ≠ i + 1 by omega, hw.moved x hx (by omega)],
          ⟨p', by simp, by simp [hpp, hp], hDp'⟩,
          fun x hx => by simp [show x ≠ i by omega, show x ≠ i + 1 by omega, hw.behind x (by omega)]⟩
      refine ⟨r, u, g', tr', ?_, ht'.trans e2, e3⟩
      rw [shiftLeft, call_run rfl, h]
      exact e1
    · have ht' : Adds (· < N) D w.trace tr1 := fun q hq => (ht q hq).imp_right fun h => ⟨by rcases h.1 with h | h <;> omega, h.2⟩
      refine ⟨.throw e, fun z => if z = i then some o' else if z = i + 1 then some p' else w.vars z, g1, tr1, ?_, ht',
        .inr ⟨e, i, rfl, hk, by omega, hn, ⟨fun x hx => ?_, fun x hx hx' => ?_, fun x hx => ?_, fun x hx => ?_⟩⟩⟩
      · rw [shiftLeft, call_run rfl, h]
        rfl
      · simp [show x ≠ i by omega, show x ≠ i + 1 by omega, hw.before x hx]
      · simp [show x ≠ i by omega, show x ≠ i + 1 by omega, hw.moved x hx hx']
      · rcases hx with rfl | rfl
        · exact ⟨o', by simp, hoo.trans hoe, hDo'⟩
        · exact ⟨p', by simp, by simp [hpp, hp], hDp'⟩
      · simp [show x ≠ i by omega, show x ≠ i + 1 by omega, hw.behind x (by omega)]

end Verif.Spec
