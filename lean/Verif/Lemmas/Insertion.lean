import Verif.Spec.Insertion
import Verif.Lemmas.Erasure

/-! Helper lemmas for C94. -/

namespace Verif.Spec
variable {V G : Type} {D : V → Prop} {ops : Nat → Ops V G} {lim : Re.Limits}

/-- The variable exists and has no value that is not in `D`. -/
def Sound (D : V → Prop) (u : Option (Option V)) : Prop := ∃ o, u = some o ∧ ∀ a, o = some a → D a

/-- What holds when the hole is at `i`. -/
structure ShiftedUp (D : V → Prop) (N : Nat) (v : Nat → Option (Option V)) (i : Nat) (u : Nat → Option (Option V)) : Prop where
  before : ∀ x, x < i → u x = v x
  hole : Sound D (u i)
  moved : ∀ x, i < x → x ≤ N → u x = v (x - 1)
  behind : ∀ x, N < x → u x = v x

/-- The variables after an exception. -/
structure Broken (D : V → Prop) (t N k : Nat) (v u : Nat → Option (Option V)) : Prop where
  before : ∀ x, x < k → u x = v x
  fine : ∀ x, k ≤ x → x < N → Sound D (u x)
  last : u N = none ∨ Sound D (u N)
  behind : ∀ x, N < x → x ≠ t → u x = v x
  temp : Sound D (u t)

/-- The operations may throw. -/
def Rough (o : Ops V G) : Prop := (o.nothrowMoveAssign && o.nothrowMoveCtor) = false

theorem shiftRight_run {t N k : Nat} (ht : N < t) (hf : ∀ x, x ≤ N → Movable (ops x) D) (hl : ∀ x, x ≤ N → (ops x).Lawful)
    {v : Nat → Option (Option V)} (hv : ∀ z, z < N → Sound D (v z)) (hvt : Sound D (v t)) :
    ∀ (n : Nat) (w : SWorld V G), k + n < N → ShiftedUp D N v (k + n) w.vars →
    ∃ r u g' tr', specProg ops lim [] (shiftRight t k n) w = (r, ⟨u, g', tr'⟩) ∧ Adds (fun x => x ≤ N ∨ x = t) D w.trace tr' ∧
      (r = .ok () ∧ (∀ x, x ≠ t → u x = if x < k then v x else if x = k then v t else if x ≤ N then v (x - 1) else v x) ∧
          Sound D (u t) ∧ (u t = some none ↔ v t = some none) ∨
        ∃ e j, r = .throw e ∧ j ≤ N ∧ Rough (ops j) ∧ Broken D t N k v u)
  | 0, w, hk, hw => by
    obtain ⟨o, ho, hDo⟩ := hw.hole
    obtain ⟨p, hp, hDp⟩ := hvt
    have hy : w.vars t = some p := (hw.behind t ht).trans hp
    obtain ⟨o', p', g1, tr1, hadd, hpp, hDo', hDp', h⟩ :=
      assignMove_run (hf k (by omega)) (hl k (by omega)) (show k ≠ t by omega) ho hy hDo hDp
    have hadd' : Adds (fun x => x ≤ N ∨ x = t) D w.trace tr1 := fun q hq => (hadd q hq).imp_right fun h => ⟨by rcases h.1 with h | h <;> omega, h.2⟩
    rcases h with ⟨rfl, h⟩ | ⟨_, hn, e, h⟩
    · refine ⟨.ok (), fun z => if z = k then some o' else if z = t then some p' else w.vars z, g1, tr1, ?_, hadd',
        .inl ⟨rfl, fun x hx => ?_, ⟨p', by simp [show t ≠ k by omega], hDp'⟩, by simp [show t ≠ k by omega, hpp, hp]⟩⟩
      · rw [shiftRight, call_run rfl, h]
        rfl
      · by_cases h1 : x < k
        · simp [show x ≠ k by omega, hx, h1, hw.before x h1]
        · by_cases h2 : x = k
          · simp [h2, hp]
          · by_cases h3 : x ≤ N
            · simp [h1, h2, h3, hx, hw.moved x (by omega) h3]
            · simp [h1, h2, h3, hx, hw.behind x (by omega)]
    · refine ⟨.throw e, fun z => if z = k then some o' else if z = t then some p' else w.vars z, g1, tr1, ?_, hadd',
        .inr ⟨e, k, rfl, by omega, hn, ⟨fun x hx => ?_, fun x hx hx' => ?_, .inr ?_, fun x hx hx' => ?_, ⟨p', by simp [show t ≠ k by omega], hDp'⟩⟩⟩⟩
      · rw [shiftRight, call_run rfl, h]
        rfl
      · simp [show x ≠ k by omega, show x ≠ t by omega, hw.before x hx]
      · by_cases h2 : x = k
        · exact ⟨o', by simp [h2], hDo'⟩
        · simpa [h2, show x ≠ t by omega, hw.moved x (by omega) (by omega)] using hv (x - 1) (by omega)
      · simpa [show N ≠ k by omega, show N ≠ t by omega, hw.moved N (by omega) (by omega)] using hv (N - 1) (by omega)
      · simp [show x ≠ k by omega, hx', hw.behind x hx]
  | n + 1, w, hk, hw => by
    obtain ⟨o, ho, hDo⟩ := hw.hole
    obtain ⟨p, hp, hDp⟩ := hv (k + n) (by omega)
    have hy : w.vars (k + n) = some p := (hw.before (k + n) (by omega)).trans hp
    obtain ⟨o', p', g1, tr1, hadd, hpp, hDo', hDp', h⟩ :=
      assignMove_run (x := k + n + 1) (hf _ (by omega)) (hl _ (by omega)) (show k + n + 1 ≠ k + n by omega) ho hy hDo hDp
    have hadd' : Adds (fun x => x ≤ N ∨ x = t) D w.trace tr1 := fun q hq => (hadd q hq).imp_right fun h => ⟨by rcases h.1 with h | h <;> omega, h.2⟩
    rcases h with ⟨rfl, h⟩ | ⟨_, hn, e, h⟩
    · obtain ⟨r, u, g', tr', e1, e2, e3⟩ := shiftRight_run (k := k) ht hf hl hv hvt n
        ⟨fun z => if z = k + n + 1 then some o' else if z = k + n then some p' else w.vars z, g1, tr1⟩ (by omega)
        ⟨fun x hx => by simp [show x ≠ k + n + 1 by omega, show x ≠ k + n by omega, hw.before x (by omega)],
          ⟨p', by simp, hDp'⟩,
          fun x hx hx' => by
            by_cases hxi : x = k + n + 1
            · simp [hxi, hp]
            · simp [hxi, show x ≠ k + n by omega, hw.moved x (by omega) hx'],
          fun x hx => by simp [show x ≠ k + n + 1 by omega, show x ≠ k + n by omega, hw.behind x hx]⟩
      refine ⟨r, u, g', tr', ?_, hadd'.trans e2, e3⟩
      rw [shiftRight, call_run rfl, h]
      exact e1
    · refine ⟨.throw e, fun z => if z = k + n + 1 then some o' else if z = k + n then some p' else w.vars z, g1, tr1, ?_, hadd',
        .inr ⟨e, k + n + 1, rfl, by omega, hn, ⟨fun x hx => ?_, fun x hx hx' => ?_, .inr ?_, fun x hx hx' => ?_, ?_⟩⟩⟩
      · rw [shiftRight, call_run rfl, h]
        rfl
      · simp [show x ≠ k + n + 1 by omega, show x ≠ k + n by omega, hw.before x (by omega)]
      · by_cases h1 : x = k + n + 1
        · exact ⟨o', by simp [h1], hDo'⟩
        · by_cases h2 : x = k + n
          · exact ⟨p', by simp [h2], hDp'⟩
          · by_cases h3 : x < k + n
            · simpa [h1, h2, hw.before x (by omega)] using hv x hx'
            · simpa [h1, h2, hw.moved x (by omega) (by omega)] using hv (x - 1) (by omega)
      · simpa [show N ≠ k + n + 1 by omega, show N ≠ k + n by omega, hw.moved N (by omega) (by omega)] using hv (N - 1) (by omega)
      · simp [show x ≠ k + n + 1 by omega, show x ≠ k + n by omega, hw.behind x hx]
      · simpa [show t ≠ k + n + 1 by omega, show t ≠ k + n by omega, hw.behind t ht] using hvt

theorem insertion_run {t N k : Nat} (hk : k < N) (ht : N < t) (hf : ∀ x, x ≤ N → Movable (ops x) D) (hl : ∀ x, x ≤ N → (ops x).Lawful)
    {w : SWorld V G} (hv : ∀ z, z < N → Sound D (w.vars z)) (hvN : w.vars N = none) (hvt : Sound D (w.vars t)) :
    ∃ r u g' tr', specProg ops lim [] (insertion t N k) w = (r, ⟨u, g', tr'⟩) ∧ Adds (fun x => x ≤ N ∨ x = t) D w.trace tr' ∧
      (r = .ok () ∧ (∀ x, x ≠ t → u x = if x < k then w.vars x else if x = k then w.vars t else if x ≤ N then w.vars (x - 1) else w.vars x) ∧
          Sound D (u t) ∧ (u t = some none ↔ w.vars t = some none) ∨
        ∃ e j, r = .throw e ∧ j ≤ N ∧ Rough (ops j) ∧ Broken D t N k w.vars u) := by
  obtain ⟨p, hp, hDp⟩ := hv (N - 1) (by omega)
  have hlN := (hl N (Nat.le_refl _)).moveCtor
  obtain ⟨g1, tr1, o', hadd, hoo, hD', h⟩ := move_try (hf N (Nat.le_refl _)).toMoves hvN hp hDp
  have hadd' : Adds (fun x => x ≤ N ∨ x = t) D w.trace tr1 := fun q hq => (hadd q hq).imp_right fun h => ⟨by rcases h.1 with h | h <;> omega, h.2⟩
  rcases h with h | ⟨e, h⟩
  · obtain ⟨r, u, g', tr', e1, e2, e3⟩ := shiftRight_run (ops := ops) (lim := lim) (k := k) ht hf hl hv hvt (N - 1 - k)
      ⟨fun z => if z = N then some p else if z = N - 1 then some o' else w.vars z, g1, tr1⟩ (by omega)
      ⟨fun x hx => by simp [show x ≠ N by omega, show x ≠ N - 1 by omega],
        ⟨o', by simp [show k + (N - 1 - k) = N - 1 by omega, show N - 1 ≠ N by omega], hD'⟩,
        fun x hx hx' => by simp [show x = N by omega, hp],
        fun x hx => by simp [show x ≠ N by omega, show x ≠ N - 1 by omega]⟩
    refine ⟨r, u, g', tr', ?_, hadd'.trans e2, e3⟩
    rw [insertion, call_run rfl, h]
    exact e1
  · refine ⟨.throw e, fun z => if z = N - 1 then some o' else w.vars z, g1, tr1, ?_, hadd',
      .inr ⟨e, N, rfl, Nat.le_refl _, ?_, ⟨fun x hx => ?_, fun x hx hx' => ?_, .inl ?_, fun x hx hx' => ?_, ?_⟩⟩⟩
    · rw [insertion, call_run rfl, h]
      rfl
    · unfold Rough
      cases hnt : (ops N).nothrowMoveCtor with
      | false => simp
      | true =>
        obtain ⟨_, _, _, _, _, h'⟩ := move_run (hf N (Nat.le_refl _)).toMoves hvN hp hDp (hlN hnt)
        rw [h] at h'
        cases h'
    · simp [show x ≠ N - 1 by omega]
    · by_cases h1 : x = N - 1
      · exact ⟨o', by simp [h1], hD'⟩
      · simpa [h1] using hv x hx'
    · simp [show N ≠ N - 1 by omega, hvN]
    · simp [show x ≠ N - 1 by omega]
    · simpa [show t ≠ N - 1 by omega] using hvt

end Verif.Spec
