import Verif.Spec.Rearrange
import Verif.Spec.History

/-! Helper lemmas for C91. -/

namespace Verif.Spec
variable {V G α β : Type} {A : Nat → Prop} {D : V → Prop}

theorem PermOn.refl {S : Type} (v : Nat → S) : PermOn A v v := ⟨Equiv.refl _, fun _ _ => rfl, fun _ => rfl⟩

theorem PermOn.trans {S : Type} {u v w : Nat → S} (h : PermOn A u v) (h' : PermOn A v w) : PermOn A u w := by
  obtain ⟨τ, h1, h2⟩ := h
  obtain ⟨σ, h3, h4⟩ := h'
  refine ⟨σ.trans τ, fun x hx => ?_, fun x => ?_⟩
  · show τ (σ x) = x
    rw [h3 x hx, h1 x hx]
  · rw [h4, h2]
    rfl

theorem PermOn.swap {S : Type} (v : Nat → S) {x y : Nat} (hx : A x) (hy : A y) : PermOn A v fun z => v (Equiv.swap x y z) :=
  ⟨Equiv.swap x y, fun _ hz => Equiv.swap_apply_of_ne_of_ne (fun e => hz (e ▸ hx)) (fun e => hz (e ▸ hy)), fun _ => rfl⟩

/-- A bijection that is the identity outside `A` keeps `A`. -/
theorem PermOn.inside {τ : Equiv.Perm Nat} (h : ∀ x, ¬ A x → τ x = x) {x : Nat} (hx : A x) : A (τ x) := by
  by_cases hA : A (τ x)
  · exact hA
  · have := τ.injective (h _ hA)
    rw [this] at hA
    exact absurd hx hA

/-- The values in `A` are in `D`. -/
def Inside (A : Nat → Prop) (D : V → Prop) (v : Nat → Option (Option V)) : Prop := ∀ x, A x → ∀ a, v x = some (some a) → D a

theorem Inside.perm {v v' : Nat → Option (Option V)} (h : Inside A D v) (hp : PermOn A v v') : Inside A D v' := by
  obtain ⟨τ, h1, h2⟩ := hp
  exact fun x hx a ha => h _ (PermOn.inside h1 hx) a (h2 x ▸ ha)

/-- The new entries of the trace. -/
def Adds (A : Nat → Prop) (D : V → Prop) (tr tr' : List (Nat × V)) : Prop := ∀ q ∈ tr', q ∈ tr ∨ A q.1 ∧ D q.2

theorem Adds.refl (tr : List (Nat × V)) : Adds A D tr tr := fun _ h => .inl h
theorem Adds.trans {s t u : List (Nat × V)} (h : Adds A D s t) (h' : Adds A D t u) : Adds A D s u := fun q hq => (h' q hq).elim (h q) .inr

/-- `m` rearranges the variables in `A`, unless it is undefined. -/
def Arranges (A : Nat → Prop) (D : V → Prop) (m : SM V G α) : Prop :=
  ∀ w, Inside A D w.vars → (m w).1 ≠ .undef → PermOn A w.vars (m w).2.vars ∧ Adds A D w.trace (m w).2.trace

theorem Arranges.same {m : SM V G α} (h : ∀ w, (m w).1 ≠ .undef → (m w).2.vars = w.vars ∧ (m w).2.trace = w.trace) : Arranges A D m :=
  fun w _ hu => by rw [(h w hu).1, (h w hu).2]; exact ⟨.refl _, .refl _⟩

theorem Arranges.bind {m : SM V G α} {f : α → SM V G β} (hm : Arranges A D m) (hf : ∀ a, Arranges A D (f a)) : Arranges A D (m >>= f) := by
  intro w hw
  show (SM.bind m f w).1 ≠ _ → PermOn A _ (SM.bind m f w).2.vars ∧ Adds A D _ (SM.bind m f w).2.trace
  have h1 := hm w hw
  unfold SM.bind
  rcases hc : m w with ⟨r, w'⟩
  rw [hc] at h1
  cases r with
  | ok a =>
    intro hu
    obtain ⟨p1, t1⟩ := h1 nofun
    obtain ⟨p2, t2⟩ := hf a w' (hw.perm p1) hu
    exact ⟨p1.trans p2, t1.trans t2⟩
  | throw e => exact fun _ => h1 nofun
  | undef => exact fun hu => absurd rfl hu

theorem Arranges.pure (a : α) : Arranges A D (SM.pure a : SM V G α) := .same fun _ _ => ⟨rfl, rfl⟩
theorem Arranges.throw (e : Exn) : Arranges A D (throw e : SM V G α) := .same fun _ _ => ⟨rfl, rfl⟩

theorem Arranges.require (b : Bool) : Arranges A D (Re.require b : SM V G Unit) := by
  cases b <;> exact .same fun _ _ => ⟨rfl, rfl⟩

theorem Arranges.get (x : Nat) : Arranges A D (get x : SM V G (Option V)) := .same fun w _ => by
  unfold Spec.get
  cases w.vars x <;> exact ⟨rfl, rfl⟩

theorem Arranges.getVal (x : Nat) : Arranges A D (getVal x : SM V G V) := .same fun w _ => by
  unfold Spec.getVal
  split <;> exact ⟨rfl, rfl⟩

theorem Arranges.attempt {m : SM V G α} (h : Arranges A D m) : Arranges A D (Re.attempt m) := by
  intro w hw hu
  have h1 := h w hw
  unfold Re.attempt at hu ⊢
  rcases hc : m w with ⟨r, w'⟩
  rw [hc] at h1 hu
  cases r with
  | ok a => exact h1 nofun
  | throw e => exact h1 nofun
  | undef => exact absurd rfl hu

theorem Arranges.never {m : SM V G α} (h : Arranges A D m) : Arranges A D (Re.never false m) := by
  intro w hw hu
  have h1 := h w hw
  unfold Re.never at hu ⊢
  rcases hc : m w with ⟨r, w'⟩
  rw [hc] at h1 hu
  cases r with
  | ok a => exact h1 nofun
  | throw e => exact h1 nofun
  | undef => exact absurd rfl hu

/-- Swapping two optionals. -/
theorem swap_run {o : Ops V G} (ho : Exchanges o D) {x y : Nat} (hx : A x) (hy : A y) (w : SWorld V G) (hD : Inside A D w.vars)
    {a b : Option V} (ha : w.vars x = some a) (hb : w.vars y = some b) :
    ∃ g' tr', Spec.swap o x y w = (.ok (), ⟨fun z => w.vars (Equiv.swap x y z), g', tr'⟩) ∧ Adds A D w.trace tr' := by
  obtain ⟨v, g, tr⟩ := w
  simp only at ha hb hD
  have sw : ∀ z, v (Equiv.swap x y z) = if z = x then some b else if z = y then some a else v z := fun z => by
    rw [Equiv.swap_apply_def]
    split
    · exact hb
    · split
      · exact ha
      · rfl
  cases a with
  | none =>
    cases b with
    | none =>
      refine ⟨g, tr, ?_, .refl _⟩
      simp [Spec.swap, Spec.get, Bind.bind, SM.bind, SM.pure, ha, hb]
      funext z
      rw [sw]
      grind
    | some b =>
      have hxy : x ≠ y := fun e => by rw [e, hb] at ha; cases ha
      obtain ⟨u, g', hm, hu⟩ := ho.move b g (hD y hy b hb)
      refine ⟨o.dtor u g', tr ++ [(y, u), (x, b)], ?_, fun q hq => ?_⟩
      · simp [Spec.swap, Spec.get, Spec.init, Spec.argVal, Spec.put, Spec.destroyVal, Bind.bind, SM.bind, ha, hb, hm, Ne.symm hxy]
        funext z
        rw [sw]
        grind
      · simp at hq
        rcases hq with hq | rfl | rfl
        · exact .inl hq
        · exact .inr ⟨hy, hu⟩
        · exact .inr ⟨hx, hD y hy b hb⟩
  | some a =>
    cases b with
    | none =>
      have hxy : x ≠ y := fun e => by rw [e, hb] at ha; cases ha
      obtain ⟨u, g', hm, hu⟩ := ho.move a g (hD x hx a ha)
      refine ⟨o.dtor u g', tr ++ [(x, u), (y, a)], ?_, fun q hq => ?_⟩
      · simp [Spec.swap, Spec.get, Spec.init, Spec.argVal, Spec.put, Spec.destroyVal, Bind.bind, SM.bind, ha, hb, hm, hxy]
        funext z
        rw [sw]
        grind
      · simp at hq
        rcases hq with hq | rfl | rfl
        · exact .inl hq
        · exact .inr ⟨hx, hu⟩
        · exact .inr ⟨hy, hD x hx a ha⟩
    | some b =>
      have da := hD x hx a ha
      have db := hD y hy b hb
      by_cases hxy : x = y
      · subst hxy
        obtain ⟨g', hs⟩ := ho.self a g da
        refine ⟨g', tr ++ [(x, a)], ?_, fun q hq => ?_⟩
        · simp [Spec.swap, Spec.get, Spec.user, Spec.put, Spec.check, Bind.bind, SM.bind, SM.pure, ha, hs]
          funext z
          by_cases hz : z = x <;> simp [hz, ha]
        · simp at hq
          rcases hq with hq | rfl
          · exact .inl hq
          · exact .inr ⟨hx, da⟩
      · obtain ⟨g', hs⟩ := ho.swap a b g da db
        refine ⟨g', tr ++ [(x, b), (y, a)], ?_, fun q hq => ?_⟩
        · simp [Spec.swap, Spec.get, Spec.user, Spec.put, Spec.check, Bind.bind, SM.bind, SM.pure, ha, hb, hs, hxy]
          funext z
          rw [sw]
          grind
        · simp at hq
          rcases hq with hq | rfl | rfl
          · exact .inl hq
          · exact .inr ⟨hx, db⟩
          · exact .inr ⟨hy, da⟩

theorem Arranges.swap {o : Ops V G} (ho : Exchanges o D) {x y : Nat} (hx : A x) (hy : A y) : Arranges A D (Spec.swap o x y) := by
  intro w hw hu
  rcases ha : w.vars x with _ | a
  · exact absurd (by simp [Spec.swap, Spec.get, Bind.bind, SM.bind, ha]) hu
  rcases hb : w.vars y with _ | b
  · exact absurd (by simp [Spec.swap, Spec.get, Bind.bind, SM.bind, ha, hb]) hu
  obtain ⟨g', tr', h, ht⟩ := swap_run ho hx hy w hw ha hb
  rw [h]
  exact ⟨.swap _ hx hy, ht⟩

theorem Arranges.prog {ops : Nat → Ops V G} {lim : Re.Limits} (ho : ∀ x, A x → Exchanges (ops x) D) {α : Type} (p : Prog V G α) :
    ∀ {B : List Nat}, p.InPlace A → Arranges A D (specProg ops lim B p) := by
  induction p with
  | ret r =>
    intro B _
    cases r with
    | ok a => exact .pure a
    | error e => exact .throw e
  | user f k ih => exact fun h w hw hu => ih w.user (h w.user) { w with user := f w.user } hw hu
  | call op k ih =>
    intro B h
    cases op with
    | swap x y =>
      obtain ⟨hx, hy, hk⟩ := h
      exact (Arranges.require _).bind fun _ => ((Arranges.swap (ho x hx) hx hy).bind fun _ => .pure _).never.attempt.bind fun r => ih r (hk r)
    | hasValue x =>
      refine (Arranges.require _).bind fun _ => (Arranges.never ?_).attempt.bind fun r => ih r (h r)
      exact ((Arranges.get x).bind fun o => by cases o <;> exact .pure _).bind fun _ => .pure _
    | deref x =>
      refine (Arranges.require _).bind fun _ => (Arranges.never ?_).attempt.bind fun r => ih r (h r)
      exact (Arranges.getVal x).bind fun _ => .pure _
    | value x =>
      refine (Arranges.require _).bind fun _ => (Arranges.never ?_).attempt.bind fun r => ih r (h r)
      exact ((Arranges.get x).bind fun o => by cases o <;> first | exact .pure _ | exact .throw _).bind fun _ => .pure _
    | _ => exact absurd h (by simp [Prog.InPlace])
  | compare q x y cmp k ihc ih =>
    intro B h
    refine (Arranges.require _).bind fun _ => (Arranges.attempt ?_).bind fun r => ih r (h.2 r)
    refine (Arranges.get x).bind fun a => (Arranges.get y).bind fun b => ?_
    rcases q.answer a b with r | ⟨a, b⟩
    · exact .pure r
    · exact ihc a b (h.1 a b)
  | inspect q x f k ihf ih =>
    intro B h
    refine (Arranges.require _).bind fun _ => (Arranges.attempt ?_).bind fun r => ih r (h.2 r)
    refine (Arranges.get x).bind fun a => ?_
    rcases q.answer a with r | v
    · exact .pure r
    · exact ihf v (h.1 v)
  | _ => exact fun h => absurd h (by simp [Prog.InPlace])

/-! ### Insertion sort -/

theorem StrictWeak.opt {r : V → V → Bool} (h : StrictWeak r) : StrictWeak (optLt r) where
  asymm a b := by
    cases a <;> cases b <;> simp [optLt]
    exact h.asymm _ _
  negTrans a b c := by
    cases a <;> cases b <;> cases c <;> simp [optLt]
    exact h.negTrans _ _ _

/-- What `sink` does to the elements. -/
def sunk {S : Type} (lt : S → S → Bool) : Nat → (Nat → S) → Nat → S
  | 0, c => c
  | j + 1, c => if lt (c (j + 1)) (c j) then sunk lt j fun z => c (Equiv.swap (j + 1) j z) else c

/-- What `insertionSort` does to the elements. -/
def sorted {S : Type} (lt : S → S → Bool) : (n i : Nat) → (Nat → S) → Nat → S
  | 0, _, c => c
  | n + 1, i, c => sorted lt n (i + 1) (sunk lt i c)

variable {S : Type} {lt : S → S → Bool}

theorem sunk_sorted (hl : StrictWeak lt) (i : Nat) : ∀ (j : Nat) (c : Nat → S), j ≤ i →
    (∀ a b, a < b → b ≤ i → a ≠ j → b ≠ j → lt (c b) (c a) = false) → (∀ b, j < b → b ≤ i → lt (c b) (c j) = false) →
    ∀ a b, a < b → b ≤ i → lt (sunk lt j c b) (sunk lt j c a) = false
  | 0, c, _, h1, h2, a, b, hab, hb => by
    show lt (c b) (c a) = false
    by_cases ha : a = 0
    · subst ha; exact h2 b hab hb
    · exact h1 a b hab hb ha (by omega)
  | j + 1, c, hj, h1, h2, a, b, hab, hb => by
    unfold sunk
    split
    · next hlt =>
      have e1 : Equiv.swap (j + 1) j (j + 1) = j := Equiv.swap_apply_left _ _
      have e2 : Equiv.swap (j + 1) j j = j + 1 := Equiv.swap_apply_right _ _
      have e3 : ∀ z, z ≠ j + 1 → z ≠ j → Equiv.swap (j + 1) j z = z := fun z => Equiv.swap_apply_of_ne_of_ne
      refine sunk_sorted hl i j _ (by omega) (fun a b hab hb ha hbj => ?_) (fun b hbj hb => ?_) a b hab hb
      · by_cases hb1 : b = j + 1
        · subst hb1
          rw [e1, e3 a (by omega) ha]
          exact h1 a j (by omega) (by omega) (by omega) (by omega)
        · rw [e3 b hb1 hbj]
          by_cases ha1 : a = j + 1
          · subst ha1
            rw [e1]
            exact h1 j b (by omega) hb (by omega) hb1
          · rw [e3 a ha1 ha]
            exact h1 a b hab hb ha1 hb1
      · rw [e2]
        by_cases hb1 : b = j + 1
        · subst hb1
          rw [e1]
          exact hl.asymm _ _ hlt
        · rw [e3 b hb1 (by omega)]
          exact h2 b (by omega) hb
    · next hlt =>
      have hle : lt (c (j + 1)) (c j) = false := by simpa using hlt
      by_cases hb1 : b = j + 1
      · subst hb1
        by_cases haj : a = j
        · subst haj; exact hle
        · exact hl.negTrans _ _ _ hle (h1 a j (by omega) (by omega) (by omega) (by omega))
      · by_cases ha1 : a = j + 1
        · subst ha1; exact h2 b hab hb
        · exact h1 a b hab hb ha1 hb1

theorem sorted_sorted (hl : StrictWeak lt) : ∀ (n i : Nat) (c : Nat → S), (∀ a b, a < b → b < i → lt (c b) (c a) = false) →
    ∀ a b, a < b → b < i + n → lt (sorted lt n i c b) (sorted lt n i c a) = false
  | 0, _, _, h, a, b, hab, hb => h a b hab hb
  | n + 1, i, c, h, a, b, hab, hb => by
    refine sorted_sorted hl n (i + 1) _ (fun a b hab hb => ?_) a b hab (by omega)
    exact sunk_sorted hl i i c (by omega) (fun a b hab hb ha hbi => h a b hab (by omega)) (fun b _ _ => by omega) a b hab (by omega)

/-- The program ends normally with these variables. -/
def Finishes (ops : Nat → Ops V G) (lim : Re.Limits) (p : Prog V G Unit) (v v' : Nat → Option (Option V)) : Prop :=
  ∀ g tr, ∃ g' tr', specProg ops lim [] p ⟨v, g, tr⟩ = (.ok (), ⟨v', g', tr'⟩)

/-- The elements `c` are in the variables below `n`. -/
def Laid (n : Nat) (v : Nat → Option (Option V)) (c : Nat → Option V) : Prop := ∀ z < n, v z = some (c z)

variable {ops : Nat → Ops V G} {lim : Re.Limits} {n : Nat}

theorem ends_sink (ho : ∀ x, x < n → Exchanges (ops x) D) (r : V → V → Bool) {k : Prog V G Unit} : ∀ (j : Nat), j < n →
    ∀ (v : Nat → Option (Option V)) (c : Nat → Option V), Laid n v c → Inside (· < n) D v →
    ∃ v1, Laid n v1 (sunk (optLt r) j c) ∧ Inside (· < n) D v1 ∧ ∀ v', Finishes ops lim k v1 v' → Finishes ops lim (sink r j k) v v'
  | 0, _, v, _, hc, hD => ⟨v, hc, hD, fun _ h => h⟩
  | j + 1, hj, v, c, hc, hD => by
    have h1 := hc (j + 1) hj
    have h2 := hc j (by omega)
    have hcmp : ∀ g tr, Re.compare (.rel .lt) (j + 1) j (fun a b => SM.pure (r a b)) ⟨v, g, tr⟩ =
        (.ok (optLt r (c (j + 1)) (c j)), (⟨v, g, tr⟩ : SWorld V G)) := fun g tr => by
      cases e1 : c (j + 1) <;> cases e2 : c j <;>
        simp [Re.compare, Spec.get, Bind.bind, SM.bind, SM.pure, h1, h2, e1, e2, Comparison.answer, stdRel, optLt]
    unfold sunk
    split
    · next hlt =>
      have hp : PermOn (· < n) v fun z => v (Equiv.swap (j + 1) j z) := .swap v hj (by omega)
      obtain ⟨v1, l1, d1, k1⟩ := ends_sink ho r (k := k) j (by omega) (fun z => v (Equiv.swap (j + 1) j z)) (fun z => c (Equiv.swap (j + 1) j z))
        (fun z hz => hc _ (PermOn.inside (A := (· < n)) (fun x hx => Equiv.swap_apply_of_ne_of_ne (by omega) (by omega)) hz)) (hD.perm hp)
      refine ⟨v1, l1, d1, fun v' hv' g tr => ?_⟩
      obtain ⟨g1, tr1, hs, _⟩ := swap_run (A := (· < n)) (ho (j + 1) hj) hj (show j < n by omega) ⟨v, g, tr⟩ hD h1 h2
      obtain ⟨g2, tr2, h3⟩ := k1 v' hv' g1 tr1
      refine ⟨g2, tr2, ?_⟩
      rw [← h3]
      simp only [sink, specProg]
      simp [Bind.bind, SM.bind, SM.pure, Re.require, hcmp, hlt, specProg, Re.attempt, Re.never, specOp, hs]
    · next hlt =>
      refine ⟨v, hc, hD, fun v' hv' g tr => ?_⟩
      obtain ⟨g2, tr2, h3⟩ := hv' g tr
      refine ⟨g2, tr2, ?_⟩
      rw [← h3]
      simp only [sink, specProg]
      simp [Bind.bind, SM.bind, SM.pure, Re.require, Re.attempt, hcmp, hlt]

theorem ends_sort (ho : ∀ x, x < n → Exchanges (ops x) D) (r : V → V → Bool) : ∀ (m i : Nat), i + m = n →
    ∀ (v : Nat → Option (Option V)) (c : Nat → Option V), Laid n v c → Inside (· < n) D v →
    ∃ v', Laid n v' (sorted (optLt r) m i c) ∧ Finishes ops lim (insertionSort r m i) v v'
  | 0, _, _, v, _, hc, _ => ⟨v, hc, fun g tr => ⟨g, tr, rfl⟩⟩
  | m + 1, i, hi, v, c, hc, hD => by
    obtain ⟨v1, l1, d1, k1⟩ := ends_sink (lim := lim) ho r (k := insertionSort r m (i + 1)) i (by omega) v c hc hD
    obtain ⟨v', l', e'⟩ := ends_sort ho r m (i + 1) (by omega) v1 _ l1 d1
    exact ⟨v', l', k1 v' e'⟩

theorem sink_inPlace {r : V → V → Bool} {k : Prog V G Unit} (hk : k.InPlace (· < n)) : ∀ j, j < n → (sink r j k).InPlace (· < n)
  | 0, _ => hk
  | j + 1, hj => by
    refine ⟨fun _ _ => trivial, fun q => ?_⟩
    rcases q with e | (_ | _)
    · exact trivial
    · exact hk
    · refine ⟨hj, (show j < n by omega), fun q => ?_⟩
      cases q with
      | ok _ => exact sink_inPlace hk j (by omega)
      | error e => exact trivial

theorem sort_inPlace {r : V → V → Bool} : ∀ (m i : Nat), i + m = n → (insertionSort r m i : Prog V G Unit).InPlace (· < n)
  | 0, _, _ => trivial
  | m + 1, i, h => sink_inPlace (sort_inPlace m (i + 1) (by omega)) i (by omega)

end Verif.Spec
