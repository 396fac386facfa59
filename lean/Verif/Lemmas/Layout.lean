import Verif.Spec.Layout

namespace Verif.Spec

theorem alignUp_ge {n a : Nat} (ha : 0 < a) : n ≤ alignUp n a := by
  unfold alignUp
  have h1 := Nat.div_add_mod (n + a - 1) a
  have h2 := Nat.mod_lt (n + a - 1) ha
  rw [Nat.mul_comm] at h1
  omega

theorem alignUp_lt {n a : Nat} (ha : 0 < a) : alignUp n a < n + a := by
  unfold alignUp
  have h1 := Nat.div_add_mod (n + a - 1) a
  rw [Nat.mul_comm] at h1
  omega

theorem alignUp_dvd (n a : Nat) : a ∣ alignUp n a := ⟨(n + a - 1) / a, by simp [alignUp, Nat.mul_comm]⟩

/-- Minimality. -/
theorem alignUp_le {n a m : Nat} (ha : 0 < a) (hm : a ∣ m) (hn : n ≤ m) : alignUp n a ≤ m := by
  obtain ⟨k, rfl⟩ := hm
  obtain ⟨q, hq⟩ := alignUp_dvd n a
  have h := alignUp_lt (n := n) ha
  rw [hq] at h ⊢
  have : q ≤ k := by
    apply Nat.le_of_not_lt
    intro hlt
    have : a * (k + 1) ≤ a * q := Nat.mul_le_mul_left a hlt
    rw [Nat.mul_succ] at this
    omega
  exact Nat.mul_le_mul_left a this

theorem alignUp_of_dvd {n a : Nat} (ha : 0 < a) (h : a ∣ n) : alignUp n a = n :=
  Nat.le_antisymm (alignUp_le ha h (Nat.le_refl n)) (alignUp_ge ha)

theorem alignUp_one (n : Nat) : alignUp n 1 = n := alignUp_of_dvd (by decide) (Nat.one_dvd n)

variable {es : List Extent}

theorem offsetsFrom_length (free : Nat) (es : List Extent) : (offsetsFrom free es).length = es.length := by
  induction es generalizing free with
  | nil => rfl
  | cons e es ih => simp [offsetsFrom, ih]

theorem offsetsFrom_ge {free k off : Nat} (hes : ∀ e ∈ es, 0 < e.align) (h : (offsetsFrom free es)[k]? = some off) :
    free ≤ off := by
  induction es generalizing free k with
  | nil => simp [offsetsFrom] at h
  | cons e es ih =>
    have ha := alignUp_ge (n := free) (hes e (by simp))
    cases k with
    | zero => simp [offsetsFrom] at h; omega
    | succ k =>
      simp [offsetsFrom] at h
      have := ih (fun e he => hes e (by simp [he])) h
      omega

theorem endFrom_ge {free : Nat} (hes : ∀ e ∈ es, 0 < e.align) : free ≤ endFrom free es := by
  induction es generalizing free with
  | nil => exact Nat.le_refl _
  | cons e es ih =>
    have ha := alignUp_ge (n := free) (hes e (by simp))
    have := ih (free := alignUp free e.align + e.size) (fun e he => hes e (by simp [he]))
    simp only [endFrom]
    omega

theorem offsetsFrom_end {free k off : Nat} {e : Extent} (hes : ∀ e ∈ es, 0 < e.align)
    (h : (offsetsFrom free es)[k]? = some off) (he : es[k]? = some e) : off + e.size ≤ endFrom free es := by
  induction es generalizing free k with
  | nil => simp [offsetsFrom] at h
  | cons e' es ih =>
    have hes' : ∀ e ∈ es, 0 < e.align := fun e he => hes e (by simp [he])
    cases k with
    | zero =>
      simp [offsetsFrom] at h he
      subst h he
      exact endFrom_ge hes'
    | succ k =>
      simp [offsetsFrom] at h he
      exact ih hes' h he

/-- Members at different positions do not overlap, and are placed in order. -/
theorem offsetsFrom_lt {free j k off off' : Nat} {e : Extent} (hes : ∀ e ∈ es, 0 < e.align)
    (hj : (offsetsFrom free es)[j]? = some off) (he : es[j]? = some e)
    (hk : (offsetsFrom free es)[k]? = some off') (hjk : j < k) : off + e.size ≤ off' := by
  induction es generalizing free j k with
  | nil => simp [offsetsFrom] at hj
  | cons e' es ih =>
    have hes' : ∀ e ∈ es, 0 < e.align := fun e he => hes e (by simp [he])
    cases k with
    | zero => omega
    | succ k =>
      cases j with
      | zero =>
        simp [offsetsFrom] at hj he hk
        subst hj he
        exact offsetsFrom_ge hes' hk
      | succ j =>
        simp [offsetsFrom] at hj he hk
        exact ih hes' hj he hk (by omega)

theorem offsetsFrom_dvd {free k off : Nat} {e : Extent} (h : (offsetsFrom free es)[k]? = some off)
    (he : es[k]? = some e) : e.align ∣ off := by
  induction es generalizing free k with
  | nil => simp [offsetsFrom] at h
  | cons e' es ih =>
    cases k with
    | zero =>
      simp [offsetsFrom] at h he
      subst h he
      exact alignUp_dvd _ _
    | succ k =>
      simp [offsetsFrom] at h he
      exact ih h he

theorem offsetOf_some {k : Nat} (hk : k < es.length) : (offsetsFrom 0 es)[k]? = some (offsetOf es k) := by
  unfold offsetOf
  have : k < (offsetsFrom 0 es).length := by rw [offsetsFrom_length]; exact hk
  rw [List.getElem?_eq_getElem this]
  rfl

theorem classAlign_pos (es : List Extent) : 0 < classAlign es := by
  induction es with
  | nil => decide
  | cons e es ih => simp only [classAlign, List.foldr_cons] at *; omega

theorem classExtent_ok (es : List Extent) : (classExtent es).OK where
  size_pos := by
    have := alignUp_ge (n := max 1 (endFrom 0 es)) (classAlign_pos es)
    show 0 < alignUp _ _
    omega
  align_pos := classAlign_pos es
  mult := alignUp_dvd _ _

/-- Every member lies inside the class. -/
theorem offsetOf_inside {k : Nat} {e : Extent} (hes : ∀ e ∈ es, 0 < e.align) (he : es[k]? = some e) :
    offsetOf es k + e.size ≤ (classExtent es).size := by
  have hk : k < es.length := (List.getElem?_eq_some_iff.mp he).1
  have h1 := offsetsFrom_end hes (offsetOf_some hk) he
  have h2 := alignUp_ge (n := max 1 (endFrom 0 es)) (classAlign_pos es)
  show _ ≤ alignUp _ _
  omega

/-- Two different members are disjoint. -/
theorem offsetOf_disjoint {j k : Nat} {e e' : Extent} (hes : ∀ e ∈ es, 0 < e.align) (hj : es[j]? = some e)
    (hk : es[k]? = some e') (hne : j ≠ k) :
    offsetOf es j + e.size ≤ offsetOf es k ∨ offsetOf es k + e'.size ≤ offsetOf es j := by
  have hj' := (List.getElem?_eq_some_iff.mp hj).1
  have hk' := (List.getElem?_eq_some_iff.mp hk).1
  rcases Nat.lt_or_gt_of_ne hne with h | h
  · exact .inl (offsetsFrom_lt hes (offsetOf_some hj') hj (offsetOf_some hk') h)
  · exact .inr (offsetsFrom_lt hes (offsetOf_some hk') hk (offsetOf_some hj') h)

theorem classReprFrom_member {ms : List (Extent × (Nat → Option (BitVec 8)))} {free k off i : Nat} {e : Extent}
    {r : Nat → Option (BitVec 8)} (hes : ∀ m ∈ ms, 0 < m.1.align)
    (h : (offsetsFrom free (ms.map (·.1)))[k]? = some off) (hm : ms[k]? = some (e, r)) (hi : i < e.size) :
    classReprFrom free ms (off + i) = r i := by
  induction ms generalizing free k with
  | nil => simp at hm
  | cons m ms ih =>
    obtain ⟨e', r'⟩ := m
    have hes' : ∀ m ∈ ms, 0 < m.1.align := fun e he => hes e (by simp [he])
    cases k with
    | zero =>
      simp [offsetsFrom] at h hm
      obtain ⟨rfl, rfl⟩ := hm
      subst h
      simp only [classReprFrom]
      rw [if_pos ⟨by omega, by omega⟩]
      congr 1
      omega
    | succ k =>
      simp [offsetsFrom] at h hm
      have hge := offsetsFrom_ge (es := ms.map (·.1))
        (fun e he => by
          obtain ⟨m, hm, rfl⟩ := List.mem_map.mp he
          exact hes' m hm) h
      simp only [classReprFrom]
      rw [if_neg (by omega)]
      exact ih hes' h hm

theorem classRepr_member {ms : List (Extent × (Nat → Option (BitVec 8)))} {k i : Nat} {e : Extent}
    {r : Nat → Option (BitVec 8)} (hes : ∀ m ∈ ms, 0 < m.1.align) (hm : ms[k]? = some (e, r)) (hi : i < e.size) :
    classRepr ms (offsetOf (ms.map (·.1)) k + i) = r i := by
  have hk := (List.getElem?_eq_some_iff.mp hm).1
  exact classReprFrom_member hes (offsetOf_some (by simpa using hk)) hm hi

end Verif.Spec
