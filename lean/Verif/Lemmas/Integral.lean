import Verif.Model.Integral

/-! Helper lemmas: conversions between integer types that preserve values. -/

namespace Verif.Model
open Verif.Spec

variable {dm : DataModel}

theorem pow_pos' (n : Nat) : (0 : Int) < 2 ^ n := Int.pow_pos (by decide)

theorem pow_mono {m n : Nat} (h : m ≤ n) : (2 : Int) ^ m ≤ 2 ^ n := by
  have := Nat.pow_le_pow_right (n := 2) (by decide) h
  exact_mod_cast this

theorem pow_half (t : IntTy) : (2 : Int) ^ dm.bits t.rank = 2 * 2 ^ (dm.bits t.rank - 1) := by
  have hb := dm.pos t.rank
  rw [← Int.pow_succ']; congr 1; omega

/-- Casting a value that the type already has changes nothing. -/
theorem cast_id {t : IntTy} {v : Int} (h : t.Has dm v) : t.cast dm v = v := by
  obtain ⟨h1, h2⟩ := h
  unfold IntTy.cast
  unfold IntTy.min at h1
  unfold IntTy.max at h2
  have hp := pow_half (dm := dm) t
  cases hs : t.signed <;> simp only [hs, if_true, if_false, Bool.false_eq_true] at h1 h2 ⊢
  · exact Int.emod_eq_of_lt h1 (by omega)
  · rw [Int.emod_eq_of_lt (by omega) (by omega)]; omega

/-- A cast yields a value of the type. -/
theorem cast_has (t : IntTy) (v : Int) : t.Has dm (t.cast dm v) := by
  have hp := pow_half (dm := dm) t
  have hpos := pow_pos' (dm.bits t.rank)
  unfold IntTy.Has IntTy.cast IntTy.min IntTy.max
  cases hs : t.signed <;> simp only [if_true, if_false, Bool.false_eq_true]
  · have h1 := Int.emod_nonneg v (b := 2 ^ dm.bits t.rank) (by omega)
    have h2 := Int.emod_lt_of_pos v hpos
    omega
  · have h1 := Int.emod_nonneg (v + 2 ^ (dm.bits t.rank - 1)) (b := 2 ^ dm.bits t.rank) (by omega)
    have h2 := Int.emod_lt_of_pos (v + 2 ^ (dm.bits t.rank - 1)) hpos
    omega

theorem cast_eq_iff {t : IntTy} {v : Int} : t.cast dm v = v ↔ t.Has dm v :=
  ⟨fun h => h ▸ cast_has t v, cast_id⟩

theorem hasS {t : IntTy} (h : t.signed = true) (v : Int) :
    t.Has dm v ↔ -2 ^ (dm.bits t.rank - 1) ≤ v ∧ v ≤ 2 ^ (dm.bits t.rank - 1) - 1 := by
  simp [IntTy.Has, IntTy.min, IntTy.max, h]

theorem hasU {t : IntTy} (h : t.signed = false) (v : Int) : t.Has dm v ↔ 0 ≤ v ∧ v ≤ 2 ^ dm.bits t.rank - 1 := by
  simp [IntTy.Has, IntTy.min, IntTy.max, h]

theorem has_min (t : IntTy) : t.Has dm (t.min dm) := by
  have := pow_pos' (dm.bits t.rank - 1)
  have := pow_pos' (dm.bits t.rank)
  cases hs : t.signed
  · rw [hasU hs]; simp only [IntTy.min, hs, Bool.false_eq_true, if_false]; omega
  · rw [hasS hs]; simp only [IntTy.min, hs, if_true]; omega

theorem has_max (t : IntTy) : t.Has dm (t.max dm) := by
  have := pow_pos' (dm.bits t.rank - 1)
  have := pow_pos' (dm.bits t.rank)
  cases hs : t.signed
  · rw [hasU hs]; simp only [IntTy.max, hs, Bool.false_eq_true, if_false]; omega
  · rw [hasS hs]; simp only [IntTy.max, hs, if_true]; omega

/-- Same signedness and not narrower. -/
theorem has_mono {a b : IntTy} (hs : a.signed = b.signed) (hr : dm.bits a.rank ≤ dm.bits b.rank) {v : Int} (h : a.Has dm v) :
    b.Has dm v := by
  have h1 := pow_mono hr
  have h2 := pow_mono (show dm.bits a.rank - 1 ≤ dm.bits b.rank - 1 by omega)
  cases hb : b.signed
  · rw [hasU (hs.trans hb)] at h; rw [hasU hb]; omega
  · rw [hasS (hs.trans hb)] at h; rw [hasS hb]; omega

theorem promote_signed {t : IntTy} (h : t.signed = true) : (t.promote dm).signed = true := by
  unfold IntTy.promote
  by_cases hr : t.rank < dm.intRank
  · have hm := dm.mono _ _ (Nat.le_of_lt hr)
    have h2 := pow_mono (show dm.bits t.rank - 1 ≤ dm.bits dm.intRank - 1 by omega)
    rw [if_pos hr, if_pos]
    · rfl
    · simp only [IntTy.min, IntTy.max, IntTy.int, h, if_true]; omega
  · rw [if_neg hr]; exact h

theorem promote_rank (t : IntTy) : dm.intRank ≤ (t.promote dm).rank := by
  unfold IntTy.promote
  split
  · split <;> exact Nat.le_refl _
  · omega

theorem promote_has {t : IntTy} {v : Int} (h : t.Has dm v) : (t.promote dm).Has dm v := by
  unfold IntTy.promote
  split
  · rename_i hr
    split
    · rename_i hi
      exact ⟨Int.le_trans hi.1 h.1, Int.le_trans h.2 hi.2⟩
    · rename_i hi
      have hm := dm.mono _ _ (Nat.le_of_lt hr)
      cases hs : t.signed
      · exact has_mono (b := IntTy.uint dm) hs hm h
      · have h2 := pow_mono (show dm.bits t.rank - 1 ≤ dm.bits dm.intRank - 1 by omega)
        exfalso; apply hi
        simp only [IntTy.min, IntTy.max, IntTy.int, hs, if_true]; omega
  · exact h

/-- A promoted unsigned type that became signed is `int`. -/
theorem promote_unsigned_int {t : IntTy} (h : t.signed = false) (hp : (t.promote dm).signed = true) :
    t.promote dm = IntTy.int dm := by
  unfold IntTy.promote at hp ⊢
  split at hp
  · split at hp
    · rename_i h1 h2; rw [if_pos h1, if_pos h2]
    · simp [IntTy.uint] at hp
  · rw [h] at hp; simp at hp

theorem arithConv_same {a b : IntTy} (hs : a.signed = b.signed) {v : Int} :
    (a.Has dm v → (arithConv dm a b).Has dm v) ∧ (b.Has dm v → (arithConv dm a b).Has dm v) := by
  unfold arithConv
  split
  · rename_i h; subst h; exact ⟨id, id⟩
  · split
    · rename_i h; exact ⟨has_mono hs (dm.mono _ _ (Nat.le_of_lt h)), id⟩
    · rename_i h; exact ⟨id, has_mono hs.symm (dm.mono _ _ (by omega))⟩

/-- The common type of two types of equal signedness has all values of both. -/
theorem commonType_has {a b : IntTy} (hs : a.signed = b.signed) {v : Int} :
    (a.Has dm v → (commonType dm a b).Has dm v) ∧ (b.Has dm v → (commonType dm a b).Has dm v) := by
  unfold commonType
  split
  · rename_i h; subst h; exact ⟨id, id⟩
  · by_cases hp : (a.promote dm).signed = (b.promote dm).signed
    · exact ⟨fun h => (arithConv_same hp).1 (promote_has h), fun h => (arithConv_same hp).2 (promote_has h)⟩
    · -- both unsigned, exactly one of them was promoted to `int`
      have hu : a.signed = false ∧ b.signed = false := by
        cases ha : a.signed
        · exact ⟨rfl, hs ▸ ha⟩
        · rw [promote_signed ha, promote_signed (hs ▸ ha)] at hp; exact absurd rfl hp
      obtain ⟨ha, hb⟩ := hu
      have nn : (a.Has dm v → 0 ≤ v) ∧ (b.Has dm v → 0 ≤ v) :=
        ⟨fun h => ((hasU ha v).1 h).1, fun h => ((hasU hb v).1 h).1⟩
      -- a nonnegative `int` is a value of every unsigned type of at least the rank of `int`
      have key : ∀ u : IntTy, u.signed = false → dm.intRank ≤ u.rank → 0 ≤ v → (IntTy.int dm).Has dm v → u.Has dm v := by
        intro u hus hur h0 h
        rw [hasS rfl] at h
        rw [hasU hus]
        have h1 := pow_mono (dm.mono _ _ hur)
        have h2 := pow_mono (show dm.bits (IntTy.int dm).rank - 1 ≤ dm.bits (IntTy.int dm).rank by omega)
        simp only [IntTy.int] at h h2
        omega
      cases hpa : (a.promote dm).signed
      · have hpb : (b.promote dm).signed = true := by
          cases h : (b.promote dm).signed
          · rw [hpa, h] at hp; exact absurd rfl hp
          · rfl
        have hbi := promote_unsigned_int hb hpb
        have hres : arithConv dm (a.promote dm) (b.promote dm) = a.promote dm := by
          unfold arithConv
          rw [if_neg (fun h => hp (by rw [h])), if_neg hp]
          simp only [hpa, Bool.false_eq_true, if_false]
          rw [hbi]; exact if_pos (promote_rank a)
        rw [hres]
        refine ⟨promote_has, fun h => key _ hpa (promote_rank a) (nn.2 h) ?_⟩
        rw [← hbi]; exact promote_has h
      · have hpb : (b.promote dm).signed = false := by
          cases h : (b.promote dm).signed
          · rfl
          · rw [hpa, h] at hp; exact absurd rfl hp
        have hai := promote_unsigned_int ha hpa
        have hres : arithConv dm (a.promote dm) (b.promote dm) = b.promote dm := by
          unfold arithConv
          rw [if_neg (fun h => hp (by rw [h])), if_neg hp]
          simp only [hpa, if_true]
          rw [hai]; exact if_pos (promote_rank b)
        rw [hres]
        refine ⟨fun h => key _ hpb (promote_rank b) (nn.1 h) ?_, promote_has⟩
        rw [← hai]; exact promote_has h

theorem inRangeSameSign_iff {t s : IntTy} (hs : t.signed = s.signed) {v : Int} (hv : s.Has dm v) :
    inRangeSameSign dm t s v = true ↔ t.Has dm v := by
  have h1 := cast_id ((commonType_has (dm := dm) hs).1 (has_min t))
  have h2 := cast_id ((commonType_has (dm := dm) hs).1 (has_max t))
  have h3 := cast_id ((commonType_has (dm := dm) hs).2 hv)
  simp only [inRangeSameSign, h1, h2, h3, Bool.and_eq_true, decide_eq_true_eq]
  rfl

theorem makeUnsigned_signed (t : IntTy) : t.makeUnsigned.signed = false := by
  unfold IntTy.makeUnsigned
  cases h : t.signed <;> simp [h]

theorem makeUnsigned_rank (t : IntTy) : t.makeUnsigned.rank = t.rank := by
  unfold IntTy.makeUnsigned
  cases h : t.signed <;> simp

theorem makeUnsigned_has {t : IntTy} (ht : t.signed = true) {v : Int} (h0 : 0 ≤ v) (h : t.Has dm v) : t.makeUnsigned.Has dm v := by
  rw [hasS ht] at h
  rw [hasU (makeUnsigned_signed t), makeUnsigned_rank]
  have := pow_mono (show dm.bits t.rank - 1 ≤ dm.bits t.rank by omega)
  omega

theorem isIntegralInRange_iff {t s : IntTy} {v : Int} (hv : s.Has dm v) : isIntegralInRange dm t s v = true ↔ t.Has dm v := by
  unfold isIntegralInRange
  split
  · rename_i h; exact inRangeSameSign_iff h hv
  · rename_i hne
    split
    · rename_i hs
      have ht : t.signed = false := by
        cases h : t.signed
        · rfl
        · rw [h, hs] at hne; exact absurd rfl hne
      simp only [Bool.and_eq_true, decide_eq_true_eq, ge_iff_le]
      constructor
      · rintro ⟨h0, h⟩
        have hu := makeUnsigned_has hs h0 hv
        rw [cast_id hu] at h
        exact (inRangeSameSign_iff (ht.trans (makeUnsigned_signed s).symm) hu).1 h
      · intro h
        have h0 := ((hasU ht v).1 h).1
        have hu := makeUnsigned_has hs h0 hv
        refine ⟨h0, ?_⟩
        rw [cast_id hu]
        exact (inRangeSameSign_iff (ht.trans (makeUnsigned_signed s).symm) hu).2 h
    · rename_i hs
      have hs : s.signed = false := by simpa using hs
      have ht : t.signed = true := by
        cases h : t.signed
        · rw [h, hs] at hne; exact absurd rfl hne
        · rfl
      have hsu : s.signed = t.makeUnsigned.signed := hs.trans (makeUnsigned_signed t).symm
      have h0 : 0 ≤ t.max dm := by
        have := pow_pos' (dm.bits t.rank - 1)
        simp only [IntTy.max, ht, if_true]; omega
      have h1 := cast_id ((commonType_has (dm := dm) hsu).1 hv)
      have h2 := cast_id ((commonType_has (dm := dm) hsu).2 (makeUnsigned_has ht h0 (has_max t)))
      simp only [h1, h2, decide_eq_true_eq]
      have hv0 := ((hasU hs v).1 hv).1
      refine ⟨fun h => ⟨?_, h⟩, fun h => h.2⟩
      have := pow_pos' (dm.bits t.rank - 1)
      simp only [IntTy.min, ht, if_true]; omega

theorem emod_sub_add_emod (v p m : Int) : ((v + p) % m - p) % m = v % m := by
  rw [Int.sub_emod, Int.emod_emod, ← Int.sub_emod]
  congr 1; omega

theorem cast_emod (t : IntTy) (v : Int) : t.cast dm v % 2 ^ dm.bits t.rank = v % 2 ^ dm.bits t.rank := by
  unfold IntTy.cast
  split
  · exact emod_sub_add_emod _ _ _
  · exact Int.emod_emod _ _

/-- Two numbers become the same value of `t` iff they are congruent. -/
theorem cast_eq_cast {t : IntTy} {v u : Int} :
    t.cast dm v = t.cast dm u ↔ v % 2 ^ dm.bits t.rank = u % 2 ^ dm.bits t.rank := by
  constructor
  · intro h
    rw [← cast_emod (dm := dm) t v, h, cast_emod]
  · intro h
    unfold IntTy.cast
    split
    · rw [Int.add_emod v, h, ← Int.add_emod]
    · exact h

theorem emod_of_emod_pow {a b : Int} {m n : Nat} (hmn : m ≤ n) (h : a % 2 ^ n = b % 2 ^ n) : a % 2 ^ m = b % 2 ^ m := by
  have hd : (2 : Int) ^ m ∣ 2 ^ n := by
    refine ⟨2 ^ (n - m), ?_⟩
    rw [← Int.pow_add]; congr 1; omega
  rw [← Int.emod_emod_of_dvd a hd, h, Int.emod_emod_of_dvd b hd]

theorem promote_rank_ge (t : IntTy) : t.rank ≤ (t.promote dm).rank := by
  unfold IntTy.promote
  split
  · split <;> exact Nat.le_of_lt ‹_›
  · exact Nat.le_refl _

theorem arithConv_rank (a b : IntTy) : a.rank ≤ (arithConv dm a b).rank ∧ b.rank ≤ (arithConv dm a b).rank := by
  unfold arithConv
  split
  · rename_i h; subst h; exact ⟨Nat.le_refl _, Nat.le_refl _⟩
  split
  · split <;> omega
  · dsimp only
    cases ha : a.signed <;> simp only [if_true, if_false, Bool.false_eq_true]
    all_goals
      split
      · constructor <;> omega
      · split
        · constructor <;> omega
        · rw [makeUnsigned_rank]; constructor <;> omega

theorem promote_rank_le {t : IntTy} {n : Nat} (h : t.rank ≤ n) (hi : dm.intRank ≤ n) : (t.promote dm).rank ≤ n := by
  unfold IntTy.promote
  split
  · split <;> exact hi
  · exact h

theorem arithConv_rank_le {a b : IntTy} {n : Nat} (ha : a.rank ≤ n) (hb : b.rank ≤ n) : (arithConv dm a b).rank ≤ n := by
  unfold arithConv
  split
  · exact ha
  split
  · split <;> assumption
  · dsimp only
    cases ha' : a.signed <;> simp only [if_true, if_false, Bool.false_eq_true]
    all_goals
      split
      · assumption
      · split
        · assumption
        · rw [makeUnsigned_rank]; assumption

end Verif.Model
