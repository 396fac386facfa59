import Verif.Model.Bits
import Verif.Spec.Reserved
import Verif.Spec.IEEE754
import Verif.Lemmas.Basic

/-! Helper lemmas about bit patterns and their bytes. -/

namespace Verif.Model
open Verif.Spec

variable {W : Nat}

@[simp] theorem bytesLE_length (n : Nat) (v : BitVec W) : (bytesLE n v).length = n := by simp [bytesLE]

theorem bytesLE_get (n : Nat) (v : BitVec W) (i : Nat) (h : i < (bytesLE n v).length) :
    (bytesLE n v)[i] = v.extractLsb' (8 * i) 8 := by simp [bytesLE]

/-- A pattern is determined by its bytes. -/
theorem eq_of_bytes {n : Nat} (hW : W ≤ 8 * n) {v u : BitVec W}
    (h : ∀ i, i < n → v.extractLsb' (8 * i) 8 = u.extractLsb' (8 * i) 8) : v = u := by
  apply BitVec.eq_of_getLsbD_eq
  intro i hi
  have hb := congrArg (fun b => b.getLsbD (i % 8)) (h (i / 8) (by omega))
  simp only [BitVec.getLsbD_extractLsb', Nat.div_add_mod] at hb
  have : i % 8 < 8 := Nat.mod_lt _ (by omega)
  simpa [this] using hb

theorem patternCfg_reserved {n : Nat} (hW : W ≤ 8 * n) (s v : BitVec W) (nd : Bool) :
    (patternCfg n s nd).Reserved v ↔ v = s := by
  constructor
  · intro h
    apply eq_of_bytes hW
    intro i hi
    have := h i (by simpa using hi)
    simp only [patternCfg, Config.loc, reprLE, Nat.zero_add, if_pos hi, bytesLE_get] at this
    exact Option.some.inj this
  · rintro rfl
    intro i hi
    have hi' : i < n := by simpa using hi
    simp only [patternCfg, Config.loc, reprLE, Nat.zero_add, if_pos hi', bytesLE_get]

theorem patternCfg_storable {n : Nat} (hW : W ≤ 8 * n) (s v : BitVec W) (nd : Bool) :
    (patternCfg n s nd).Storable v ↔ v ≠ s := by
  constructor
  · rintro ⟨_, i, hi, h⟩ rfl
    have hi' : i < n := by simpa using hi
    simp only [patternCfg, Config.loc, reprLE, Nat.zero_add, if_pos hi', bytesLE_get] at h
    exact h rfl
  · intro h
    refine ⟨fun i hi => ?_, ?_⟩
    · have hi' : i < n := by simpa using hi
      exact ⟨v.extractLsb' (8 * i) 8, by simp only [patternCfg, Config.loc, reprLE, Nat.zero_add, if_pos hi']⟩
    · apply Classical.byContradiction
      intro hn
      apply h
      apply eq_of_bytes hW
      intro i hi
      apply Classical.byContradiction
      intro hne
      refine hn ⟨i, by simpa using hi, ?_⟩
      simp only [patternCfg, Config.loc, reprLE, Nat.zero_add, if_pos hi, bytesLE_get]
      exact fun hc => hne (Option.some.inj hc)

theorem patternCfg_wf (n : Nat) (s : BitVec W) (nd : Bool) : (patternCfg n s nd).WF where
  fits := .inr ⟨by simp [patternCfg], by simp [patternCfg]⟩
  inside := by simp [patternCfg, Config.loc]
  bytes := by simp [patternCfg, Config.loc]
  sentinelFits := by intro sent h; simp [patternCfg] at h; simp [patternCfg, Config.loc, ← h]
  assignRefl := by simp [patternCfg]
  customRefl := by simp [patternCfg]

/-- `is_empty` on memory holding an arbitrary bit pattern. -/
theorem patternCfg_isEmpty {n : Nat} (hW : W ≤ 8 * n) (s v : BitVec W) (nd : Bool) {st : Storage (BitVec W)}
    (hb : ∀ i, i < n → st.bytes i = reprLE n v i) : (patternCfg n s nd).isEmpty st = .ok (v == s) := by
  show (if 0 + (bytesLE n s).length ≤ n then memcmpEq st.bytes 0 (bytesLE n s) else _) = _
  rw [if_pos (by simp)]
  obtain ⟨r, hr, hiff⟩ := memcmpEq_of_determinate st.bytes (bytesLE n s) 0 (by
    intro i hi
    have hi' : i < n := by simpa using hi
    rw [Nat.zero_add, hb i hi']
    exact ⟨v.extractLsb' (8 * i) 8, by simp [reprLE, hi']⟩)
  rw [hr]
  congr 1
  rw [Bool.eq_iff_iff, hiff, beq_iff_eq, ← patternCfg_reserved hW s v nd]
  constructor
  · intro h i hi
    have hi' : i < n := by simpa using hi
    have := h i hi
    rw [Nat.zero_add, hb i hi'] at this
    simpa only [patternCfg, Config.loc, Nat.zero_add] using this
  · intro h i hi
    have hi' : i < n := by simpa using hi
    rw [Nat.zero_add, hb i hi']
    simpa only [patternCfg, Config.loc, Nat.zero_add] using h i hi

/-! ### NaN payloads -/

theorem payload_quiet (f : Fmt) (v : BitVec W) : f.payload (f.quiet v) = f.payload v := by
  apply BitVec.eq_of_getLsbD_eq
  intro i hi
  simp only [Fmt.payload, Fmt.quiet, BitVec.getLsbD_extractLsb', Nat.zero_add, BitVec.getLsbD_or, BitVec.getLsbD_twoPow]
  have : ¬ f.m - 1 = i := by omega
  simp [this]

theorem exponent_quiet (f : Fmt) (v : BitVec W) (hm : 0 < f.m) : f.exponent (f.quiet v) = f.exponent v := by
  apply BitVec.eq_of_getLsbD_eq
  intro i hi
  simp only [Fmt.exponent, Fmt.quiet, BitVec.getLsbD_extractLsb', BitVec.getLsbD_or, BitVec.getLsbD_twoPow]
  have : ¬ f.m - 1 = f.m + i := by omega
  simp [this]

theorem payload_of_agree (f : Fmt) {a r : BitVec W} (h : ∀ i, i < f.e + f.m → r.getLsbD i = a.getLsbD i) :
    f.payload r = f.payload a := by
  apply BitVec.eq_of_getLsbD_eq
  intro i hi
  simp only [Fmt.payload, BitVec.getLsbD_extractLsb', Nat.zero_add]
  rw [h i (by omega)]

theorem isNaN_of_agree (f : Fmt) {a r : BitVec W} (h : ∀ i, i < f.e + f.m → r.getLsbD i = a.getLsbD i) :
    f.IsNaN r ↔ f.IsNaN a := by
  have h1 : f.exponent r = f.exponent a := by
    apply BitVec.eq_of_getLsbD_eq
    intro i hi
    simp only [Fmt.exponent, BitVec.getLsbD_extractLsb']
    rw [h (f.m + i) (by omega)]
  have h2 : f.mantissa r = f.mantissa a := by
    apply BitVec.eq_of_getLsbD_eq
    intro i hi
    simp only [Fmt.mantissa, BitVec.getLsbD_extractLsb', Nat.zero_add]
    rw [h i (by omega)]
  simp only [Fmt.IsNaN, h1, h2]

end Verif.Model
