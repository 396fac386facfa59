import Verif.Props.Integral
import Verif.Examples

/-!
# C48: `sentinel_flag_manipulator` with integer constants
-/

namespace Verif.Props
open Verif Verif.Model Verif.Spec Verif.Examples

variable {dm : DataModel}

private theorem bits_le (t s : IntTy) :
    dm.bits t.rank ≤ dm.bits (arithConv dm (t.promote dm) (s.promote dm)).rank :=
  dm.mono _ _ (Nat.le_trans (promote_rank_ge t) (arithConv_rank _ _).1)

/-- C48, exactly. For every data model, payload type `t`, constant `v` of type `s` and value `p` of the payload type:
`is_empty` accepts at most the value that `init_empty_flag` creates; if it does not accept that one, it accepts none, so
that no state of the payload counts as empty. -/
theorem C48_exact (t s : IntTy) (v p : Int) (hp : t.Has dm p) :
    sentinelManipIsEmpty dm t s v p = true ↔
      p = sentinelManipInit dm t v ∧ sentinelManipIsEmpty dm t s v (sentinelManipInit dm t v) = true := by
  constructor
  · intro h
    have hc := cast_eq_cast.1 (beq_iff_eq.1 h)
    have he : p = sentinelManipInit dm t v := by
      have := (cast_eq_cast (dm := dm) (t := t)).2 (emod_of_emod_pow (bits_le t s) hc)
      rw [cast_id hp] at this
      exact this
    exact ⟨he, he ▸ h⟩
  · rintro ⟨rfl, h⟩
    exact h

/-- C48, partial: if the constant is a value of the payload type, it is what marks the empty state, and nothing else does.
Missing: constants that are not values of the payload type, which `sentinel_flag_manipulator` accepts as well; see
`C48_exact`, `C48_wide` and `C48_false`. -/
theorem C48_marks_partial (t s : IntTy) {v : Int} (hv : t.Has dm v) :
    sentinelManipInit dm t v = v ∧ ∀ p, t.Has dm p → (sentinelManipIsEmpty dm t s v p = true ↔ p = v) := by
  have h : sentinelManipInit dm t v = v := cast_id hv
  refine ⟨h, fun p hp => ?_⟩
  rw [C48_exact t s v p hp, h]
  exact ⟨fun h => h.1, fun h => ⟨h, beq_iff_eq.2 rfl⟩⟩

/-- C48. For a payload type that is at least as wide as `int` and as the type of the constant, every constant works (if it is
not representable, the congruent value is reserved, e.g. the maximum for `-1` and an unsigned type). -/
theorem C48_wide (t s : IntTy) (v : Int) (hs : s.rank ≤ t.rank) (hi : dm.intRank ≤ t.rank) (p : Int) (hp : t.Has dm p) :
    sentinelManipIsEmpty dm t s v p = true ↔ p = sentinelManipInit dm t v := by
  rw [C48_exact t s v p hp]
  refine ⟨fun h => h.1, fun h => ⟨h, ?_⟩⟩
  refine beq_iff_eq.2 (cast_eq_cast.2 (emod_of_emod_pow (dm.mono _ _ ?_) (cast_emod t v)))
  exact arithConv_rank_le (promote_rank_le (Nat.le_refl _) hi) (promote_rank_le hs hi)

/-- `sentinel_flag_manipulator<unsigned, -1>` reserves the largest `unsigned`; `sentinel_flag_manipulator<unsigned char, 255>`
reserves 255. -/
example : sentinelManipInit lp64 ⟨3, false, 0⟩ (-1) = 4294967295 ∧
    sentinelManipIsEmpty lp64 ⟨3, false, 0⟩ ⟨3, true, 0⟩ (-1) 4294967295 = true ∧
    (⟨1, false, 0⟩ : IntTy).Has lp64 255 ∧ sentinelManipIsEmpty lp64 ⟨1, false, 0⟩ ⟨3, true, 0⟩ 255 255 = true ∧
    sentinelManipIsEmpty lp64 ⟨1, false, 0⟩ ⟨3, true, 0⟩ 255 254 = false :=
  ⟨by decide, by decide, ⟨by decide, by decide⟩, by decide, by decide⟩

/-- The theorems for these. -/
example (p : Int) : ((⟨1, false, 0⟩ : IntTy).Has lp64 p → (sentinelManipIsEmpty lp64 ⟨1, false, 0⟩ ⟨3, true, 0⟩ 255 p = true ↔ p = 255)) ∧
    ((⟨3, false, 0⟩ : IntTy).Has lp64 p → (sentinelManipIsEmpty lp64 ⟨3, false, 0⟩ ⟨3, true, 0⟩ (-1) p = true ↔ p = 4294967295)) ∧
    ((⟨1, false, 0⟩ : IntTy).Has lp64 p → sentinelManipIsEmpty lp64 ⟨1, false, 0⟩ ⟨3, true, 0⟩ 511 p = false) :=
  ⟨(C48_marks_partial ⟨1, false, 0⟩ ⟨3, true, 0⟩ ⟨by decide, by decide⟩).2 p,
    fun h => C48_wide ⟨3, false, 0⟩ ⟨3, true, 0⟩ (-1) (by decide) (by decide) p h,
    fun h => Bool.eq_false_iff.2 fun he => absurd ((C48_exact ⟨1, false, 0⟩ ⟨3, true, 0⟩ 511 p h).1 he).2 (by decide)⟩

/-- C48 is false in general: with `sentinel_flag_manipulator<unsigned char, -1>` (where `-1` is an `int`) no value is
recognised as empty, not even the one created by `init_empty_flag`. -/
theorem C48_false : ∃ (dm : DataModel) (t s : IntTy) (v : Int), s.Has dm v ∧
    sentinelManipIsEmpty dm t s v (sentinelManipInit dm t v) = false ∧
    ∀ p, t.Has dm p → sentinelManipIsEmpty dm t s v p = false := by
  have h0 : sentinelManipIsEmpty lp64 ⟨1, false, 0⟩ ⟨3, true, 0⟩ (-1) (sentinelManipInit lp64 ⟨1, false, 0⟩ (-1)) = false := by
    decide
  refine ⟨lp64, ⟨1, false, 0⟩, ⟨3, true, 0⟩, -1, ⟨by decide, by decide⟩, h0, fun p hp => ?_⟩
  rcases h : sentinelManipIsEmpty lp64 ⟨1, false, 0⟩ ⟨3, true, 0⟩ (-1) p
  · rfl
  · rw [((C48_exact _ _ _ p hp).1 h).2] at h0; cases h0

/-- C48. The explicit form `tiny::optional<unsigned char, -1>` of the same is rejected by the compiler. -/
theorem C48_explicit_rejected : convertSentinel lp64 (.int ⟨1, false, 0⟩) ⟨.int ⟨3, true, 0⟩, -1⟩ = none := by decide

/-- Optionals of `unsigned char` that use `sentinel_flag_manipulator<unsigned char, -1>`. -/
def badSentinelEnv (ndebug : Bool) : Env Int Unit := fun _ =>
  ⟨⟨1, fun v i => if i = 0 then some (BitVec.ofInt 8 v) else none, .inplace,
    .custom (sentinelManipIsEmpty lp64 ⟨1, false, 0⟩ ⟨3, true, 0⟩ (-1)) (sentinelManipInit lp64 ⟨1, false, 0⟩ (-1)), ndebug⟩,
    scalarOps⟩

/-- C48, consequence of `C48_false` for the optional: the default constructor trips its assertion; with `NDEBUG` it returns,
and the default constructed optional claims to have a value. -/
theorem C48_false_default :
    (run (badSentinelEnv false) [.ctorDefault 0, .hasValue 0] (.init ())).1 = [.abort .assertFail] ∧
    (run (badSentinelEnv true) [.ctorDefault 0, .hasValue 0, .reset 0] (.init ())).1
      = [.ok .unit, .ok (.bool true), .abort (.ub .noObject)] := by
  constructor <;> decide

end Verif.Props
