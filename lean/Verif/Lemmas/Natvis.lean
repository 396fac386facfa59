import Verif.Model.Natvis
import Verif.Lemmas.Select
import Verif.Lemmas.Basic

/-! Helper lemmas: little endian numbers. -/

namespace Verif.Model
open Verif.Spec

/-- Value of a list of bytes, least significant first. -/
def valueLE : List Byte → Nat
  | [] => 0
  | c :: cs => c.toNat + 256 * valueLE cs

/-- If `memcmp` is defined, then comparing as numbers gives the same result. -/
theorem memcmpEq_readLE {b : Nat → Option Byte} {sent : List Byte} {off : Nat} {r : Bool} (h : memcmpEq b off sent = .ok r) :
    ∃ k, readLE b off sent.length = some k ∧ r = (k == valueLE sent) := by
  induction sent generalizing off r with
  | nil =>
    simp only [memcmpEq, Except.ok.injEq] at h
    subst h
    exact ⟨0, rfl, rfl⟩
  | cons c cs ih =>
    unfold memcmpEq at h
    cases hb : b off with
    | none => simp [hb] at h
    | some x =>
      cases hr : memcmpEq b (off + 1) cs with
      | error k => simp [hb, hr] at h
      | ok r' =>
        simp only [hb, hr, Except.ok.injEq] at h
        obtain ⟨k, hk, rfl⟩ := ih hr
        refine ⟨x.toNat + 256 * k, by simp [readLE, hb, hk], ?_⟩
        rw [← h, Bool.eq_iff_iff]
        simp only [Bool.and_eq_true, beq_iff_eq, valueLE, ← BitVec.toNat_inj]
        have h1 := x.isLt
        have h2 := c.isLt
        omega

theorem memcmpEq_litEq {b : Nat → Option Byte} {sent : List Byte} {off lit : Nat} {r : Bool}
    (h : memcmpEq b off sent = .ok r) (hl : valueLE sent = lit) : litEq b off sent.length lit = some r := by
  obtain ⟨k, hk, rfl⟩ := memcmpEq_readLE h
  simp [litEq, hk, hl]

end Verif.Model
