import Verif.Model.Version

/-! Helper lemmas: the name of the inline namespace; dependence of the selection on the settings. -/

namespace Verif.Model
open Verif.Spec

/-- A list is determined by what is before and behind the first `_`. -/
theorem split_underscore {a a' r r' : List Char} (ha : '_' ∉ a) (ha' : '_' ∉ a') (h : a ++ '_' :: r = a' ++ '_' :: r') :
    a = a' ∧ r = r' := by
  induction a generalizing a' with
  | nil =>
    cases a' with
    | nil => exact ⟨rfl, by simpa using h⟩
    | cons c cs =>
      simp only [List.nil_append, List.cons_append, List.cons.injEq] at h
      exact absurd (by simp [← h.1]) ha'
  | cons c cs ih =>
    cases a' with
    | nil =>
      simp only [List.nil_append, List.cons_append, List.cons.injEq] at h
      exact absurd (by simp [h.1]) ha
    | cons d ds =>
      simp only [List.cons_append, List.cons.injEq] at h
      obtain ⟨h1, h2⟩ := ih (fun hm => ha (by simp [hm])) (a' := ds) (fun hm => ha' (by simp [hm])) h.2
      exact ⟨by rw [h.1, h1], h2⟩

/-- The program `P` compiled with other settings. -/
def withSettings (P : Model.Prog) (s : Settings) : Prog := { P with set := s }

section
variable {P : Model.Prog} {s s' : Settings} (ha : s.arch = s'.arch) (hb : s.noBits = s'.noBits) (hm : s.noMem = s'.noMem)
include ha hb hm
set_option linter.unusedSectionVars false

theorem hasCustom_congr (t : QTy) : flagManipulator (withSettings P s) t = flagManipulator (withSettings P s') t ∧
    hasCustom (withSettings P s) t = hasCustom (withSettings P s') t := by
  have h1 : unusedBitsKnown (withSettings P s) t = unusedBitsKnown (withSettings P s') t := by
    simp only [unusedBitsKnown, withSettings, hb]
    rfl
  have h2 : unusedBitsSentinel (withSettings P s) t.kind = unusedBitsSentinel (withSettings P s') t.kind := by
    simp only [unusedBitsSentinel, withSettings, ha]
  have h3 : flagManipulator (withSettings P s) t = flagManipulator (withSettings P s') t := by
    unfold flagManipulator
    rw [h1, h2]
    rfl
  exact ⟨h3, by unfold hasCustom; rw [h3]⟩

theorem matches_congr (a : Args) (sp : Specialisation) :
    sp.matches (withSettings P s) a = sp.matches (withSettings P s') a := by
  have h := fun t => (hasCustom_congr (P := P) ha hb hm t).2
  unfold Specialisation.matches
  cases sp <;> simp only [Specialisation.cond, memPtrCond, h]

theorem body_congr (a : Args) (sp : Specialisation) : sp.body (withSettings P s) a = sp.body (withSettings P s') a := by
  cases sp <;> simp only [Specialisation.body, memberBody, withSettings, hm] <;> rfl

theorem viaType_congr (t : QTy) (st : SentTy) (m : NTTP) :
    optionalSentinelViaType (withSettings P s) t st m = optionalSentinelViaType (withSettings P s') t st m := by
  have h1 : ∀ a l, matching (withSettings P s) a l = matching (withSettings P s') a l := by
    intro a l
    induction l with
    | nil => rfl
    | cons x xs ih => simp only [matching, matches_congr ha hb hm, ih]
  have h2 : ∀ sel, instantiate (withSettings P s) sel = instantiate (withSettings P s') sel := by
    intro sel
    have hi : ∀ x, instantiateManip (withSettings P s) x = instantiateManip (withSettings P s') x := by
      intro x
      cases x <;> simp only [instantiateManip, (hasCustom_congr ha hb hm _).1] <;> rfl
    have harch : archCheck (withSettings P s) = archCheck (withSettings P s') := by
      simp only [archCheck, withSettings, ha, hb, hm]
      rfl
    simp only [instantiate, harch, hi]
    rfl
  have h3 : ∀ a, pick (withSettings P s) a = pick (withSettings P s') a := by
    intro a
    simp only [pick, h1]
  have h4 : instantiate (withSettings P s) = instantiate (withSettings P s') := funext h2
  have h5 : ∀ a (sp : Specialisation), sp.body (withSettings P s) a = sp.body (withSettings P s') a := body_congr ha hb hm
  simp only [optionalSentinelViaType, selectDecomposition, h3, h4, h5]

theorem compile_congr (e : Entry) : compile (withSettings P s) e = compile (withSettings P s') e := by
  cases e with
  | optional t a b => exact viaType_congr ha hb hm _ _ _
  | viaType t st m => exact viaType_congr ha hb hm _ _ _
  | inplace t id =>
    have harch : archCheck (withSettings P s) = archCheck (withSettings P s') := by
      simp only [archCheck, withSettings, ha, hb, hm]
      rfl
    show instantiate _ _ = instantiate _ _
    simp only [instantiate, harch]
    rfl
  | aip t x =>
    have h1 : selectSentinelValueWithSwallowing (withSettings P s) t = selectSentinelValueWithSwallowing (withSettings P s') t := by
      simp only [selectSentinelValueWithSwallowing, (hasCustom_congr (P := P) ha hb hm t).2]
      rfl
    have h2 : ∀ a b, tinyOptional (withSettings P s) t a b = tinyOptional (withSettings P s') t a b :=
      fun a b => viaType_congr ha hb hm _ _ _
    show optionalAip _ _ _ = optionalAip _ _ _
    simp only [optionalAip, h1, h2]

end

end Verif.Model
