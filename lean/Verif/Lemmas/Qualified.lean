import Verif.Model.Qualified
import Verif.Lemmas.Select

/-! Lemmas for C80. -/

namespace Verif.Lemmas.Qualified
open Verif Verif.Model Verif.Spec.Qualified Verif.Model.Qualified

/-- The decomposition and the manipulator of a compiled optional fit, and the class of a member pointer is unqualified. -/
def Shape (i : Inst) : Prop :=
  (i.decomp = .separate ∧ i.manip = .separate) ∨ (i.decomp = .inplace ∧ i.manip ≠ .separate) ∨
    ∃ p, i.decomp = .viaMember p ∧ i.payload = Kind.plain (.cls p.cls) ∧ i.manip ≠ .separate

theorem viaType_shape {P : Model.Prog} {t : QTy} {s : SentTy} {m : NTTP} {i : Inst} (h : optionalSentinelViaType P t s m = .ok i) : Shape i := by
  obtain ⟨sel, hs, hi⟩ := optionalSentinelViaType_ok h
  obtain ⟨_, _, hp, hd, _, hm⟩ := instantiate_ok hi
  obtain ⟨hpay, hcase⟩ := selectDecomposition_ok hs
  simp only at hcase
  have reg : ∀ t, sel.manip = .registered t → i.manip ≠ .separate := by
    intro t ht
    rw [ht] at hm
    rcases hm with ⟨b, _, hm⟩ | ⟨id, _, hm⟩ <;> simp [hm]
  have asg : ∀ t c, sel.manip = .assign t c → i.manip ≠ .separate := by
    intro t c ht
    rw [ht] at hm
    obtain ⟨v, _, hm⟩ := hm
    simp [hm]
  rcases hcase with ⟨h1, h2, _⟩ | ⟨h1, _, h2⟩ | ⟨p, h1, _, _, hcls, h2⟩
  · rw [h2] at hm
    exact .inl ⟨hd.trans h1, hm⟩
  · refine .inr (.inl ⟨hd.trans h1, ?_⟩)
    rcases h2 with ⟨h2, _⟩ | ⟨c, h2, _⟩
    · exact reg _ h2
    · exact asg _ _ h2
  · refine .inr (.inr ⟨p, hd.trans h1, by rw [hp, hpay, hcls], ?_⟩)
    rcases h2 with ⟨h2, _⟩ | ⟨c, h2, _⟩
    · exact reg _ h2
    · exact asg _ _ h2

theorem compile_shape {P : Model.Prog} {e : Entry} {i : Inst} (h : compile P e = .ok i) : Shape i := by
  cases e with
  | optional t a b =>
    obtain ⟨s, m, he, _⟩ := tinyOptional_eq (P := P) t a b
    exact viaType_shape (he.symm.trans h)
  | viaType t s m => exact viaType_shape h
  | inplace t id =>
    obtain ⟨_, h2, h3⟩ := inplace_ok h
    exact .inr (.inl ⟨h2, by simp [h3]⟩)
  | aip t a =>
    obtain ⟨b, hb, _⟩ := optionalAip_ok h
    obtain ⟨s, m, he, _⟩ := tinyOptional_eq (P := P) t b (.useDefault 0)
    exact viaType_shape (he ▸ hb)

end Verif.Lemmas.Qualified
