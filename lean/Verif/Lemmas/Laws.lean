import Verif.Spec.Laws
import Verif.Lemmas.Step
import Verif.Lemmas.Nested

/-! Helper lemmas: blocks of calls. -/

namespace Verif.Model
open Verif.Spec (SM SWorld SRes)
variable {V G : Type} {Γ : Env V G} {w : World V G}

/-- A block of calls for `std::optional`. -/
def specBlock (ops : Nat → Ops V G) : List (Op V G) → SWorld V G → SRes Unit × SWorld V G
  | [], sw => (.ok (), sw)
  | op :: rest, sw =>
    match Spec.specOp ops op sw with
    | (.ok _, sw') => specBlock ops rest sw'
    | (.throw e, sw') => (.throw e, sw')
    | (.undef, sw') => (.undef, sw')

/-- No call of the block stores a reserved value or is the exceptional case. -/
def BlockOK (Γ : Env V G) : List (Op V G) → SWorld V G → Prop
  | [], _ => True
  | op :: rest, sw => OpOK Γ op ∧ NoReserved Γ (Spec.specOp (fun x => (Γ x).ops) op sw).2.trace ∧
      StepOK op (Spec.specOp (fun x => (Γ x).ops) op sw).1 ∧
      (∀ o, (Spec.specOp (fun x => (Γ x).ops) op sw).1 = .ok o → BlockOK Γ rest (Spec.specOp (fun x => (Γ x).ops) op sw).2)

theorem Reach.block (hΓ : EnvWF Γ) {h : List (Op V G)} : ∀ {w : World V G} {sw : SWorld V G}, Reach Γ w → Sees Γ w sw → BlockOK Γ h sw →
    (specBlock (fun x => (Γ x).ops) h sw).1 ≠ .undef →
    ∃ w', Spec.block Γ h w = (SResToRes (specBlock (fun x => (Γ x).ops) h sw).1, w') ∧ Reach Γ w' ∧
      Sees Γ w' (specBlock (fun x => (Γ x).ops) h sw).2 := by
  induction h with
  | nil => intro w sw hw hs _ _; exact ⟨w, rfl, hw, hs⟩
  | cons op rest ih =>
    intro w sw hw hs hb hu
    obtain ⟨b1, b2, b3, b4⟩ := hb
    unfold specBlock at hu ⊢
    unfold Spec.block
    rcases he : Spec.specOp (fun x => (Γ x).ops) op sw with ⟨r, sw'⟩
    rw [he] at b2 b3 b4
    simp only [he] at hu ⊢
    cases r with
    | undef => exact absurd rfl hu
    | throw e =>
      obtain ⟨w', h1, h2, h3⟩ := hw.call hΓ hs b1 he (by simp) b2 b3
      exact ⟨w', bind_throw h1, h2, h3⟩
    | ok o =>
      obtain ⟨w', h1, h2, h3⟩ := hw.call hΓ hs b1 he (by simp) b2 b3
      obtain ⟨w'', h4, h5, h6⟩ := ih h2 h3 (b4 o rfl) hu
      exact ⟨w'', (bind_ok h1).trans h4, h5, h6⟩

theorem Reach.sameExcept (hΓ : EnvWF Γ) (hw : Reach Γ w) {sw : SWorld V G} (hs : Sees Γ w sw) {ts : List Nat} {h h' : List (Op V G)}
    (hb : BlockOK Γ h sw) (hb' : BlockOK Γ h' sw) (hu : (specBlock (fun x => (Γ x).ops) h sw).1 ≠ .undef)
    (he : (specBlock (fun x => (Γ x).ops) h sw).1 = (specBlock (fun x => (Γ x).ops) h' sw).1)
    (hg : (specBlock (fun x => (Γ x).ops) h sw).2.user = (specBlock (fun x => (Γ x).ops) h' sw).2.user)
    (hv : ∀ z, z ∉ ts → (specBlock (fun x => (Γ x).ops) h sw).2.vars z = (specBlock (fun x => (Γ x).ops) h' sw).2.vars z) :
    Spec.SameExcept Γ ts (Spec.block Γ h w) (Spec.block Γ h' w) := by
  obtain ⟨w1, a1, a2, a3⟩ := hw.block hΓ hs hb hu
  obtain ⟨w2, b1, b2, b3⟩ := hw.block hΓ hs hb' (he ▸ hu)
  rw [a1, b1]
  refine ⟨fun a => ?_, by rw [he], ?_, fun z hz => ?_⟩
  · generalize (specBlock (fun x => (Γ x).ops) h sw).1 = r at hu
    cases r <;> simp_all [SResToRes]
  · exact (a3.1.trans hg).trans b3.1.symm
  · have h1 := a3.2 z
    have h2 := b3.2 z
    rw [hv z hz] at h1
    exact ⟨h1.1.trans h2.1.symm, h1.2.1.trans h2.2.1.symm, fun v => (h1.2.2 v).trans (h2.2.2 v).symm⟩

/-- What an optional holds can be stored in it. -/
theorem Reach.holds_storable (hΓ : EnvWF Γ) (hw : Reach Γ w) {x : Nat} {v : V} (hx : Holds Γ x v w) : (Γ x).cfg.Storable v := by
  obtain ⟨sw, hR, _⟩ := hw.rel hΓ
  have hx' := (hR.holds_iff hΓ).1 hx
  have h := hR.1 x
  simp only [VarRelH] at h
  exact VarRel.storable' (T := Γ x) (by simpa using h) v hx'

end Verif.Model

/-- Evaluate both sides of a law. -/
macro "law" "[" hs:Lean.Parser.Tactic.simpLemma,* "]" : tactic =>
  `(tactic| ((spec_eval [Verif.Model.specBlock, Verif.Model.BlockOK, Verif.Model.OpOK, Verif.Model.NoReserved, Verif.Model.StepOK,
    Verif.Spec.reads, Verif.Model.ArgLawful, $hs,*]) <;> try (intro z hz; simp [hz])))
