import Verif.Lemmas.Version
import Verif.ExampleTypes

/-!
# C40: configurations cannot be mixed silently
-/

namespace Verif.Props
open Verif.Model Verif.Spec Verif.Examples

/-- The namespaces are the same only if versions and effective settings are. -/
theorem C40_injective (v v' : Nat) (s s' : Settings) :
    inlineNamespace v s = inlineNamespace v' s' ↔ v = v' ∧ s.noBits = s'.noBits ∧ s.noMem = s'.noMem := by
  constructor
  · intro h
    simp only [inlineNamespace, concatNs, List.append_assoc, List.cons_append, List.nil_append, List.cons.injEq,
      true_and] at h
    obtain ⟨h1, h2⟩ := split_underscore Nat.underscore_not_in_toDigits Nat.underscore_not_in_toDigits h
    have hb : ∀ s : Settings, '_' ∉ unusedBitsNsPart s := by
      intro s
      unfold unusedBitsNsPart
      split <;> decide
    obtain ⟨h3, h4⟩ := split_underscore (hb s) (hb s') h2
    refine ⟨?_, ?_, ?_⟩
    · have := congrArg (fun l => Nat.ofDigitChars 10 l 0) h1
      simpa [versionToken, Nat.ofDigitChars_toDigits] using this
    · unfold unusedBitsNsPart at h3
      cases hs : s.noBits <;> cases hs' : s'.noBits <;> simp [hs, hs'] at h3 ⊢
    · unfold memberNsPart at h4
      cases hs : s.noMem <;> cases hs' : s'.noMem <;> simp [hs, hs'] at h4 ⊢
  · rintro ⟨rfl, h1, h2⟩
    simp [inlineNamespace, unusedBitsNsPart, memberNsPart, h1, h2]

/-- Different releases have different version numbers. -/
theorem C40_versions {M m p M' m' p' : Nat} (h1 : m < 1000) (h2 : p < 100) (h3 : m' < 1000) (h4 : p' < 100)
    (h : versionNumber M m p = versionNumber M' m' p') : M = M' ∧ m = m' ∧ p = p' := by
  unfold versionNumber at h
  omega

/-- If two settings (on the same platform) make any difference for a use of the library - another storage, or accepted versus
rejected - then its types live in different namespaces, also across versions. -/
theorem C40_mixing {P : Model.Prog} {s s' : Settings} (ha : s.arch = s'.arch) {e : Entry}
    (hd : compile (withSettings P s) e ≠ compile (withSettings P s') e) (v v' : Nat) :
    inlineNamespace v s ≠ inlineNamespace v' s' := by
  intro h
  obtain ⟨_, h1, h2⟩ := (C40_injective v v' s s').mp h
  exact hd (compile_congr ha h1 h2 e)

/-- `optional<bool>` with and without the macro. The two names are those mentioned in the natvis file. -/
example : compile (withSettings (exProg exSettings) exSettings) (.optional Kind.bool.plain (.useDefault 0) (.useDefault 0)) ≠
      compile (withSettings (exProg exSettings) ⟨true, false, false, .x64⟩)
        (.optional Kind.bool.plain (.useDefault 0) (.useDefault 0)) ∧
    String.ofList (inlineNamespace (versionNumber 1 3 1) exSettings) = "tiny100301_bit_mem" ∧
    String.ofList (inlineNamespace (versionNumber 1 3 1) ⟨true, false, false, .x64⟩) = "tiny100301_noBit_noMem" := by
  refine ⟨fun h => ?_, by decide, by decide⟩
  have h : (Except.ok ⟨Kind.bool.plain, .inplace, .bits [0xfe]⟩ : Except Err Inst) = .ok ⟨Kind.bool.plain, .separate, .separate⟩ := h
  simp at h

/-- `C40_mixing` for it, and `C40_versions` for 1.3.1 and whatever has the same number. -/
example (v v' : Nat) : inlineNamespace v exSettings ≠ inlineNamespace v' ⟨true, false, false, .x64⟩ :=
  C40_mixing (P := exProg exSettings) (s := exSettings) (s' := ⟨true, false, false, .x64⟩) rfl (e := .optional Kind.bool.plain (.useDefault 0) (.useDefault 0)) (by
    intro h
    have h : (Except.ok ⟨Kind.bool.plain, .inplace, .bits [0xfe]⟩ : Except Err Inst) = .ok ⟨Kind.bool.plain, .separate, .separate⟩ := h
    simp at h) v v'

example {M m p : Nat} (hm : m < 1000) (hp : p < 100) (h : versionNumber M m p = 100301) : M = 1 ∧ m = 3 ∧ p = 1 :=
  C40_versions (M' := 1) (m' := 3) (p' := 1) hm hp (by decide) (by decide) h

end Verif.Props
