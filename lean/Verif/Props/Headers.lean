import Verif.Lemmas.HeaderOrder
import Verif.Props.Version

/-!
# C72: the headers can be included anywhere, in any order, any number of times
-/

namespace Verif.Props
open Verif.Spec Verif.Spec.Headers Verif.Model Verif.Model.Pre Verif.Lemmas.Headers

/-- The header is rejected exactly if the language is too old or the architecture is not supported by an enabled feature. -/
theorem C72_rejected (v : Nat) {env : Macros Name} (hc : Clean env) :
    ((optionalH v).run spell ⟨env, [], false⟩).failed = true ↔ Rejected env := by
  simp [run_optionalH (s := ⟨env, [], false⟩) (clean_but hc)]

/-- In a sufficiently new language this is the check of the model of the templates. -/
theorem C72_archCheck (v : Nat) {env : Macros Name} (hc : Clean env) (hl : ¬ TooOld env) (P : Model.Prog) (hP : P.set = settingsOf env) :
    ((optionalH v).run spell ⟨env, [], false⟩).failed = true ↔ archCheck P = .error .architecture := by
  rw [C72_rejected v hc]
  have ha : (settingsOf env).arch = archOf env := rfl
  unfold archCheck Rejected
  rw [hP, ha]
  cases (settingsOf env).noBits <;> cases (settingsOf env).noMem <;> by_cases h : archOf env = .other <;> simp [hl, h]

/-- Which pieces the compiler gets to see, the name of the inline namespace, and what stands in it. -/
theorem C72_text (v : Nat) {env : Macros Name} (hc : Clean env) :
    let out := ((optionalH v).run spell ⟨env, [], false⟩).out
    (∀ p, .id (.piece p) ∈ out ↔ Present env p) ∧
    (∀ cs, .pasted cs ∈ out ↔ cs = inlineNamespace v (settingsOf env)) ∧
    (∀ p sc, (p, sc) ∈ placed none out → sc = if Outside p then none else some (inlineNamespace v (settingsOf env))) := by
  have hd : has env .declared = false := by simp [has, hc .declared rfl]
  simp only [run_optionalH (s := ⟨env, [], false⟩) (clean_but hc), decl, hd, List.nil_append, Bool.false_eq_true, if_false,
    List.cons_append, List.mem_cons, placed, Prod.mk.injEq, Tok.id.injEq, Name.piece.injEq]
  refine ⟨fun p => ?_, fun cs => ?_, fun p sc h => ?_⟩
  · rw [show core v env = toks v env allParts from rfl, mem_toks_piece, mem_allParts, present_iff]
    constructor
    · rintro (rfl | h)
      · trivial
      · exact h.2
    · intro h
      by_cases hp : p = .declareManip
      · exact .inl hp
      · exact .inr ⟨hp, h⟩
  · rw [show core v env = toks v env allParts from rfl, mem_toks_pasted]
    have : Part.begin ∈ allParts := by decide
    simp [this]
  · rcases h with ⟨rfl, rfl⟩ | h
    · rfl
    · obtain ⟨b, hb, rfl⟩ := placed_toks (b := false) (l := allParts) h
      have := inside_allParts _ hb
      simp only at this
      subst this
      cases Outside p <;> rfl

/-- The headers are included in any order and any number of times, between lines that define and undefine macros and specialise
`optional_flag_manipulator`: the compiler sees the declaration of it once, at the first inclusion of any of the headers, and the
library once, at the first inclusion of `optional.h`; it is the text for the macros that are defined there. -/
theorem C72_order {ver : Nat → Nat} {k : Nat} {env : Macros Name} (hc : Clean env) {pre post : List (Line Name)}
    (hu : ∀ l ∈ pre ++ post, UserLine l) (h1 : ∀ f, .incl f ∈ pre → f = 0) (h2 : ∀ f, .incl f ∈ post → f = 0 ∨ f = k + 1) :
    let r := preprocess spell (files ver) once [] (pre ++ .incl (k + 1) :: post) ⟨env, [], false⟩
    let here := ((ownLines pre).run spell ⟨env, [], false⟩).env
    let alone := ((optionalH (ver k)).run spell ⟨here, [], false⟩).out
    r.out.filter FromLibrary = alone ∧ (Rejected here → r.failed = true) := by
  intro r here alone
  have hu1 : ∀ l ∈ pre, UserLine l := fun l hl => hu l (by simp [hl])
  have hu2 : ∀ l ∈ post, UserLine l := fun l hl => hu l (by simp [hl])
  obtain ⟨seen, s, hk, hr, a1, a2, a3, a4, a5⟩ := preprocess_at (ver := ver) (k := k) hc hu1 h1 post
  have hh : Clean here := fun x hx => by
    show ((ownLines pre).run spell ⟨env, [], false⟩).env x = none
    rw [ownLines_internal hu1 (fun j => hc _ rfl) hx]; exact hc x hx
  have hd : has here .declared = false := by simp [has, hh .declared rfl]
  obtain ⟨b1, b2⟩ := preprocess_after (ver := ver) hu2 h2 a1 a2 a3 hk
  refine ⟨?_, fun h => ?_⟩
  · show (preprocess _ _ _ _ _ _).out.filter _ = _
    rw [hr, b2, a4]
    show _ = ((optionalH (ver k)).run spell ⟨here, [], false⟩).out
    simp [run_optionalH (s := ⟨here, [], false⟩) (clean_but hh), decl, hd, here]
  · show (preprocess _ _ _ _ _ _).failed = true
    rw [hr, b1]
    apply (run_out _ _).2
    rw [a5]
    simp [show Rejected ((ownLines pre).run spell ⟨env, [], false⟩).env from h]

/-- The translation unit is accepted by the preprocessor if the user's lines and the header on its own are, provided that no macros are
defined after the header. -/
theorem C72_accepted {ver : Nat → Nat} {k : Nat} {env : Macros Name} (hc : Clean env) {pre post : List (Line Name)}
    (hu : ∀ l ∈ pre, UserLine l) (h1 : ∀ f, .incl f ∈ pre → f = 0) (h2 : ∀ f, .incl f ∈ post → f = 0 ∨ f = k + 1)
    (h3 : ∀ d, .dir d ∈ post → ∃ j, d = .text [.id (.userSpecialisation j)]) :
    let r := preprocess spell (files ver) once [] (pre ++ .incl (k + 1) :: post) ⟨env, [], false⟩
    let u := (ownLines pre).run spell ⟨env, [], false⟩
    r.failed = true ↔ u.failed = true ∨ Rejected u.env := by
  intro r u
  have hu2 : ∀ l ∈ post, UserLine l := by
    intro l hl
    cases l with
    | dir d => obtain ⟨j, rfl⟩ := h3 d hl; exact .specialise j
    | incl f => exact .incl f
  obtain ⟨seen, s, hk, hr, a1, a2, a3, a4, a5⟩ := preprocess_at (ver := ver) (k := k) hc hu h1 post
  obtain ⟨b1, b2⟩ := preprocess_after (ver := ver) hu2 h2 a1 a2 a3 hk
  have hf : ∀ (ls : List (Line Name)) (t : PP Name), (∀ j, t.env (.userSpecialisation j) = none) →
      (∀ d, .dir d ∈ ls → ∃ j, d = .text [.id (.userSpecialisation j)]) → ((ownLines ls).run spell t).failed = t.failed := by
    intro ls
    induction ls with
    | nil => intros; rfl
    | cons l ls ih =>
      intro t ht h
      have h' : ∀ d, .dir d ∈ ls → ∃ j, d = .text [.id (.userSpecialisation j)] := fun d hd => h d (List.mem_cons_of_mem _ hd)
      cases l with
      | dir d =>
        obtain ⟨j, rfl⟩ := h d List.mem_cons_self
        rw [ownLines_dir]
        simp only [Dir.run, List.map, expand, expandSteps, ht, Option.map_some]
        exact ih _ ht h'
      | incl f => rw [ownLines_incl]; exact ih t ht h'
  show (preprocess _ _ _ _ _ _).failed = true ↔ _
  rw [hr, b1]
  show ((ownLines post).run spell s).failed = true ↔ _
  rw [hf post s a1 h3, a5]
  simp [u]

/-- The preprocessed translation unit obeys the rules of the language if every specialisation comes after one of the headers. -/
theorem C72_wellFormed {ver : Nat → Nat} {k : Nat} {env : Macros Name} (hc : Clean env) {pre post : List (Line Name)}
    (hu : ∀ l ∈ pre ++ post, UserLine l) (h1 : ∀ f, .incl f ∈ pre → f = 0) (h2 : ∀ f, .incl f ∈ post → f = 0 ∨ f = k + 1)
    (hs : SpecialisesAfterInclude (pre ++ .incl (k + 1) :: post)) :
    WellFormed (preprocess spell (files ver) once [] (pre ++ .incl (k + 1) :: post) ⟨env, [], false⟩).out := by
  have hd : has env .declared = false := by simp [has, hc .declared rfl]
  refine ⟨preprocess_declared (k := k) (fun l hl => ?_) (fun f hf => ?_) (fun j => hc _ rfl) (hc _ rfl) (by simp [hd])
    (.inr ⟨by simp, clean_but hc⟩) (fun a j b e => .inr (hs a j b e)) (fun a t b e => by simp at e), fun p => ?_⟩
  · simp only [List.mem_append, List.mem_cons] at hl hu
    rcases hl with hl | rfl | hl
    · exact hu l (.inl hl)
    · exact .incl _
    · exact hu l (.inr hl)
  · simp only [List.mem_append, List.mem_cons, Line.incl.injEq] at hf
    rcases hf with hf | rfl | hf
    · exact .inl (h1 f hf)
    · exact .inr rfl
    · exact h2 f hf
  · have hu1 : ∀ l ∈ pre, UserLine l := fun l hl => hu l (by simp [hl])
    have hu2 : ∀ l ∈ post, UserLine l := fun l hl => hu l (by simp [hl])
    obtain ⟨seen, s, hk, hr, a1, a2, a3, a4, a5⟩ := preprocess_at (ver := ver) (k := k) hc hu1 h1 post
    obtain ⟨b1, b2⟩ := preprocess_after (ver := ver) hu2 h2 a1 a2 a3 hk
    have : ∀ l : List (Tok Name), l.count (.id (.piece p)) = (l.filter FromLibrary).count (.id (.piece p)) := by
      intro l
      rw [List.count_filter]
      rfl
    rw [hr, this, b2, a4, List.count_cons]
    have c1 := count_core (ver k) ((ownLines pre).run spell ⟨env, [], false⟩).env p
    by_cases hp : p = .declareManip
    · subst hp
      rw [count_declare_core]
      simp
    · have : ¬ Piece.declareManip = p := fun h => hp h.symm
      simpa [this] using c1

/-- Without that, it is not: a specialisation in front of the headers. -/
theorem C72_needs_include {ver : Nat → Nat} {env : Macros Name} (hc : Clean env) (j : Nat) (rest : List (Line Name)) :
    ¬ WellFormed (preprocess spell (files ver) once [] (.dir (.text [.id (.userSpecialisation j)]) :: rest) ⟨env, [], false⟩).out := by
  intro h
  have grow : ∀ (ls : List (Line Name)) (seen : List Nat) (s : PP Name),
      ∃ l, (preprocess spell (files ver) once seen ls s).out = s.out ++ l := by
    intro ls
    induction ls with
    | nil => exact fun _ s => ⟨[], by simp [preprocess]⟩
    | cons l ls ih =>
      intro seen s
      cases l with
      | dir d =>
        obtain ⟨a, ha⟩ := (run_out d s).1
        obtain ⟨b, hb⟩ := ih seen (d.run spell s)
        exact ⟨a ++ b, by simp [preprocess, hb, ha]⟩
      | incl f =>
        simp only [preprocess]
        split
        · exact ih seen s
        · obtain ⟨a, ha⟩ := (run_out (files ver f) s).1
          obtain ⟨b, hb⟩ := ih (f :: seen) ((files ver f).run spell s)
          exact ⟨a ++ b, by simp [hb, ha]⟩
  have he : (Dir.text [.id (.userSpecialisation j)]).run spell ⟨env, [], false⟩ = ⟨env, [.id (.userSpecialisation j)], false⟩ := by
    simp [Dir.run, expand, expandSteps, hc (.userSpecialisation j) rfl]
  obtain ⟨l, hl⟩ := grow rest [] ⟨env, [.id (.userSpecialisation j)], false⟩
  have := h.declared [] (.id (.userSpecialisation j)) l (by rw [preprocess, he, hl]; rfl) rfl
  simp at this

/-- Only `optional_flag_manipulator_fwd.h` is included: there is nothing but the declaration. -/
theorem C72_forward {ver : Nat → Nat} {env : Macros Name} (hc : Clean env) {ls : List (Line Name)} (hu : ∀ l ∈ ls, UserLine l)
    (hf : ∀ f, .incl f ∈ ls → f = 0) :
    let r := preprocess spell (files ver) once [] ls ⟨env, [], false⟩
    r.out.filter FromLibrary = if .incl 0 ∈ ls then [.id (.piece .declareManip)] else [] := by
  intro r
  obtain ⟨-, -, -, -, b5⟩ := preprocess_before (ver := ver) (k := 0) hu hf (seen := []) (s := ⟨env, [], false⟩)
    (t := ⟨env, [], false⟩) (clean_but hc) (fun j => hc _ rfl) (fun _ _ => rfl) rfl (by simp)
  have hd : has env .declared = false := by simp [has, hc .declared rfl]
  simpa [hd] using b5

/-- Different copies of `optional.h`, be they of one version or of several, cannot be included in one translation unit: `#pragma once`
does not help, and the primary template of `optional_flag_manipulator` is outside of the inline namespace. -/
theorem C72_two_copies {ver : Nat → Nat} {j k : Nat} (hjk : j ≠ k) {env : Macros Name} (hc : Clean env) {ls : List (Line Name)}
    (hu : ∀ l ∈ ls, UserLine l) (hj : .incl (j + 1) ∈ ls) (hk : .incl (k + 1) ∈ ls) :
    ¬ WellFormed (preprocess spell (files ver) once [] ls ⟨env, [], false⟩).out := by
  intro h
  have := preprocess_primary (ver := ver) hjk hu (seen := []) (s := ⟨env, [], false⟩) (fun p => hc _ rfl)
  have := h.once .primaryManip
  simp [hj, hk] at *
  omega

/-! ## Cases -/

/-- gcc 13 on x86_64 with C++20. -/
def gccCpp20 : Macros Name
  | .cplusplus => some (.obj [.num 202002])
  | .x86_64 => some (.obj [.num 1])
  | .gnuc => some (.obj [.num 13])
  | .gnug => some (.obj [.num 13])
  | .libThreeWay => some (.obj [.num 201907])
  | .cppConcepts => some (.obj [.num 201907])
  | .libConcepts => some (.obj [.num 202002])
  | _ => none

theorem gccCpp20_clean : Clean gccCpp20 := by
  intro n h
  cases n <;> simp [Internal] at h <;> rfl

example : ¬ Rejected gccCpp20 := by decide +kernel
example : ((optionalH 100301).run spell ⟨gccCpp20, [], false⟩).failed ≠ true := fun h => absurd ((C72_rejected _ gccCpp20_clean).mp h) (by decide +kernel)
example : ¬ TooOld gccCpp20 := by decide +kernel

/-- C++14 -/
example : Rejected fun x => if x = .cplusplus then some (.obj [.num 201402]) else gccCpp20 x := by decide +kernel
/-- ARM: rejected unless both features are off. -/
example : Rejected fun x => if x = .x86_64 then none else gccCpp20 x := by decide +kernel
example : ¬ Rejected fun x => if x = .x86_64 then none else if x = .ubTricks then some (.obj []) else gccCpp20 x := by decide +kernel

/-- The namespace of the version of the repository. -/
example : .pasted "tiny100301_bit_mem".toList ∈ ((optionalH 100301).run spell ⟨gccCpp20, [], false⟩).out :=
  ((C72_text 100301 gccCpp20_clean).2.1 _).mpr (by decide +kernel)

/-- A translation unit as in the theorems. -/
def unit : List (Line Name) × List (Line Name) :=
  ([.incl 0, .dir (.text [.id (.userSpecialisation 0)]), .dir (.define .ubTricks (.obj [.num 1]))],
   [.incl 1, .dir (.undef .ubTricks), .incl 0, .dir (.text [.id (.userSpecialisation 1)])])

theorem unit_user : (∀ l ∈ unit.1 ++ unit.2, UserLine l) ∧ (∀ f, .incl f ∈ unit.1 → f = 0) ∧
    (∀ f, .incl f ∈ unit.2 → f = 0 ∨ f = 0 + 1) := by
  refine ⟨?_, by simp [unit], by simp [unit]⟩
  simp only [unit, List.cons_append, List.nil_append, List.forall_mem_cons]
  exact ⟨.incl _, .specialise _, .define _ rfl, .incl _, .undef rfl, .incl _, .specialise _, by simp⟩

theorem unit_after : SpecialisesAfterInclude (unit.1 ++ .incl (0 + 1) :: unit.2) := by
  intro pre k post h
  cases pre with
  | nil => simp [unit] at h
  | cons l pre =>
    simp only [unit, List.cons_append, List.cons.injEq] at h
    exact ⟨0, by simp [← h.1]⟩

example : WellFormed (preprocess spell (files fun _ => 100301) once [] (unit.1 ++ .incl (0 + 1) :: unit.2) ⟨gccCpp20, [], false⟩).out :=
  C72_wellFormed gccCpp20_clean unit_user.1 unit_user.2.1 unit_user.2.2 unit_after

/-- The setting in front of the first inclusion counts. -/
example : (settingsOf ((ownLines unit.1).run spell ⟨gccCpp20, [], false⟩).env).ubTricks = true := by decide +kernel

example := C72_order (ver := fun _ => 100301) gccCpp20_clean unit_user.1 unit_user.2.1 unit_user.2.2
example := C72_accepted (ver := fun _ => 100301) (k := 0) gccCpp20_clean (fun l h => unit_user.1 l (List.mem_append_left _ h)) unit_user.2.1
  (post := [.incl 1, .dir (.text [.id (.userSpecialisation 1)]), .incl 0]) (by simp) (by simp)
example := C72_needs_include (ver := fun _ => 100301) gccCpp20_clean 3 [.incl 1]
example := C72_forward (ver := fun _ => 100301) gccCpp20_clean (fun l h => unit_user.1 l (List.mem_append_left _ h)) unit_user.2.1
example := C72_two_copies (ver := fun _ => 100301) (j := 0) (k := 1) (by decide) gccCpp20_clean (ls := [.incl 1, .dir (.undef .ubTricks), .incl 2])
  (by simp only [List.forall_mem_cons]; exact ⟨.incl _, .undef rfl, .incl _, by simp⟩) (by simp) (by simp)

def isPasted : Tok Name → Bool
  | .pasted _ => true
  | _ => false

/-- If a user has a macro called `bit`, settings that differ share one namespace: `bit` must not be a macro. -/
theorem C72_user_macro :
    ∃ e e' : Macros Name, (∀ n, Internal n = true → n ≠ .bit → e n = none ∧ e' n = none) ∧ settingsOf e ≠ settingsOf e' ∧
      ¬ Rejected e ∧ ¬ Rejected e' ∧
      ∀ cs, .pasted cs ∈ ((optionalH 100301).run spell ⟨e, [], false⟩).out ↔
        .pasted cs ∈ ((optionalH 100301).run spell ⟨e', [], false⟩).out := by
  refine ⟨fun x => if x = .bit then some (.obj [.id .noBit]) else gccCpp20 x,
    fun x => if x = .unusedBits then some (.obj []) else gccCpp20 x, ?_,
    fun h => absurd (congrArg Settings.unusedBits h) (by decide +kernel), by decide +kernel, by decide +kernel, ?_⟩
  · intro n h hn
    have := gccCpp20_clean n h
    refine ⟨by simp [hn, this], ?_⟩
    by_cases hx : n = .unusedBits
    · subst hx; simp [Internal] at h
    · simp [hx, this]
  · have : ∀ (l l' : List (Tok Name)), (l.filter isPasted = l'.filter isPasted) → ∀ cs, .pasted cs ∈ l ↔ .pasted cs ∈ l' := by
      intro l l' h cs
      have h1 : ∀ m : List (Tok Name), .pasted cs ∈ m ↔ .pasted cs ∈ m.filter isPasted := fun m => by simp [isPasted]
      rw [h1 l, h1 l', h]
    exact this _ _ (by decide +kernel)

end Verif.Props
