import Verif.Lemmas.Mixing
import Verif.Props.Headers

/-!
# C73: translation units can be linked together, or the linker notices

The claim: whatever is defined in two translation units that include `optional.h` is defined in the same way, except that different
configurations use different names for it. It fails for the primary template `optional_flag_manipulator`, for translation units
compiled with and without concepts, and the linker does not notice a class of the user that contains an optional.
-/

namespace Verif.Props
open Verif.Spec Verif.Spec.Headers Verif.Model Verif.Model.Pre Verif.Lemmas.Headers Verif.Examples

/-- The full claim: all definitions agree. -/
def OneDefinition (out out' : List (Tok Name)) : Prop := ∀ e, SameDefinition out out' e

/-- The text of the library depends only on the version, the effective settings and five properties of the compiler. -/
theorem C73_same (v : Nat) {env env' : Macros Name} (hc : Clean env) (hc' : Clean env')
    (h1 : (settingsOf env).noBits = (settingsOf env').noBits) (h2 : (settingsOf env).noMem = (settingsOf env').noMem)
    (h3 : archOf env = archOf env') (h4 : threewayOf env = threewayOf env') (h5 : isGcc env = isGcc env')
    (h6 : oldGcc env = oldGcc env') (h7 : conceptsOf env = conceptsOf env') :
    ((optionalH v).run spell ⟨env, [], false⟩).out = ((optionalH v).run spell ⟨env', [], false⟩).out := by
  rw [out_optionalH hc, out_optionalH hc']
  congr 1
  have hns : inlineNamespace v (settingsOf env) = inlineNamespace v (settingsOf env') := (C40_injective ..).mpr ⟨rfl, h1, h2⟩
  have hp : ∀ p, present env p = present env' p := by
    unfold oldGcc at h6
    intro p
    unfold present
    rw [h1, h2, h3, h4, h5, h6, h7]
  unfold core toks
  congr 1
  funext a
  cases a with
  | begin => simp [Part.toks, hns]
  | close => rfl
  | piece p => simp [Part.toks, hp]

/-- All definitions but the one of the primary template agree, also for different versions and settings, if the translation units are
compiled for the same architecture, both with or both without concepts, and both or none with an old gcc. Missing for the full claim:
`C73_primary` and `C73_concepts` show that it is false. -/
theorem C73_partial (v v' : Nat) {env env' : Macros Name} (hc : Clean env) (hc' : Clean env') (h3 : archOf env = archOf env')
    (h6 : oldGcc env = oldGcc env') (h7 : conceptsOf env = conceptsOf env') {e : Piece} (he : e ≠ .primaryManip) :
    SameDefinition ((optionalH v).run spell ⟨env, [], false⟩).out ((optionalH v').run spell ⟨env', [], false⟩).out e := by
  have ns : ∀ sc, definition ((optionalH v).run spell ⟨env, [], false⟩).out e sc ≠ [] →
      definition ((optionalH v').run spell ⟨env', [], false⟩).out e sc ≠ [] → Outside e = false →
      inlineNamespace v (settingsOf env) = inlineNamespace v' (settingsOf env') := by
    intro sc hd hd' ho
    obtain ⟨p, hp⟩ := List.exists_mem_of_ne_nil _ hd
    obtain ⟨p', hp'⟩ := List.exists_mem_of_ne_nil _ hd'
    rw [mem_definition hc] at hp
    rw [mem_definition hc'] at hp'
    have ho' : ∀ q, entity q = e → Outside q = false := by
      rintro q rfl
      cases q <;> simp [entity, Outside] at ho ⊢
    have := hp.2.2.symm.trans hp'.2.2
    simpa [ho' p hp.1, ho' p' hp'.1] using this
  refine ⟨fun sc hd hd' => ?_, fun hu sc hd hd' cs => ?_⟩
  · apply definition_congr hc hc'
    rintro p rfl
    by_cases ho : Outside p = true
    · cases p <;> simp [Outside] at ho <;> simp [Present, Outside]
    · simp only [Bool.not_eq_true] at ho
      have hoe : Outside (entity p) = false := by cases p <;> simp [entity, Outside] at ho ⊢
      have hn := ns sc hd hd' hoe
      obtain ⟨_, hb, hm⟩ := (C40_injective ..).mp hn
      have own : entity p = p → (∀ q, entity q = p → q = p) → (Present env p ∧ Present env' p) := by
        intro h1 h2
        obtain ⟨q, hq⟩ := List.exists_mem_of_ne_nil _ hd
        obtain ⟨q', hq'⟩ := List.exists_mem_of_ne_nil _ hd'
        rw [mem_definition hc, h1] at hq
        rw [mem_definition hc', h1] at hq'
        exact ⟨h2 q hq.1 ▸ hq.2.1, h2 q' hq'.1 ▸ hq'.2.1⟩
      have : Present env p ↔ Present env' p := by
        rw [← present_iff, ← present_iff]
        unfold oldGcc at h6
        cases p with
        | withNullopt op =>
          obtain ⟨a, b⟩ := own rfl (by intro q h; cases q <;> simp [entity] at h ⊢; exact h)
          rw [present_iff, present_iff]; exact ⟨fun _ => b, fun _ => a⟩
        | spaceship =>
          obtain ⟨a, b⟩ := own rfl (by intro q h; cases q <;> simp [entity] at h ⊢)
          rw [present_iff, present_iff]; exact ⟨fun _ => b, fun _ => a⟩
        | spaceshipGcc =>
          obtain ⟨a, b⟩ := own rfl (by intro q h; cases q <;> simp [entity] at h ⊢)
          rw [present_iff, present_iff]; exact ⟨fun _ => b, fun _ => a⟩
        | spaceshipEnd =>
          obtain ⟨a, b⟩ := own rfl (by intro q h; cases q <;> simp [entity] at h ⊢)
          rw [present_iff, present_iff]; exact ⟨fun _ => b, fun _ => a⟩
        | _ => simp [present, hb, hm, h3, h6, h7]
      rw [this, hn]
  · have hoe : Outside e = false := by
      cases e <;> simp_all [UsesNamespace, Outside]
    have hn := ns sc hd hd' hoe
    rw [(C72_text v hc).2.1, (C72_text v' hc').2.1, hn]

/-- The primary template violates the rule as soon as two translation units use different versions or settings: its base class is in
the inline namespace, the template is not. -/
theorem C73_primary {v v' : Nat} {env env' : Macros Name} (hc : Clean env) (hc' : Clean env')
    (h : inlineNamespace v (settingsOf env) ≠ inlineNamespace v' (settingsOf env')) :
    ¬ SameDefinition ((optionalH v).run spell ⟨env, [], false⟩).out ((optionalH v').run spell ⟨env', [], false⟩).out .primaryManip := by
  intro hs
  have m : .primaryManip ∈ definition ((optionalH v).run spell ⟨env, [], false⟩).out .primaryManip none :=
    (mem_definition hc).mpr ⟨rfl, trivial, rfl⟩
  have m' : .primaryManip ∈ definition ((optionalH v').run spell ⟨env', [], false⟩).out .primaryManip none :=
    (mem_definition hc').mpr ⟨rfl, trivial, rfl⟩
  have := (hs.names rfl none (List.ne_nil_of_mem m) (List.ne_nil_of_mem m') (inlineNamespace v (settingsOf env)))
  rw [(C72_text v hc).2.1, (C72_text v' hc').2.1] at this
  exact h (this.mp rfl)

/-- The classes `optional` and `TinyOptionalImpl` violate it if one translation unit is compiled with concepts and the other without,
e.g. with C++20 and C++17: the namespaces are the same, but one has `or_else` and the other has not. -/
theorem C73_concepts {v : Nat} {env env' : Macros Name} (hc : Clean env) (hc' : Clean env')
    (hb : (settingsOf env).noBits = (settingsOf env').noBits) (hm : (settingsOf env).noMem = (settingsOf env').noMem)
    (h1 : conceptsOf env = true) (h2 : conceptsOf env' = false) :
    ¬ SameDefinition ((optionalH v).run spell ⟨env, [], false⟩).out ((optionalH v).run spell ⟨env', [], false⟩).out .optional ∧
    ¬ SameDefinition ((optionalH v).run spell ⟨env, [], false⟩).out ((optionalH v).run spell ⟨env', [], false⟩).out .impl := by
  have hn : inlineNamespace v (settingsOf env) = inlineNamespace v (settingsOf env') := (C40_injective ..).mpr ⟨rfl, hb, hm⟩
  constructor
  · intro hs
    have m : .optionalOrElse ∈ definition ((optionalH v).run spell ⟨env, [], false⟩).out .optional
        (some (inlineNamespace v (settingsOf env))) := (mem_definition hc).mpr ⟨rfl, h1, rfl⟩
    have m' : .optional ∈ definition ((optionalH v).run spell ⟨env', [], false⟩).out .optional
        (some (inlineNamespace v (settingsOf env))) := (mem_definition hc').mpr ⟨rfl, trivial, by rw [hn]; rfl⟩
    rw [hs.tokens _ (List.ne_nil_of_mem m) (List.ne_nil_of_mem m'), mem_definition hc'] at m
    exact absurd m.2.1 (by simp [Present, h2])
  · intro hs
    have m : .implOrElse ∈ definition ((optionalH v).run spell ⟨env, [], false⟩).out .impl
        (some (inlineNamespace v (settingsOf env))) := (mem_definition hc).mpr ⟨rfl, h1, rfl⟩
    have m' : .impl ∈ definition ((optionalH v).run spell ⟨env', [], false⟩).out .impl
        (some (inlineNamespace v (settingsOf env))) := (mem_definition hc').mpr ⟨rfl, trivial, by rw [hn]; rfl⟩
    rw [hs.tokens _ (List.ne_nil_of_mem m) (List.ne_nil_of_mem m'), mem_definition hc'] at m
    exact absurd m.2.1 (by simp [Present, h2])

/-- What `optional_flag_manipulator<bool>` is, depends on the settings, but its name does not. -/
theorem C73_bool {P : Model.Prog} {s s' : Settings} (hf : P.full Kind.bool.plain = none) (hp : P.partials Kind.bool.plain = [])
    (h : s.noBits = false) (h' : s'.noBits = true) :
    flagManipulator (withSettings P s) Kind.bool.plain ≠ flagManipulator (withSettings P s') Kind.bool.plain := by
  have hf1 : ∀ t, (withSettings P t).full = P.full := fun _ => rfl
  have hp1 : ∀ t, (withSettings P t).partials = P.partials := fun _ => rfl
  have hs1 : ∀ t, (withSettings P t).set = t := fun _ => rfl
  have k : unusedBitsKnown (withSettings P s) Kind.bool.plain = true := by simp [unusedBitsKnown, hs1, h, Kind.plain]
  have k' : unusedBitsKnown (withSettings P s') Kind.bool.plain = false := by simp [unusedBitsKnown, hs1, h']
  simp [flagManipulator, hf1, hp1, hf, hp, k, k', unusedBitsSentinel, show Kind.bool.plain.kind = Kind.bool from rfl]

/-- A function whose signature mentions a class of the library has different names under different configurations, so the linker does
not find it. -/
theorem C73_linker {v v' : Nat} {s s' : Settings} (h : inlineNamespace v s ≠ inlineNamespace v' s') {params : List SigTy}
    (hm : MentionsAny params) : mangleAll (inlineNamespace v s) params ≠ mangleAll (inlineNamespace v' s') params := by
  intro he
  have h1 := (mem_mangleAll (inlineNamespace v s) (inlineNamespace v s) params).mpr ⟨rfl, hm⟩
  rw [he, mem_mangleAll] at h1
  exact h h1.1

/-- A function whose signature mentions none has the same name, ... -/
theorem C73_unnoticed {v v' : Nat} {s s' : Settings} {params : List SigTy} (hm : ¬ MentionsAny params) :
    mangleAll (inlineNamespace v s) params = mangleAll (inlineNamespace v' s') params :=
  mangleAll_same _ _ params hm

/-- ... even if the class of the user that it takes has an `optional<bool>` as member, and therefore another size. The README says that
there are errors whenever configurations are mixed. -/
theorem C73_user_class :
    ∃ (s s' : Settings) (i i' : Inst) (params : List SigTy),
      compile (withSettings (exProg s) s) (.optional Kind.bool.plain (.useDefault 0) (.useDefault 0)) = .ok i ∧
      compile (withSettings (exProg s) s') (.optional Kind.bool.plain (.useDefault 0) (.useDefault 0)) = .ok i' ∧
      (classExtent [sizeofOptional i.decomp ⟨1, 1⟩]).size = 1 ∧ (classExtent [sizeofOptional i'.decomp ⟨1, 1⟩]).size = 2 ∧
      params ≠ [] ∧
      ∀ v v', mangleAll (inlineNamespace v s) params = mangleAll (inlineNamespace v' s') params :=
  ⟨exSettings, ⟨true, false, false, .x64⟩, ⟨Kind.bool.plain, .inplace, .bits [0xfe]⟩, ⟨Kind.bool.plain, .separate, .separate⟩,
    [.pointer (.user 0 [])], by rfl, by rfl, by decide, by decide, by simp,
    fun _ _ => C73_unnoticed (by simp [MentionsAny, Mentions])⟩

/-! ## Cases -/

/-- The same compiler with C++17. -/
def gccCpp17 : Macros Name
  | .cplusplus => some (.obj [.num 201703])
  | .libThreeWay | .cppConcepts | .libConcepts => none
  | x => gccCpp20 x

theorem gccCpp17_clean : Clean gccCpp17 := by
  intro n h
  cases n <;> simp [Internal] at h <;> rfl

/-- With the setting. -/
def gccSeparate : Macros Name
  | .ubTricks => some (.obj [])
  | x => gccCpp20 x

theorem gccSeparate_clean : Clean gccSeparate := by
  intro n h
  cases n <;> simp [Internal] at h <;> rfl

example : ¬ OneDefinition ((optionalH 100301).run spell ⟨gccCpp20, [], false⟩).out
    ((optionalH 100301).run spell ⟨gccCpp17, [], false⟩).out :=
  fun h => (C73_concepts gccCpp20_clean gccCpp17_clean (by decide +kernel) (by decide +kernel) (by decide +kernel) (by decide +kernel)).1
    (h _)

example : ¬ OneDefinition ((optionalH 100301).run spell ⟨gccCpp20, [], false⟩).out
    ((optionalH 100301).run spell ⟨gccSeparate, [], false⟩).out :=
  fun h => C73_primary gccCpp20_clean gccSeparate_clean (by decide +kernel) (h _)

/-- Two settings, two versions, and definitions in both of them. -/
example : SameDefinition ((optionalH 100301).run spell ⟨gccCpp20, [], false⟩).out
    ((optionalH 100302).run spell ⟨gccSeparate, [], false⟩).out .optional ∧
    definition ((optionalH 100301).run spell ⟨gccCpp20, [], false⟩).out .optional (some "tiny100301_bit_mem".toList) ≠ [] :=
  ⟨C73_partial 100301 100302 gccCpp20_clean gccSeparate_clean (by decide +kernel) (by decide +kernel) (by decide +kernel) (by simp),
    by decide +kernel⟩

example := C72_archCheck 100301 gccCpp20_clean (by decide +kernel) (exProg (settingsOf gccCpp20)) rfl

/-- The architecture may be known by another macro. -/
def gccOtherMacro : Macros Name
  | .x86_64 => none
  | .mX64 => some (.obj [.num 100])
  | x => gccCpp20 x

example := C73_same 100301 gccCpp20_clean (env' := gccOtherMacro)
  (by
    intro n h
    cases n <;> simp [Internal] at h <;> rfl)
  (by decide +kernel) (by decide +kernel) (by decide +kernel) (by decide +kernel) (by decide +kernel) (by decide +kernel) (by decide +kernel)

/-- `void f(int*)` -/
example := C73_unnoticed (v := 100301) (v' := 100302) (s := exSettings) (s' := ⟨true, false, false, .x64⟩) (params := [.pointer (.user 1 [])])
  (by simp [MentionsAny, Mentions])

/-- `void f(tiny::optional<bool>*)` -/
example : mangleAll (inlineNamespace 100301 exSettings) [.pointer (.library 0 [.user 1 []])] ≠
    mangleAll (inlineNamespace 100301 ⟨true, false, false, .x64⟩) [.pointer (.library 0 [.user 1 []])] :=
  C73_linker (by decide +kernel) (by simp [MentionsAny, Mentions])

example : flagManipulator (withSettings (exProg exSettings) exSettings) Kind.bool.plain ≠
    flagManipulator (withSettings (exProg exSettings) ⟨true, false, false, .x64⟩) Kind.bool.plain :=
  C73_bool (by rfl) rfl rfl rfl

end Verif.Props
