import Verif.Spec.Headers

/-!
# Lemmas about preprocessing the headers
-/

namespace Verif.Lemmas.Headers
open Verif.Spec Verif.Spec.Headers Verif.Model Verif.Model.Pre

/-- The text has no definitions of macros. -/
def NoDef : Dir Name → Prop
  | .define _ _ | .undef _ => False
  | .seq a b => NoDef a ∧ NoDef b
  | .cond _ t e => NoDef t ∧ NoDef e
  | _ => True

/-- What a text without definitions contributes to the output. -/
def emits (env : Macros Name) : Dir Name → List (Tok Name)
  | .seq a b => emits env a ++ emits env b
  | .text ts => (expand spell env expandSteps (ts.map (·, []))).getD []
  | .cond c t e => if c.eval env then emits env t else emits env e
  | _ => []

/-- Does a text without definitions fail? -/
def fails (env : Macros Name) : Dir Name → Bool
  | .seq a b => fails env a || fails env b
  | .text ts => (expand spell env expandSteps (ts.map (·, []))).isNone
  | .cond c t e => if c.eval env then fails env t else fails env e
  | .error => true
  | _ => false

theorem run_noDef {d : Dir Name} (h : NoDef d) (s : PP Name) :
    d.run spell s = ⟨s.env, s.out ++ emits s.env d, s.failed || fails s.env d⟩ := by
  induction d generalizing s with
  | nothing => simp [Dir.run, emits, fails]
  | seq a b iha ihb =>
    simp only [Dir.run, iha h.1, ihb h.2, emits, fails, List.append_assoc, Bool.or_assoc]
  | define => exact h.elim
  | undef => exact h.elim
  | error => simp [Dir.run, emits, fails]
  | text ts =>
    simp only [Dir.run, emits, fails]
    cases expand spell s.env expandSteps (ts.map (·, [])) <;> simp
  | cond c t e iht ihe =>
    simp only [Dir.run, emits, fails]
    split
    · exact iht h.1 s
    · exact ihe h.2 s

/-- Names that a text may define or undefine. -/
def defs : Dir Name → List Name
  | .define n _ | .undef n => [n]
  | .seq a b => defs a ++ defs b
  | .cond _ t e => defs t ++ defs e
  | _ => []

theorem run_env {d : Dir Name} {n : Name} (h : n ∉ defs d) (s : PP Name) : (d.run spell s).env n = s.env n := by
  induction d generalizing s with
  | nothing => rfl
  | seq a b iha ihb =>
    simp only [defs, List.mem_append, not_or] at h
    simp only [Dir.run]
    rw [ihb h.2, iha h.1]
  | define m v =>
    simp only [defs, List.mem_singleton] at h
    simp only [Dir.run]
    cases s.env m with
    | none => simp [h]
    | some m' => by_cases he : m' = v <;> simp [he]
  | undef m =>
    simp only [defs, List.mem_singleton] at h
    simp [Dir.run, h]
  | error => rfl
  | text ts =>
    simp only [Dir.run]
    cases expand spell s.env expandSteps (ts.map (·, [])) <;> rfl
  | cond c t e iht ihe =>
    simp only [defs, List.mem_append, not_or] at h
    simp only [Dir.run]
    split
    · exact iht h.1 s
    · exact ihe h.2 s

/-- Output only grows, and failures stay. -/
theorem run_out (d : Dir Name) (s : PP Name) :
    (∃ l, (d.run spell s).out = s.out ++ l) ∧ (s.failed = true → (d.run spell s).failed = true) := by
  induction d generalizing s with
  | nothing => exact ⟨⟨[], by simp [Dir.run]⟩, id⟩
  | seq a b iha ihb =>
    obtain ⟨⟨l1, h1⟩, f1⟩ := iha s
    obtain ⟨⟨l2, h2⟩, f2⟩ := ihb (a.run spell s)
    exact ⟨⟨l1 ++ l2, by simp [Dir.run, h1, h2]⟩, fun h => f2 (f1 h)⟩
  | define m v =>
    simp only [Dir.run]
    cases s.env m with
    | none => exact ⟨⟨[], by simp⟩, id⟩
    | some m' =>
      by_cases he : m' = v
      · simp only [he, if_true]; exact ⟨⟨[], by simp⟩, id⟩
      · simp only [he, if_false]; exact ⟨⟨[], by simp⟩, fun _ => trivial⟩
  | undef m => exact ⟨⟨[], by simp [Dir.run]⟩, id⟩
  | error => exact ⟨⟨[], by simp [Dir.run]⟩, fun _ => rfl⟩
  | text ts =>
    simp only [Dir.run]
    cases expand spell s.env expandSteps (ts.map (·, [])) with
    | none => exact ⟨⟨[], by simp⟩, fun _ => rfl⟩
    | some l => exact ⟨⟨l, rfl⟩, id⟩
  | cond c t e iht ihe =>
    simp only [Dir.run]
    split
    · exact iht s
    · exact ihe s

/-- The macros after optional.h:55-130. -/
def macroEnv (v : Nat) (env : Macros Name) : Macros Name
  | .version => some (.obj [.num v])
  | .cpp20 => if 202002 ≤ env.num .cplusplus ∨ 202002 ≤ env.num .msvcLang then some (.obj []) else none
  | .x64 => if archOf env = .x64 then some (.obj []) else none
  | .x86 => if archOf env = .x86 then some (.obj []) else none
  | .unusedBits => if has env .ubTricks = true ∧ has env .unusedBits = false then some (.obj []) else env .unusedBits
  | .member => if has env .ubTricks = true ∧ has env .member = false then some (.obj []) else env .member
  | .threeway => if threewayOf env then some (.obj []) else none
  | .workaround => if threewayOf env && isGcc env then some (.obj []) else none
  | .orElse => if conceptsOf env then some (.obj []) else none
  | .bitsPart => some (.obj [.id (if (settingsOf env).noBits then .noBit else .bit)])
  | .memPart => some (.obj [.id (if (settingsOf env).noMem then .noMem else .mem)])
  | .concatImpl => some (.fn [[.tok (.id .tiny), .param 0, .tok (.id .underscore), .param 1, .tok (.id .underscore), .param 2]])
  | .concat => some (.fn [[.tok (.id .concatImpl)], [.tok .lparen], [.param 0], [.tok .comma], [.param 1], [.tok .comma], [.param 2],
      [.tok .rparen]])
  | .nsBegin => some (.obj [.id .inlineNamespace, .id .concat, .lparen, .id .version, .comma, .id .bitsPart, .comma, .id .memPart,
      .rparen, .lbrace])
  | .nsEnd => some (.obj [.rbrace])
  | n => env n

theorem run_flag {n : Name} {s : PP Name} (h : s.env n = none) :
    (flag n).run spell s = { s with env := fun x => if x = n then some (.obj []) else s.env x } := by
  simp [flag, Dir.run, h]

theorem run_define {n : Name} {m : Macro Name} {s : PP Name} (h : s.env n = none) :
    (Dir.define n m).run spell s = { s with env := fun x => if x = n then some m else s.env x } := by
  simp [Dir.run, h]

/-- Conditional `#define` without replacement list. -/
theorem run_condFlag {c : Cond Name} {n : Name} {s : PP Name} (h : s.env n = none) :
    (Dir.cond c (flag n) .nothing).run spell s =
      { s with env := fun x => if x = n ∧ c.eval s.env = true then some (.obj []) else s.env x } := by
  simp only [Dir.run]
  split
  · next hc => simp [run_flag h, hc]
  · next hc => simp [hc]

theorem run_languageCheck (s : PP Name) :
    languageCheck.run spell s = ⟨s.env, s.out, s.failed || decide (TooOld s.env)⟩ := by
  have h : ∀ n, (s.env n).isSome = false → s.env.num n = 0 := by
    intro n h
    simp only [Option.isSome_eq_false_iff, Option.isNone_iff_eq_none] at h
    simp [Macros.num, h]
  have he : (Cond.and (.or (.not (.defined .cplusplus)) (.lt .cplusplus 201703))
      (.or (.not (.defined .msvcLang)) (.lt .msvcLang 201703))).eval s.env = decide (TooOld s.env) := by
    have h1 := h .cplusplus
    have h2 := h .msvcLang
    rw [Bool.eq_iff_iff]
    simp only [Cond.eval, TooOld, Bool.and_eq_true, Bool.or_eq_true, Bool.not_eq_true', decide_eq_true_eq]
    grind
  unfold languageCheck
  rw [Dir.run, he]
  by_cases ho : TooOld s.env <;> simp [ho, Dir.run]

theorem run_archMacros {s : PP Name} (h1 : s.env .x64 = none) (h2 : s.env .x86 = none) :
    archMacros.run spell s =
      { s with env := fun x => if x = .x64 ∧ archOf s.env = .x64 then some (.obj [])
                               else if x = .x86 ∧ archOf s.env = .x86 then some (.obj []) else s.env x } := by
  cases ha : ((s.env .x86_64).isSome || (s.env .mX64).isSome) <;>
    cases hb : ((s.env .i386).isSome || (s.env .i386__).isSome || (s.env .__i386).isSome || (s.env .mIX86).isSome) <;>
    simp only [archMacros, archOf, Dir.run, Cond.eval, has, ha, hb, run_flag h1, run_flag h2] <;> simp

theorem run_ubTricksMacros (s : PP Name) :
    ubTricksMacros.run spell s =
      { s with env := fun x =>
          if x = .unusedBits ∧ has s.env .ubTricks = true ∧ has s.env .unusedBits = false then some (.obj [])
          else if x = .member ∧ has s.env .ubTricks = true ∧ has s.env .member = false then some (.obj []) else s.env x } := by
  cases hu : s.env .ubTricks with
  | none => simp [ubTricksMacros, ifdef, Dir.run, Cond.eval, has, hu]
  | some u =>
    cases hb : s.env .unusedBits with
    | none =>
      cases hm : s.env .member with
      | none =>
        simp [ubTricksMacros, ifdef, ifndef, Dir.run, Cond.eval, has, hu, hm, flag, hb]
        funext x
        grind
      | some m => simp [ubTricksMacros, ifdef, ifndef, Dir.run, Cond.eval, has, hu, hm, flag, hb]
    | some b =>
      cases hm : s.env .member with
      | none => simp [ubTricksMacros, ifdef, ifndef, Dir.run, Cond.eval, has, hu, hm, flag, hb]
      | some m => simp [ubTricksMacros, ifdef, ifndef, Dir.run, Cond.eval, has, hu, hm, hb]

theorem run_threewayMacros {s : PP Name} (h1 : s.env .threeway = none) (h2 : s.env .workaround = none) :
    threewayMacros.run spell s =
      { s with env := fun x => if x = .workaround ∧ (threewayOf s.env && isGcc s.env) = true then some (.obj [])
                               else if x = .threeway ∧ threewayOf s.env = true then some (.obj []) else s.env x } := by
  cases h : (s.env .libThreeWay).isSome <;>
    cases hc : (s.env .clang).isSome <;> cases hg : (s.env .gnuc).isSome <;> cases hg' : (s.env .gnug).isSome <;>
    simp [threewayMacros, ifdef, Dir.run, Cond.eval, threewayOf, has, isGcc, h, hc, hg, hg', flag, h1, h2]

theorem run_partMacros {s : PP Name} (h1 : s.env .bitsPart = none) (h2 : s.env .memPart = none) :
    partMacros.run spell s =
      { s with env := fun x => if x = .memPart then some (.obj [.id (if has s.env .member then .noMem else .mem)])
                               else if x = .bitsPart then some (.obj [.id (if has s.env .unusedBits then .noBit else .bit)])
                               else s.env x } := by
  unfold partMacros ifdef
  cases hb : (s.env .unusedBits).isSome <;> cases hm : (s.env .member).isSome <;> simp [Dir.run, Cond.eval, has, h1, h2, hb, hm]

theorem run_namespaceMacros {s : PP Name} (h1 : s.env .concatImpl = none) (h2 : s.env .concat = none) (h3 : s.env .nsBegin = none)
    (h4 : s.env .nsEnd = none) :
    namespaceMacros.run spell s =
      { s with env := fun x =>
          if x = .concatImpl ∨ x = .concat ∨ x = .nsBegin ∨ x = .nsEnd then macroEnv 0 s.env x else s.env x } := by
  simp only [namespaceMacros, Dir.block, List.foldr, Dir.run, h1, h2, h3, h4, reduceCtorEq, if_false]
  congr 1
  funext x
  cases x <;> simp [macroEnv]

theorem has_unusedBits (v : Nat) (env : Macros Name) : has (macroEnv v env) .unusedBits = (settingsOf env).noBits := by
  cases h1 : env .ubTricks <;> cases h2 : env .unusedBits <;> simp [macroEnv, settingsOf, Settings.noBits, has, h1, h2]

theorem has_member (v : Nat) (env : Macros Name) : has (macroEnv v env) .member = (settingsOf env).noMem := by
  cases h1 : env .ubTricks <;> cases h2 : env .member <;> simp [macroEnv, settingsOf, Settings.noMem, has, h1, h2]

/-- The names that optional.h:55-130 may define. -/
def macroNames : List Name :=
  [.version, .cpp20, .x64, .x86, .unusedBits, .member, .threeway, .workaround, .orElse, .bitsPart, .memPart, .concatImpl, .concat,
    .nsBegin, .nsEnd]

theorem macroEnv_other (v : Nat) (env : Macros Name) {x : Name} (h : x ∉ macroNames) : macroEnv v env x = env x := by
  cases x <;> first | rfl | exact absurd (by decide) h

/-- The stages of the first part of the header, macro by macro. -/
theorem macroEnv_of {v : Nat} {env e1 e2 e3 e4 e5 e6 e7 e8 : Macros Name}
    (c_cpp20 : env .cpp20 = none) (c_x64 : env .x64 = none) (c_x86 : env .x86 = none) (c_threeway : env .threeway = none)
    (c_workaround : env .workaround = none) (c_orElse : env .orElse = none)
    (h1 : ∀ x, e1 x = if x = .version then some (.obj [.num v]) else env x)
    (h2 : ∀ x, e2 x = if x = .cpp20 ∧ (Cond.or (.and (.defined .cplusplus) (.ge .cplusplus 202002))
      (.and (.defined .msvcLang) (.ge .msvcLang 202002))).eval e1 = true then some (.obj []) else e1 x)
    (h3 : ∀ x, e3 x = if x = .x64 ∧ archOf e2 = .x64 then some (.obj [])
        else if x = .x86 ∧ archOf e2 = .x86 then some (.obj []) else e2 x)
    (h4 : ∀ x, e4 x = if x = .unusedBits ∧ has e3 .ubTricks = true ∧ has e3 .unusedBits = false then some (.obj [])
          else if x = .member ∧ has e3 .ubTricks = true ∧ has e3 .member = false then some (.obj []) else e3 x)
    (h5 : ∀ x, e5 x = if x = .workaround ∧ (threewayOf e4 && isGcc e4) = true then some (.obj [])
        else if x = .threeway ∧ threewayOf e4 = true then some (.obj []) else e4 x)
    (h6 : ∀ x, e6 x = if x = .orElse ∧ (Cond.and (.defined .cppConcepts) (.defined .libConcepts)).eval e5 = true
        then some (.obj []) else e5 x)
    (h7 : ∀ x, e7 x = if x = .memPart then some (.obj [.id (if has e6 .member then .noMem else .mem)])
        else if x = .bitsPart then some (.obj [.id (if has e6 .unusedBits then .noBit else .bit)]) else e6 x)
    (h8 : ∀ x, e8 x = if x = .concatImpl ∨ x = .concat ∨ x = .nsBegin ∨ x = .nsEnd then macroEnv 0 e7 x else e7 x) :
    e8 = macroEnv v env := by
  have k1 : ∀ x, x ≠ .version → e1 x = env x := fun x hx => by rw [h1, if_neg hx]
  have k2 : ∀ x, x ≠ .version → x ≠ .cpp20 → e2 x = env x := fun x hx hy => by rw [h2, if_neg (fun h => hy h.1), k1 x hx]
  have k3 : ∀ x, x ≠ .version → x ≠ .cpp20 → x ≠ .x64 → x ≠ .x86 → e3 x = env x := fun x a b c d => by
    rw [h3, if_neg (fun h => c h.1), if_neg (fun h => d h.1), k2 x a b]
  have k4 : ∀ x, x ≠ .version → x ≠ .cpp20 → x ≠ .x64 → x ≠ .x86 → x ≠ .unusedBits → x ≠ .member → e4 x = env x :=
    fun x a b c d e f => by rw [h4, if_neg (fun h => e h.1), if_neg (fun h => f h.1), k3 x a b c d]
  have k5 : ∀ x, x ≠ .version → x ≠ .cpp20 → x ≠ .x64 → x ≠ .x86 → x ≠ .unusedBits → x ≠ .member → x ≠ .threeway →
      x ≠ .workaround → e5 x = env x := fun x a b c d e f g h => by
    rw [h5, if_neg (fun h' => h h'.1), if_neg (fun h' => g h'.1), k4 x a b c d e f]
  have a2 : archOf e2 = archOf env := by simp [archOf, has, k2]
  have t4 : threewayOf e4 = threewayOf env := by simp [threewayOf, has, k4]
  have g4 : isGcc e4 = isGcc env := by simp [isGcc, has, k4]
  have hb : e6 .unusedBits = macroEnv v env .unusedBits := by
    rw [h6, if_neg (by simp), h5, if_neg (by simp), if_neg (by simp), h4]
    simp [has, k3, macroEnv]
  have hm : e6 .member = macroEnv v env .member := by
    rw [h6, if_neg (by simp), h5, if_neg (by simp), if_neg (by simp), h4]
    simp [has, k3, macroEnv]
  have hb' : has e6 .unusedBits = (settingsOf env).noBits := by
    rw [← has_unusedBits v, has, hb, has]
  have hm' : has e6 .member = (settingsOf env).noMem := by
    rw [← has_member v, has, hm, has]
  have k8 : ∀ x, ¬ (x = .concatImpl ∨ x = .concat ∨ x = .nsBegin ∨ x = .nsEnd) → x ≠ .memPart → x ≠ .bitsPart → e8 x = e6 x :=
    fun x a b c => by rw [h8, if_neg a, h7, if_neg b, if_neg c]
  have k6 : ∀ x, x ≠ .orElse → e6 x = e5 x := fun x a => by rw [h6, if_neg (fun h => a h.1)]
  have k5' : ∀ x, x ≠ .threeway → x ≠ .workaround → e5 x = e4 x := fun x g h => by
    rw [h5, if_neg (fun h' => h h'.1), if_neg (fun h' => g h'.1)]
  have k4' : ∀ x, x ≠ .unusedBits → x ≠ .member → e4 x = e3 x := fun x e f => by
    rw [h4, if_neg (fun h => e h.1), if_neg (fun h => f h.1)]
  have k3' : ∀ x, x ≠ .x64 → x ≠ .x86 → e3 x = e2 x := fun x c d => by
    rw [h3, if_neg (fun h => c h.1), if_neg (fun h => d h.1)]
  have hcpp : (Cond.or (.and (.defined .cplusplus) (.ge .cplusplus 202002)) (.and (.defined .msvcLang) (.ge .msvcLang 202002))).eval e1
      = decide (202002 ≤ env.num .cplusplus ∨ 202002 ≤ env.num .msvcLang) := by
    have hn : ∀ n, (env n).isSome = false → env.num n = 0 := by
      intro n h
      simp only [Option.isSome_eq_false_iff, Option.isNone_iff_eq_none] at h
      simp [Macros.num, h]
    have ha := hn .cplusplus
    have hb := hn .msvcLang
    have n1 : e1.num .cplusplus = env.num .cplusplus := by simp [Macros.num, k1]
    have n2 : e1.num .msvcLang = env.num .msvcLang := by simp [Macros.num, k1]
    rw [Bool.eq_iff_iff]
    simp only [Cond.eval, k1 .cplusplus (by simp), k1 .msvcLang (by simp), n1, n2, Bool.and_eq_true, Bool.or_eq_true,
      decide_eq_true_eq]
    grind
  have hor : (Cond.and (.defined .cppConcepts) (.defined .libConcepts)).eval e5 = conceptsOf env := by
    simp [Cond.eval, conceptsOf, has, k5]
  funext x
  by_cases hx : x = .concatImpl ∨ x = .concat ∨ x = .nsBegin ∨ x = .nsEnd
  · rw [h8, if_pos hx]
    rcases hx with rfl | rfl | rfl | rfl <;> rfl
  by_cases hmp : x = .memPart
  · subst hmp
    rw [h8, if_neg hx, h7, if_pos rfl, hm']
    rfl
  by_cases hbp : x = .bitsPart
  · subst hbp
    rw [h8, if_neg hx, h7, if_neg (by simp), if_pos rfl, hb']
    rfl
  rw [k8 x hx hmp hbp]
  by_cases ho : x = .orElse
  · subst ho
    rw [h6, hor, k5 _ (by simp) (by simp) (by simp) (by simp) (by simp) (by simp) (by simp) (by simp), c_orElse]
    simp [macroEnv]
  by_cases hub : x = .unusedBits
  · subst hub; exact hb
  by_cases hme : x = .member
  · subst hme; exact hm
  rw [k6 x ho]
  by_cases hw : x = .workaround
  · subst hw
    rw [h5, t4, g4, k4 _ (by simp) (by simp) (by simp) (by simp) (by simp) (by simp), c_workaround]
    simp [macroEnv]
  by_cases ht : x = .threeway
  · subst ht
    rw [h5, if_neg (by simp), t4, k4 _ (by simp) (by simp) (by simp) (by simp) (by simp) (by simp), c_threeway]
    simp [macroEnv]
  rw [k5' x ht hw, k4' x hub hme]
  by_cases h64 : x = .x64
  · subst h64
    rw [h3, a2, k2 _ (by simp) (by simp), c_x64]
    simp [macroEnv]
  by_cases h86 : x = .x86
  · subst h86
    rw [h3, a2, k2 _ (by simp) (by simp), c_x86]
    simp [macroEnv]
  rw [k3' x h64 h86]
  by_cases hc : x = .cpp20
  · subst hc
    rw [h2, hcpp, k1 _ (by simp), c_cpp20]
    simp [macroEnv]
  by_cases hv : x = .version
  · subst hv
    rw [h2, if_neg (by simp), h1]
    simp [macroEnv]
  rw [k2 x hv hc]
  rw [macroEnv_other]
  simp only [not_or] at hx
  simp [macroNames, *]

/-- Except for the declaration and the macro for the comparisons, no internal name is a macro. -/
def CleanBut (env : Macros Name) : Prop := ∀ n, Internal n = true → n ≠ .declared → env n = none

theorem clean_but {env : Macros Name} (h : Clean env) : CleanBut env := fun n a _ => h n a

theorem run_macroPart {v : Nat} {s : PP Name} (hc : CleanBut s.env) :
    (macroPart v).run spell s = ⟨macroEnv v s.env, s.out, s.failed || decide (TooOld s.env)⟩ := by
  have c_version : s.env .version = none := hc _ rfl (by simp)
  have c_cpp20 : s.env .cpp20 = none := hc _ rfl (by simp)
  have c_x64 : s.env .x64 = none := hc _ rfl (by simp)
  have c_x86 : s.env .x86 = none := hc _ rfl (by simp)
  have c_threeway : s.env .threeway = none := hc _ rfl (by simp)
  have c_workaround : s.env .workaround = none := hc _ rfl (by simp)
  have c_orElse : s.env .orElse = none := hc _ rfl (by simp)
  have c_bitsPart : s.env .bitsPart = none := hc _ rfl (by simp)
  have c_memPart : s.env .memPart = none := hc _ rfl (by simp)
  have c_concatImpl : s.env .concatImpl = none := hc _ rfl (by simp)
  have c_concat : s.env .concat = none := hc _ rfl (by simp)
  have c_nsBegin : s.env .nsBegin = none := hc _ rfl (by simp)
  have c_nsEnd : s.env .nsEnd = none := hc _ rfl (by simp)
  obtain ⟨env, out, f⟩ := s
  simp only at *
  obtain ⟨e1, r1, h1⟩ : ∃ e, (Dir.define Name.version (.obj [.num v])).run spell ⟨env, out, f⟩ = ⟨e, out, f⟩ ∧
      ∀ x, e x = if x = .version then some (.obj [.num v]) else env x := ⟨_, run_define c_version, fun _ => rfl⟩
  have r1' := run_languageCheck ⟨e1, out, f⟩
  have ho : TooOld e1 ↔ TooOld env := by simp [TooOld, Macros.num, h1]
  simp only [ho] at r1'
  generalize (f || decide (TooOld env)) = f' at r1' ⊢
  obtain ⟨e2, r2, h2⟩ : ∃ e, cpp20Macro.run spell ⟨e1, out, f'⟩ = ⟨e, out, f'⟩ ∧
      ∀ x, e x = if x = .cpp20 ∧ _ = true then some (.obj []) else e1 x :=
    ⟨_, run_condFlag (by simpa [h1] using c_cpp20), fun _ => rfl⟩
  obtain ⟨e3, r3, h3⟩ : ∃ e, archMacros.run spell ⟨e2, out, f'⟩ = ⟨e, out, f'⟩ ∧
      ∀ x, e x = if x = .x64 ∧ archOf e2 = .x64 then some (.obj [])
        else if x = .x86 ∧ archOf e2 = .x86 then some (.obj []) else e2 x :=
    ⟨_, run_archMacros (by simpa [h1, h2] using c_x64) (by simpa [h1, h2] using c_x86), fun _ => rfl⟩
  obtain ⟨e4, r4, h4⟩ : ∃ e, ubTricksMacros.run spell ⟨e3, out, f'⟩ = ⟨e, out, f'⟩ ∧
      ∀ x, e x = if x = .unusedBits ∧ has e3 .ubTricks = true ∧ has e3 .unusedBits = false then some (.obj [])
          else if x = .member ∧ has e3 .ubTricks = true ∧ has e3 .member = false then some (.obj []) else e3 x :=
    ⟨_, run_ubTricksMacros _, fun _ => rfl⟩
  obtain ⟨e5, r5, h5⟩ : ∃ e, threewayMacros.run spell ⟨e4, out, f'⟩ = ⟨e, out, f'⟩ ∧
      ∀ x, e x = if x = .workaround ∧ (threewayOf e4 && isGcc e4) = true then some (.obj [])
        else if x = .threeway ∧ threewayOf e4 = true then some (.obj []) else e4 x :=
    ⟨_, run_threewayMacros (by simpa [h1, h2, h3, h4] using c_threeway) (by simpa [h1, h2, h3, h4] using c_workaround),
      fun _ => rfl⟩
  obtain ⟨e6, r6, h6⟩ : ∃ e, orElseMacro.run spell ⟨e5, out, f'⟩ = ⟨e, out, f'⟩ ∧
      ∀ x, e x = if x = .orElse ∧ _ = true then some (.obj []) else e5 x :=
    ⟨_, run_condFlag (by simpa [h1, h2, h3, h4, h5] using c_orElse), fun _ => rfl⟩
  obtain ⟨e7, r7, h7⟩ : ∃ e, partMacros.run spell ⟨e6, out, f'⟩ = ⟨e, out, f'⟩ ∧
      ∀ x, e x = if x = .memPart then some (.obj [.id (if has e6 .member then .noMem else .mem)])
        else if x = .bitsPart then some (.obj [.id (if has e6 .unusedBits then .noBit else .bit)]) else e6 x :=
    ⟨_, run_partMacros (by simpa [h1, h2, h3, h4, h5, h6] using c_bitsPart) (by simpa [h1, h2, h3, h4, h5, h6] using c_memPart),
      fun _ => rfl⟩
  obtain ⟨e8, r8, h8⟩ : ∃ e, namespaceMacros.run spell ⟨e7, out, f'⟩ = ⟨e, out, f'⟩ ∧
      ∀ x, e x = if x = .concatImpl ∨ x = .concat ∨ x = .nsBegin ∨ x = .nsEnd then macroEnv 0 e7 x else e7 x :=
    ⟨_, run_namespaceMacros (by simpa [h1, h2, h3, h4, h5, h6, h7] using c_concatImpl)
      (by simpa [h1, h2, h3, h4, h5, h6, h7] using c_concat) (by simpa [h1, h2, h3, h4, h5, h6, h7] using c_nsBegin)
      (by simpa [h1, h2, h3, h4, h5, h6, h7] using c_nsEnd), fun _ => rfl⟩
  have r : (macroPart v).run spell ⟨env, out, f⟩ = ⟨e8, out, f'⟩ := by
    simp only [macroPart, Dir.block, List.foldr]
    rw [Dir.run, r1, Dir.run, r1', Dir.run, r2, Dir.run, r3, Dir.run, r4, Dir.run, r5, Dir.run, r6, Dir.run, r7, Dir.run, r8, Dir.run]
  rw [r]
  congr 1
  exact macroEnv_of c_cpp20 c_x64 c_x86 c_threeway c_workaround c_orElse h1 h2 h3 h4 h5 h6 h7 h8

/-- The macros while the program text of the header is processed. -/
def LibEnv (v : Nat) (env e : Macros Name) : Prop := ∀ x, x ≠ .declared → x ≠ .compareMacro → e x = macroEnv v env x

section
variable {v : Nat} {env e : Macros Name} (hc : CleanBut env) (he : LibEnv v env e)
include hc he

theorem expand_piece (p : Piece) : expand spell e expandSteps [(.id (.piece p), [])] = some [.id (.piece p)] := by
  have : e (.piece p) = none := by rw [he _ (by simp) (by simp)]; exact hc _ rfl (by simp)
  simp [expand, expandSteps, this]

omit hc in
theorem expand_nsEnd : expand spell e expandSteps [(.id .nsEnd, [])] = some [.rbrace] := by
  have : e .nsEnd = some (.obj [.rbrace]) := he _ (by simp) (by simp)
  simp [expand, expandSteps, this]

/-- `TINY_OPTIONAL_INLINE_NS_BEGIN` -/
theorem expand_nsBegin : expand spell e expandSteps [(.id .nsBegin, [])] =
    some [.id .inlineNamespace, .pasted (Verif.Model.inlineNamespace v (settingsOf env)), .lbrace] := by
  have i : ∀ n, Internal n = true → n ≠ .declared → n ∉ macroNames → n ≠ .compareMacro → e n = none := fun n a b c d => by
    rw [he n b d, macroEnv_other _ _ c]; exact hc n a b
  have h1 : e .nsBegin = _ := he _ (by simp) (by simp)
  have h2 : e .concat = _ := he _ (by simp) (by simp)
  have h3 : e .concatImpl = _ := he _ (by simp) (by simp)
  have h4 : e .version = _ := he _ (by simp) (by simp)
  have h5 : e .bitsPart = _ := he _ (by simp) (by simp)
  have h6 : e .memPart = _ := he _ (by simp) (by simp)
  have i1 := i .inlineNamespace rfl (by simp) (by decide) (by simp)
  have i2 := i .bit rfl (by simp) (by decide) (by simp)
  have i3 := i .noBit rfl (by simp) (by decide) (by simp)
  have i4 := i .mem rfl (by simp) (by decide) (by simp)
  have i5 := i .noMem rfl (by simp) (by decide) (by simp)
  simp only [macroEnv] at h1 h2 h3 h4 h5 h6
  cases hb : (settingsOf env).noBits <;> cases hm : (settingsOf env).noMem <;>
    simp [hb, hm] at h5 h6 <;>
    simp [expand, expandSteps, h1, h2, h3, h4, h5, h6, i1, i2, i3, i4, i5, splitArgs, paste, Tok.spelling, spell,
      Verif.Model.inlineNamespace, concatNs, versionToken, unusedBitsNsPart, memberNsPart, hb, hm]

end

end Verif.Lemmas.Headers
