import Verif.Lemmas.Headers

/-!
# The text of `optional.h` after preprocessing
-/

namespace Verif.Lemmas.Headers
open Verif.Spec Verif.Spec.Headers Verif.Model Verif.Model.Pre

section
variable {v : Nat} {env e : Macros Name}

theorem eval_unusedBits (he : LibEnv v env e) : (e .unusedBits).isSome = (settingsOf env).noBits := by
  rw [he _ (by simp) (by simp)]; exact has_unusedBits v env

theorem eval_member (he : LibEnv v env e) : (e .member).isSome = (settingsOf env).noMem := by
  rw [he _ (by simp) (by simp)]; exact has_member v env

theorem eval_x64 (he : LibEnv v env e) : (e .x64).isSome = decide (archOf env = .x64) := by
  rw [he _ (by simp) (by simp)]
  by_cases h : archOf env = .x64 <;> simp [macroEnv, h]

theorem eval_x86 (he : LibEnv v env e) : (e .x86).isSome = decide (archOf env = .x86) := by
  rw [he _ (by simp) (by simp)]
  by_cases h : archOf env = .x86 <;> simp [macroEnv, h]

theorem eval_threeway (he : LibEnv v env e) : (e .threeway).isSome = threewayOf env := by
  rw [he _ (by simp) (by simp)]
  cases h : threewayOf env <;> simp [macroEnv, h]

theorem eval_workaround (he : LibEnv v env e) : (e .workaround).isSome = (threewayOf env && isGcc env) := by
  rw [he _ (by simp) (by simp)]
  cases h : threewayOf env <;> cases h' : isGcc env <;> simp [macroEnv, h, h']

theorem eval_orElse (he : LibEnv v env e) : (e .orElse).isSome = conceptsOf env := by
  rw [he _ (by simp) (by simp)]
  cases h : conceptsOf env <;> simp [macroEnv, h]

theorem eval_gnug (he : LibEnv v env e) : (e .gnug).isSome = has env .gnug := by
  rw [he _ (by simp) (by simp)]; rfl

theorem eval_clang (he : LibEnv v env e) : (e .clang).isSome = has env .clang := by
  rw [he _ (by simp) (by simp)]; rfl

theorem num_gnuc (he : LibEnv v env e) : e.num .gnuc = env.num .gnuc := by
  unfold Macros.num
  rw [he _ (by simp) (by simp)]; rfl

/-- The piece is there. -/
def present (env : Macros Name) : Piece → Bool
  | .bitSentinels | .pointerSentinelSize | .bitsKnown => !(settingsOf env).noBits
  | .bitsUnknown => (settingsOf env).noBits
  | .pointerSentinel64 => !(settingsOf env).noBits && decide (archOf env = .x64)
  | .pointerSentinel32 => !(settingsOf env).noBits && decide (archOf env = .x86)
  | .viaMember | .memberDecomposition _ => !(settingsOf env).noMem
  | .separateDecomposition _ => (settingsOf env).noMem
  | .copyableNoCv => has env .gnug && !has env .clang && decide (env.num .gnuc ≤ 9)
  | .copyable => !(has env .gnug && !has env .clang && decide (env.num .gnuc ≤ 9))
  | .implOrElse | .optionalOrElse => conceptsOf env
  | .withNullopt _ => !threewayOf env || isGcc env
  | .spaceship | .spaceshipEnd => threewayOf env
  | .spaceshipGcc => threewayOf env && isGcc env
  | _ => true

theorem present_iff (env : Macros Name) (p : Piece) : present env p = true ↔ Present env p := by
  cases p <;> simp [present, Present] <;> grind

/-- Parts of a text with all branches of the conditionals. -/
inductive Part where
  | begin | close
  | piece (p : Piece)
deriving DecidableEq

def Part.toks (v : Nat) (env : Macros Name) : Part → List (Tok Name)
  | .begin => [.id .inlineNamespace, .pasted (Verif.Model.inlineNamespace v (settingsOf env)), .lbrace]
  | .close => [.rbrace]
  | .piece p => if present env p then [.id (.piece p)] else []

def toks (v : Nat) (env : Macros Name) (l : List Part) : List (Tok Name) := l.flatMap (Part.toks v env)

def first : List Part := [.begin, .piece .basics, .close, .piece .primaryManip, .begin, .piece .sentinelManip, .close]

def second : List Part := [.begin, .piece .helpers, .piece .bitSentinels, .piece .pointerSentinel64, .piece .pointerSentinel32,
  .piece .pointerSentinelSize, .piece .storages, .piece .viaMember, .piece .manipulators, .piece .copyableNoCv, .piece .copyable,
  .piece .manipulatorsEnd, .close, .begin, .piece .bitsKnown, .piece .bitsUnknown, .close, .piece .bitsManip, .begin,
  .piece .hasCustom, .close]

def third : List Part := [.begin, .piece .impl, .piece .implOrElse, .piece .implEnd, .close,
  .begin, .piece (.select 0), .piece (.memberDecomposition 0), .piece (.separateDecomposition 0),
  .piece (.select 1), .piece (.memberDecomposition 1), .piece (.separateDecomposition 1),
  .piece (.select 2), .piece (.memberDecomposition 2), .piece (.separateDecomposition 2),
  .piece (.select 3), .piece (.memberDecomposition 3), .piece (.separateDecomposition 3), .piece (.select 4), .close,
  .begin, .piece .viaType, .close]

def fourth : List Part := [.begin, .piece .optional, .piece .optionalOrElse, .piece .optionalEnd]

def comparisonParts (op : RelOp) : List Part := [.piece (.between op), .piece (.withNullopt op), .piece (.withValue op)]

def fifth : List Part := comparisonParts .eq ++ comparisonParts .ne ++ comparisonParts .lt ++ comparisonParts .le ++
  comparisonParts .gt ++ comparisonParts .ge ++
  [.piece .spaceship, .piece .spaceshipGcc, .piece .spaceshipEnd, .close, .piece .hash]

variable (hc : CleanBut env) (he : LibEnv v env e)
include hc he

theorem emits_first : emits e firstPart = toks v env first := by
  simp [firstPart, Dir.block, nsBegin, nsEnd, piece, emits, expand_piece hc he, expand_nsBegin hc he, expand_nsEnd he, toks, first,
    Part.toks, present]

theorem emits_second : emits e secondPart = toks v env second := by
  cases h1 : (settingsOf env).noBits <;> cases h2 : (settingsOf env).noMem <;> cases h3 : archOf env <;>
    cases h4 : (has env .gnug && !has env .clang && decide (env.num .gnuc ≤ 9)) <;>
  simp [secondPart, Dir.block, nsBegin, nsEnd, piece, emits, expand_piece hc he, expand_nsBegin hc he, expand_nsEnd he,
    bitsPartText, memberPartText, copyableText, archError, ifdef, ifndef, Cond.eval, eval_unusedBits he, eval_member he, eval_x64 he,
    eval_x86 he, eval_gnug he, eval_clang he, num_gnuc he, h1, h2, h3, h4, toks, second, Part.toks, present]

theorem emits_third : emits e thirdPart = toks v env third := by
  cases h2 : (settingsOf env).noMem <;> cases h3 : conceptsOf env <;>
  simp [thirdPart, Dir.block, nsBegin, nsEnd, piece, emits, expand_piece hc he, expand_nsBegin hc he, expand_nsEnd he,
    memberChoice, ifdef, ifndef, Cond.eval, eval_member he, eval_orElse he, h2, h3, toks, third, Part.toks, present]

theorem emits_fourth : emits e fourthPart = toks v env fourth := by
  cases h3 : conceptsOf env <;>
  simp [fourthPart, Dir.block, nsBegin, piece, emits, expand_piece hc he, expand_nsBegin hc he,
    ifdef, Cond.eval, eval_orElse he, h3, toks, fourth, Part.toks, present]

theorem emits_fifth : emits e fifthPart = toks v env fifth := by
  cases h2 : threewayOf env <;> cases h3 : isGcc env <;>
  simp [fifthPart, comparison, spaceshipText, Dir.block, nsEnd, piece, emits, expand_piece hc he, expand_nsEnd he,
    ifdef, Cond.eval, eval_threeway he, eval_workaround he, h2, h3, toks, fifth, comparisonParts, Part.toks, present]

theorem fails_first : fails e firstPart = false := by
  simp [firstPart, Dir.block, nsBegin, nsEnd, piece, fails, expand_piece hc he, expand_nsBegin hc he, expand_nsEnd he]

theorem fails_second : fails e secondPart =
    decide (archOf env = .other ∧ ¬ ((settingsOf env).noBits = true ∧ (settingsOf env).noMem = true)) := by
  cases h1 : (settingsOf env).noBits <;> cases h2 : (settingsOf env).noMem <;> cases h3 : archOf env <;>
  simp [secondPart, Dir.block, nsBegin, nsEnd, piece, fails, expand_piece hc he, expand_nsBegin hc he, expand_nsEnd he,
    bitsPartText, memberPartText, copyableText, archError, ifdef, ifndef, Cond.eval, eval_unusedBits he, eval_member he, eval_x64 he,
    eval_x86 he, h1, h2, h3]

theorem fails_third : fails e thirdPart = false := by
  simp [thirdPart, Dir.block, nsBegin, nsEnd, piece, fails, expand_piece hc he, expand_nsBegin hc he, expand_nsEnd he,
    memberChoice, ifdef, ifndef]

theorem fails_fourth : fails e fourthPart = false := by
  simp [fourthPart, Dir.block, nsBegin, piece, fails, expand_piece hc he, expand_nsBegin hc he, ifdef]

theorem fails_fifth : fails e fifthPart = false := by
  simp [fifthPart, comparison, spaceshipText, Dir.block, nsEnd, piece, fails, expand_piece hc he, expand_nsEnd he, ifdef]

end

/-- The text of the header apart from the declaration. -/
def core (v : Nat) (env : Macros Name) : List (Tok Name) := toks v env (first ++ second ++ third ++ fourth ++ fifth)

/-- The declaration, if it has not been seen. -/
def decl (env : Macros Name) : List (Tok Name) := if has env .declared then [] else [.id (.piece .declareManip)]

instance (env : Macros Name) : Decidable (Rejected env) := inferInstanceAs (Decidable (_ ∨ _))

/-- The macros after the header. -/
def envAfter (v : Nat) (env : Macros Name) : Macros Name
  | .declared => if has env .declared then env .declared else some (.obj [])
  | .compareMacro => some (.fn [])
  | n => macroEnv v env n

theorem run_optionalH {v : Nat} {s : PP Name} (hc : CleanBut s.env) :
    (optionalH v).run spell s =
      ⟨envAfter v s.env, s.out ++ decl s.env ++ core v s.env, s.failed || decide (Rejected s.env)⟩ := by
  obtain ⟨env, out, f⟩ := s
  simp only at *
  have hd : macroEnv v env .declared = env .declared := rfl
  obtain ⟨e1, r1, h1⟩ : ∃ e, declaration.run spell ⟨macroEnv v env, out, f || decide (TooOld env)⟩ =
      ⟨e, out ++ decl env, f || decide (TooOld env)⟩ ∧
      ∀ x, e x = if x = .declared ∧ has env .declared = false then some (.obj []) else macroEnv v env x := by
    cases h : env .declared with
    | none =>
      refine ⟨fun x => if x = .declared then some (.obj []) else macroEnv v env x, ?_, ?_⟩
      · have hl : LibEnv v env (fun x => if x = .declared then some (.obj []) else macroEnv v env x) := fun x a _ => by simp [a]
        have := expand_piece hc hl .declareManip
        simp [declaration, ifndef, Dir.run, Cond.eval, hd, h, flag, decl, has, piece, this]
      · intro x; simp [has, h]
    | some m =>
      refine ⟨macroEnv v env, ?_, ?_⟩
      · simp [declaration, ifndef, Dir.run, Cond.eval, hd, h, decl, has]
      · intro x; simp [has, h]
  have l1 : LibEnv v env e1 := fun x a _ => by rw [h1, if_neg (fun h => a h.1)]
  have hcm : e1 .compareMacro = none := by
    rw [h1, if_neg (by simp)]; exact hc _ rfl (by simp)
  have nd : NoDef firstPart ∧ NoDef secondPart ∧ NoDef thirdPart ∧ NoDef fourthPart ∧ NoDef fifthPart := by
    simp [firstPart, secondPart, thirdPart, fourthPart, fifthPart, Dir.block, NoDef, nsBegin, nsEnd, piece, ifdef, ifndef, comparison,
      spaceshipText, memberChoice, bitsPartText, memberPartText, copyableText, archError]
  obtain ⟨n1, n2, n3, n4, n5⟩ := nd
  have l2 : LibEnv v env (fun x => if x = .compareMacro then some (.fn []) else e1 x) := fun x a b => by
    simp only [b, if_false]; exact l1 x a b
  simp only [optionalH, Dir.block, List.foldr]
  rw [Dir.run, run_macroPart hc, Dir.run, r1, Dir.run, run_noDef n1, Dir.run, run_noDef n2, Dir.run, run_noDef n3, Dir.run,
    run_noDef n4, Dir.run, run_define hcm, Dir.run, run_noDef n5, Dir.run]
  simp only [emits_first hc l1, emits_second hc l1, emits_third hc l1, emits_fourth hc l1, emits_fifth hc l2, fails_first hc l1,
    fails_second hc l1, fails_third hc l1, fails_fourth hc l1, fails_fifth hc l2, PP.mk.injEq]
  refine ⟨?_, ?_, ?_⟩
  · funext x
    by_cases hx : x = .compareMacro
    · subst hx; simp [envAfter]
    · rw [if_neg hx, h1]
      by_cases hx' : x = .declared
      · subst hx'
        cases h : env .declared <;> simp [envAfter, has, h, hd]
      · rw [if_neg (fun h => hx' h.1)]
        unfold envAfter
        split <;> simp_all
  · simp [core, toks]
  · simp only [Bool.or_false, Bool.or_assoc]
    congr 1
    rw [Bool.eq_iff_iff]
    simp [Rejected]

theorem mem_toks_piece {v : Nat} {env : Macros Name} {l : List Part} {p : Piece} :
    .id (.piece p) ∈ toks v env l ↔ .piece p ∈ l ∧ present env p = true := by
  induction l with
  | nil => simp [toks]
  | cons a l ih =>
    have e : toks v env (a :: l) = a.toks v env ++ toks v env l := by simp [toks]
    rw [e, List.mem_append, ih]
    cases a with
    | begin => simp [Part.toks]
    | close => simp [Part.toks]
    | piece q =>
      simp only [Part.toks, List.mem_cons, Part.piece.injEq]
      by_cases h : present env q = true
      · simp only [h, if_true, List.mem_singleton, Tok.id.injEq, Name.piece.injEq]; grind
      · simp only [h, Bool.false_eq_true, if_false, List.not_mem_nil, false_or]; grind

theorem mem_toks_pasted {v : Nat} {env : Macros Name} {l : List Part} {cs : List Char} :
    .pasted cs ∈ toks v env l ↔ .begin ∈ l ∧ cs = inlineNamespace v (settingsOf env) := by
  induction l with
  | nil => simp [toks]
  | cons a l ih =>
    have e : toks v env (a :: l) = a.toks v env ++ toks v env l := by simp [toks]
    rw [e, List.mem_append, ih]
    cases a with
    | begin => simp [Part.toks]
    | close => simp [Part.toks]
    | piece q =>
      by_cases h : present env q = true <;> simp [Part.toks, h]

/-- All parts of the header. -/
def allParts : List Part := first ++ second ++ third ++ fourth ++ fifth

theorem mem_allParts (p : Piece) : .piece p ∈ allParts ↔ p ≠ .declareManip := by
  cases p with
  | select k => revert k; decide
  | memberDecomposition k => revert k; decide
  | separateDecomposition k => revert k; decide
  | between op => cases op <;> decide
  | withNullopt op => cases op <;> decide
  | withValue op => cases op <;> decide
  | _ => decide

/-- Pieces with the information whether they are inside of the namespace. -/
def inside : Bool → List Part → List (Piece × Bool)
  | _, [] => []
  | _, .begin :: l => inside true l
  | _, .close :: l => inside false l
  | b, .piece p :: l => (p, b) :: inside b l

theorem placed_toks {v : Nat} {env : Macros Name} {l : List Part} {b : Bool} {p : Piece} {sc : Option (List Char)}
    (h : (p, sc) ∈ placed (if b then some (inlineNamespace v (settingsOf env)) else none) (toks v env l)) :
    ∃ b', (p, b') ∈ inside b l ∧ sc = if b' then some (inlineNamespace v (settingsOf env)) else none := by
  induction l generalizing b with
  | nil => simp [toks, placed] at h
  | cons a l ih =>
    have e : toks v env (a :: l) = a.toks v env ++ toks v env l := by simp [toks]
    rw [e] at h
    cases a with
    | begin => exact ih (b := true) (by simpa [Part.toks, placed] using h)
    | close => exact ih (b := false) (by simpa [Part.toks, placed] using h)
    | piece q =>
      by_cases hq : present env q = true
      · simp only [Part.toks, hq, if_true, List.cons_append, List.nil_append, placed, List.mem_cons, Prod.mk.injEq] at h
        rcases h with ⟨rfl, rfl⟩ | h
        · exact ⟨b, by simp [inside], rfl⟩
        · obtain ⟨b', h1, h2⟩ := ih h
          exact ⟨b', by simp [inside, h1], h2⟩
      · simp only [Part.toks, hq, Bool.false_eq_true, if_false, List.nil_append] at h
        obtain ⟨b', h1, h2⟩ := ih h
        exact ⟨b', by simp [inside, h1], h2⟩

theorem inside_allParts : ∀ x ∈ inside false allParts, x.2 = !Outside x.1 := by decide

theorem count_toks {v : Nat} {env : Macros Name} (l : List Part) (p : Piece) :
    (toks v env l).count (.id (.piece p)) ≤ ((inside false l).map Prod.fst).count p := by
  suffices h : ∀ b, (toks v env l).count (.id (.piece p)) ≤ ((inside b l).map Prod.fst).count p from h false
  induction l with
  | nil => simp [toks]
  | cons a l ih =>
    intro b
    have e : toks v env (a :: l) = a.toks v env ++ toks v env l := by simp [toks]
    rw [e, List.count_append]
    cases a with
    | begin => simpa [Part.toks, inside, List.count_cons] using ih true
    | close => simpa [Part.toks, inside, List.count_cons] using ih false
    | piece q =>
      have := ih b
      by_cases hq : present env q = true
      · simp only [Part.toks, hq, if_true, inside, List.map_cons, List.count_cons, List.count_nil, beq_iff_eq, Tok.id.injEq,
          Name.piece.injEq]
        omega
      · simp only [Part.toks, hq, Bool.false_eq_true, if_false, List.count_nil, inside, List.map_cons, List.count_cons]
        omega

theorem nodup_allParts : ((inside false allParts).map Prod.fst).Nodup := by decide

theorem count_core (v : Nat) (env : Macros Name) (p : Piece) : (core v env).count (.id (.piece p)) ≤ 1 :=
  Nat.le_trans (count_toks allParts p) (List.nodup_iff_count.mp nodup_allParts p)

theorem count_declare_core (v : Nat) (env : Macros Name) : (core v env).count (.id (.piece .declareManip)) = 0 := by
  rw [List.count_eq_zero]
  intro h
  exact absurd ((mem_allParts _).mp (mem_toks_piece.mp h).1) (by simp)

end Verif.Lemmas.Headers
