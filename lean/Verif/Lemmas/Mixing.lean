import Verif.Lemmas.HeaderOrder
import Verif.Spec.Mixing

/-!
# Definitions in the preprocessed header
-/

namespace Verif.Lemmas.Headers
open Verif.Spec Verif.Spec.Headers Verif.Model Verif.Model.Pre

/-- The text of the header on its own. -/
theorem out_optionalH {v : Nat} {env : Macros Name} (hc : Clean env) :
    ((optionalH v).run spell ⟨env, [], false⟩).out = .id (.piece .declareManip) :: core v env := by
  have hd : has env .declared = false := by simp [has, hc .declared rfl]
  simp [run_optionalH (s := ⟨env, [], false⟩) (clean_but hc), decl, hd]

theorem placed_toks_eq {v : Nat} {env : Macros Name} {l : List Part} {b : Bool} :
    placed (if b then some (inlineNamespace v (settingsOf env)) else none) (toks v env l) =
      ((inside b l).filter fun x => present env x.1).map fun x =>
        (x.1, if x.2 then some (inlineNamespace v (settingsOf env)) else none) := by
  induction l generalizing b with
  | nil => simp [toks, placed, inside]
  | cons a l ih =>
    cases a with
    | begin =>
      have := ih (b := true)
      simpa [toks, Part.toks, placed, inside] using this
    | close =>
      have := ih (b := false)
      simpa [toks, Part.toks, placed, inside] using this
    | piece p =>
      have := ih (b := b)
      by_cases hp : present env p = true
      · simpa [toks, Part.toks, placed, inside, hp] using this
      · simpa [toks, Part.toks, placed, inside, hp] using this

theorem mem_definition {v : Nat} {env : Macros Name} (hc : Clean env) {e p : Piece} {sc : Option (List Char)} :
    p ∈ definition ((optionalH v).run spell ⟨env, [], false⟩).out e sc ↔
      entity p = e ∧ Present env p ∧ sc = if Outside p then none else some (inlineNamespace v (settingsOf env)) := by
  rw [out_optionalH hc]
  have hp := placed_toks_eq (v := v) (env := env) (l := allParts) (b := false)
  have hin : ∀ q b, (q, b) ∈ inside false allParts ↔ q ≠ .declareManip ∧ b = !Outside q := by
    intro q b
    constructor
    · intro h
      refine ⟨?_, inside_allParts _ h⟩
      rintro rfl
      cases b <;> exact absurd h (by decide)
    · rintro ⟨h1, rfl⟩
      have h2 := (mem_allParts q).mpr h1
      have h3 : ∀ (l : List Part) (b : Bool), .piece q ∈ l → ∃ b', (q, b') ∈ inside b l := by
        intro l
        induction l with
        | nil => simp
        | cons a l ih =>
          intro b h
          cases a with
          | begin => simp only [List.mem_cons, reduceCtorEq, false_or] at h; exact ih true h
          | close => simp only [List.mem_cons, reduceCtorEq, false_or] at h; exact ih false h
          | piece p =>
            simp only [List.mem_cons, Part.piece.injEq] at h
            rcases h with rfl | h
            · exact ⟨b, by simp [inside]⟩
            · obtain ⟨b', hb⟩ := ih b h
              exact ⟨b', by simp [inside, hb]⟩
      obtain ⟨b', hb⟩ := h3 _ false h2
      rw [← inside_allParts _ hb]; exact hb
  simp only [Bool.false_eq_true, if_false] at hp
  simp only [definition, placed, List.mem_flatten, List.mem_map, List.mem_cons, show core v env = toks v env allParts from rfl, hp,
    List.mem_filter]
  constructor
  · rintro ⟨l, ⟨x, hx, rfl⟩, hl⟩
    split at hl
    · rename_i hh
      simp only [List.mem_cons, List.not_mem_nil, or_false] at hl
      subst hl
      refine ⟨hh.1, ?_, ?_⟩
      · rcases hx with rfl | ⟨y, ⟨hy, hpr⟩, rfl⟩
        · trivial
        · exact (present_iff _ _).mp hpr
      · rw [← hh.2]
        rcases hx with rfl | ⟨⟨q, b⟩, ⟨hy, hpr⟩, rfl⟩
        · rfl
        · obtain ⟨_, rfl⟩ := (hin q b).mp hy
          cases Outside q <;> rfl
    · simp at hl
  · rintro ⟨h1, h2, h3⟩
    refine ⟨[p], ⟨(p, sc), ?_, by simp [h1]⟩, by simp⟩
    by_cases hd : p = .declareManip
    · subst hd; simp only [Outside, if_true] at h3; subst h3; exact .inl rfl
    · refine .inr ⟨(p, !Outside p), ⟨(hin _ _).mpr ⟨hd, rfl⟩, (present_iff _ _).mpr h2⟩, ?_⟩
      rw [h3]
      cases Outside p <;> rfl

/-- If the pieces of the entity are the same, so is the definition. -/
theorem definition_congr {v v' : Nat} {env env' : Macros Name} (hc : Clean env) (hc' : Clean env') {e : Piece}
    {sc : Option (List Char)}
    (h : ∀ p, entity p = e → ((Present env p ∧ sc = if Outside p then none else some (inlineNamespace v (settingsOf env))) ↔
      (Present env' p ∧ sc = if Outside p then none else some (inlineNamespace v' (settingsOf env'))))) :
    definition ((optionalH v).run spell ⟨env, [], false⟩).out e sc =
      definition ((optionalH v').run spell ⟨env', [], false⟩).out e sc := by
  rw [out_optionalH hc, out_optionalH hc']
  have hp := placed_toks_eq (v := v) (env := env) (l := allParts) (b := false)
  have hp' := placed_toks_eq (v := v') (env := env') (l := allParts) (b := false)
  simp only [Bool.false_eq_true, if_false] at hp hp'
  simp only [definition, placed, show core v env = toks v env allParts from rfl, show core v' env' = toks v' env' allParts from rfl,
    hp, hp', List.map_cons, List.flatten_cons]
  congr 1
  have key : ∀ l : List (Piece × Bool), (∀ x ∈ l, x.2 = !Outside x.1) →
      (((l.filter fun x => present env x.1).map fun x =>
        (x.1, if x.2 then some (inlineNamespace v (settingsOf env)) else none)).map fun x =>
          if entity x.1 = e ∧ x.2 = sc then [x.1] else []).flatten =
      (((l.filter fun x => present env' x.1).map fun x =>
        (x.1, if x.2 then some (inlineNamespace v' (settingsOf env')) else none)).map fun x =>
          if entity x.1 = e ∧ x.2 = sc then [x.1] else []).flatten := by
    intro l
    induction l with
    | nil => simp
    | cons x l ih =>
      intro hl
      have ih := ih fun y hy => hl y (List.mem_cons_of_mem _ hy)
      obtain ⟨p, b⟩ := x
      have hb : b = !Outside p := hl _ List.mem_cons_self
      have hs : ∀ n : List Char, (if b = true then some n else none) = (if Outside p = true then none else some n) := by
        intro n; subst hb; cases Outside p <;> rfl
      have one : ∀ (ev : Macros Name) (n : List Char) (f : List (Piece × Bool)),
          ((((p, b) :: f).filter fun x => present ev x.1).map fun x =>
            (x.1, if x.2 then some n else none)).map (fun x => if entity x.1 = e ∧ x.2 = sc then [x.1] else []) =
          (if present ev p then [if entity p = e ∧ (if Outside p = true then none else some n) = sc then [p] else []] else []) ++
          ((f.filter fun x => present ev x.1).map fun x =>
            (x.1, if x.2 then some n else none)).map (fun x => if entity x.1 = e ∧ x.2 = sc then [x.1] else []) := by
        intro ev n f
        by_cases hpr : present ev p = true <;> simp [hpr, ← hs]
      rw [one, one, List.flatten_append, List.flatten_append, ih]
      congr 1
      by_cases he : entity p = e
      · have := h p he
        rw [← present_iff, ← present_iff] at this
        grind
      · simp only [he, false_and, if_false]
        split <;> split <;> simp
  exact key _ inside_allParts

mutual
theorem mangle_same (ns ns' : List Char) : ∀ t : SigTy, ¬ Mentions t → mangle ns t = mangle ns' t
  | .library _ _, h => absurd (by simp only [Mentions]) h
  | .user _ args, h => by simp only [Mentions] at h; simp only [mangle, mangleAll_same ns ns' args h]
  | .pointer t, h => by simp only [Mentions] at h; simp only [mangle, mangle_same ns ns' t h]
theorem mangleAll_same (ns ns' : List Char) : ∀ ts : List SigTy, ¬ MentionsAny ts → mangleAll ns ts = mangleAll ns' ts
  | [], _ => by simp only [mangleAll]
  | t :: ts, h => by
    simp only [MentionsAny, not_or] at h
    simp only [mangleAll, mangle_same ns ns' t h.1, mangleAll_same ns ns' ts h.2]
end

mutual
theorem mem_mangle (ns cs : List Char) : ∀ t : SigTy, .ns cs ∈ mangle ns t ↔ cs = ns ∧ Mentions t
  | .library _ args => by
    have := mem_mangleAll ns cs args
    simp only [mangle, Mentions, List.cons_append, List.mem_cons, Sym.ns.injEq, reduceCtorEq, false_or, List.mem_append, this,
      List.not_mem_nil, or_false, and_true]
    exact ⟨fun h => h.elim id And.left, .inl⟩
  | .user _ args => by
    have := mem_mangleAll ns cs args
    simp [mangle, Mentions, this]
  | .pointer t => by
    have := mem_mangle ns cs t
    simp [mangle, Mentions, this]
theorem mem_mangleAll (ns cs : List Char) : ∀ ts : List SigTy, .ns cs ∈ mangleAll ns ts ↔ cs = ns ∧ MentionsAny ts
  | [] => by simp [mangleAll, MentionsAny]
  | t :: ts => by
    have h1 := mem_mangle ns cs t
    have h2 := mem_mangleAll ns cs ts
    simp only [mangleAll, MentionsAny, List.mem_append, h1, h2, ← and_or_left]
end

end Verif.Lemmas.Headers
