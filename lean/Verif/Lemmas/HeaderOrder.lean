import Verif.Lemmas.HeaderText

/-!
# Including the headers in any order
-/

namespace Verif.Lemmas.Headers
open Verif.Spec Verif.Spec.Headers Verif.Model Verif.Model.Pre

/-- Files seen after the lines. -/
def seenAfter : List Nat → List (Line Name) → List Nat
  | seen, [] => seen
  | seen, .dir _ :: rest => seenAfter seen rest
  | seen, .incl f :: rest => if once f = true ∧ f ∈ seen then seenAfter seen rest else seenAfter (f :: seen) rest

theorem preprocess_append (fs : Nat → Dir Name) (a b : List (Line Name)) (seen : List Nat) (s : PP Name) :
    preprocess spell fs once seen (a ++ b) s =
      preprocess spell fs once (seenAfter seen a) b (preprocess spell fs once seen a s) := by
  induction a generalizing seen s with
  | nil => rfl
  | cons l a ih =>
    cases l with
    | dir d => exact ih seen (d.run spell s)
    | incl f =>
      simp only [List.cons_append, preprocess, seenAfter]
      split
      · exact ih seen s
      · exact ih (f :: seen) _

theorem seenAfter_mono {seen : List Nat} {a : List (Line Name)} {f : Nat} (h : f ∈ seen) : f ∈ seenAfter seen a := by
  induction a generalizing seen with
  | nil => exact h
  | cons l a ih =>
    cases l with
    | dir d => exact ih h
    | incl g =>
      simp only [seenAfter]
      split
      · exact ih h
      · exact ih (List.mem_cons_of_mem _ h)

theorem mem_seenAfter {seen : List Nat} {a : List (Line Name)} {f : Nat} : f ∈ seenAfter seen a ↔ f ∈ seen ∨ .incl f ∈ a := by
  induction a generalizing seen with
  | nil => simp [seenAfter]
  | cons l a ih =>
    cases l with
    | dir d => simp [seenAfter, ih]
    | incl g =>
      simp only [seenAfter]
      split
      · next h =>
        rw [ih]
        simp only [List.mem_cons, Line.incl.injEq]
        constructor
        · rintro (h' | h') <;> simp [h']
        · rintro (h' | rfl | h')
          · exact .inl h'
          · exact .inl h.2
          · exact .inr h'
      · rw [ih]
        simp only [List.mem_cons, Line.incl.injEq]
        grind

theorem ownLines_nil : ownLines [] = .nothing := rfl
theorem ownLines_dir (d : Dir Name) (ls : List (Line Name)) : ownLines (.dir d :: ls) = .seq d (ownLines ls) := rfl
theorem ownLines_incl (f : Nat) (ls : List (Line Name)) : ownLines (.incl f :: ls) = ownLines ls := rfl

/-- A line of the user's own, whatever the internal macros are: it treats other macros the same, and adds no text of the library. -/
theorem userDir_sim {d : Dir Name} (hd : UserLine (.dir d)) {s t : PP Name} (hs : ∀ k, s.env (.userSpecialisation k) = none)
    (ht : ∀ k, t.env (.userSpecialisation k) = none) (he : ∀ x, Internal x = false → s.env x = t.env x) :
    (∀ x, Internal x = false → (d.run spell s).env x = (d.run spell t).env x) ∧
    (∀ x, Internal x = true → (d.run spell s).env x = s.env x) ∧
    (∀ x, Internal x = true → (d.run spell t).env x = t.env x) ∧
    (s.failed = t.failed → (d.run spell s).failed = (d.run spell t).failed) ∧
    ∃ l, (d.run spell s).out = s.out ++ l ∧ (∀ x ∈ l, FromLibrary x = false) := by
  cases hd with
  | define m h =>
    next n =>
    have hn := he n h
    have hi : ∀ x, Internal x = true → x ≠ n := by rintro x hx rfl; simp [hx] at h
    simp only [Dir.run, ← hn]
    cases hsn : s.env n with
    | none =>
      refine ⟨fun x hx => by simp [he x hx], fun x hx => by simp [hi x hx], fun x hx => by simp [hi x hx], id, [], by simp, by simp⟩
    | some m' =>
      by_cases hm : m' = m
      · simp only [hm, if_true]
        exact ⟨he, fun _ _ => trivial, fun _ _ => trivial, id, [], by simp, by simp⟩
      · simp only [hm, if_false]
        exact ⟨he, fun _ _ => trivial, fun _ _ => trivial, fun _ => trivial, [], by simp, by simp⟩
  | undef h =>
    next n =>
    have hi : ∀ x, Internal x = true → x ≠ n := by rintro x hx rfl; simp [hx] at h
    simp only [Dir.run]
    exact ⟨fun x hx => by simp [he x hx], fun x hx => by simp [hi x hx], fun x hx => by simp [hi x hx], id, [], by simp, by simp⟩
  | specialise k =>
    have e : ∀ u : PP Name, u.env (.userSpecialisation k) = none →
        (Dir.text [Tok.id (Name.userSpecialisation k)]).run spell u = { u with out := u.out ++ [.id (.userSpecialisation k)] } := by
      intro u hu
      simp [Dir.run, expand, expandSteps, hu]
    rw [e s (hs k), e t (ht k)]
    exact ⟨he, fun _ _ => rfl, fun _ _ => rfl, id, [_], rfl, by simp [FromLibrary]⟩

theorem run_fwdH {s : PP Name} (hp : s.env (.piece .declareManip) = none) :
    fwdH.run spell s = if has s.env .declared then s else
      ⟨fun x => if x = .declared then some (.obj []) else s.env x, s.out ++ [.id (.piece .declareManip)], s.failed⟩ := by
  cases h : s.env .declared with
  | none => simp [fwdH, declaration, ifndef, Dir.run, Cond.eval, h, flag, has, piece, expand, expandSteps, hp]
  | some m => simp [fwdH, declaration, ifndef, Dir.run, Cond.eval, h, has]

/-- Before `optional.h`. -/
theorem preprocess_before {ver : Nat → Nat} {k : Nat} {ls : List (Line Name)} (hu : ∀ l ∈ ls, UserLine l)
    (hf : ∀ f, .incl f ∈ ls → f = 0) {seen : List Nat} {s t : PP Name} (hs : CleanBut s.env)
    (ht : ∀ j, t.env (.userSpecialisation j) = none)
    (he : ∀ x, Internal x = false → s.env x = t.env x) (hfa : s.failed = t.failed) (hk : k + 1 ∉ seen) :
    let r := preprocess spell (files ver) once seen ls s
    let u := (ownLines ls).run spell t
    CleanBut r.env ∧ (∀ x, Internal x = false → r.env x = u.env x) ∧ r.failed = u.failed ∧
    (has r.env .declared = true ↔ has s.env .declared = true ∨ .incl 0 ∈ ls) ∧
    r.out.filter FromLibrary = s.out.filter FromLibrary ++
      (if has s.env .declared = false ∧ .incl 0 ∈ ls then [.id (.piece .declareManip)] else []) := by
  induction ls generalizing seen s t with
  | nil => simp only [preprocess, ownLines_nil, Dir.run]; exact ⟨hs, he, hfa, by simp, by simp⟩
  | cons l ls ih =>
    cases l with
    | dir d =>
      obtain ⟨a, b, c, f, l, hl, hl'⟩ := userDir_sim (hu (.dir d) (by simp)) (fun j => hs _ rfl (by simp)) ht he
      have := ih (fun l hl => hu l (by simp [hl])) (fun f h => hf f (by simp [h])) (seen := seen) (s := d.run spell s)
        (t := d.run spell t) (fun n h h' => by rw [b n h]; exact hs n h h') (fun j => by rw [c _ rfl]; exact ht j) a (f hfa) hk
      simp only [preprocess, ownLines_dir, Dir.run]
      have hdecl : has (d.run spell s).env .declared = has s.env .declared := by unfold has; rw [b _ rfl]
      have hlib : l.filter FromLibrary = [] := by
        rw [List.filter_eq_nil_iff]; intro x hx; simp [hl' x hx]
      simp only [hdecl, hl, List.filter_append, hlib, List.append_nil] at this
      simpa using this
    | incl f =>
      have hf0 : f = 0 := hf f (by simp)
      subst hf0
      have e : preprocess spell (files ver) once seen (.incl 0 :: ls) s =
          preprocess spell (files ver) once (0 :: seen) ls (fwdH.run spell s) := by simp [preprocess, once, files]
      rw [e, ownLines_incl]
      have hp := run_fwdH (s := s) (hs _ rfl (by simp))
      have hk' : k + 1 ∉ 0 :: seen := by simp [hk]
      by_cases hd : has s.env .declared = true
      · rw [hp, if_pos hd]
        have := ih (fun l hl => hu l (by simp [hl])) (fun f h => hf f (by simp [h])) (seen := 0 :: seen) (s := s) (t := t)
          hs ht he hfa hk'
        simpa [hd] using this
      · rw [hp, if_neg hd]
        have := ih (fun l hl => hu l (by simp [hl])) (fun f h => hf f (by simp [h])) (seen := 0 :: seen)
          (s := ⟨fun x => if x = .declared then some (.obj []) else s.env x, s.out ++ [.id (.piece .declareManip)], s.failed⟩) (t := t)
          (fun n h h' => by simp only [h', if_false]; exact hs n h h') ht
          (fun x hx => by
            have : x ≠ .declared := by rintro rfl; simp [Internal] at hx
            simp only [this, if_false]; exact he x hx) hfa hk'
        have h1 : has (fun x => if x = Name.declared then some (Macro.obj []) else s.env x) .declared = true := by simp [has]
        have h2 : (s.out ++ [Tok.id (Name.piece Piece.declareManip)]).filter FromLibrary =
            s.out.filter FromLibrary ++ [Tok.id (Name.piece Piece.declareManip)] := by
          rw [List.filter_append]; rfl
        simp only [h1, h2] at this
        simp only [Bool.not_eq_true] at hd
        obtain ⟨i1, i2, i3, i4, i5⟩ := this
        exact ⟨i1, i2, i3, by simpa [hd] using i4, by simpa [hd] using i5⟩

/-- After `optional.h`. -/
theorem preprocess_after {ver : Nat → Nat} {k : Nat} {ls : List (Line Name)} (hu : ∀ l ∈ ls, UserLine l)
    (hf : ∀ f, .incl f ∈ ls → f = 0 ∨ f = k + 1) {seen : List Nat} {s : PP Name}
    (hs : ∀ j, s.env (.userSpecialisation j) = none) (hp : s.env (.piece .declareManip) = none)
    (hd : has s.env .declared = true) (hk : k + 1 ∈ seen) :
    let r := preprocess spell (files ver) once seen ls s
    r = { (ownLines ls).run spell s with out := r.out } ∧ r.out.filter FromLibrary = s.out.filter FromLibrary := by
  induction ls generalizing seen s with
  | nil => simp [preprocess, ownLines_nil, Dir.run]
  | cons l ls ih =>
    cases l with
    | dir d =>
      obtain ⟨a, b, c, f, l, hl, hl'⟩ := userDir_sim (hu (.dir d) (by simp)) hs hs (fun _ _ => rfl)
      have := ih (fun l hl => hu l (by simp [hl])) (fun f h => hf f (by simp [h])) (seen := seen) (s := d.run spell s)
        (fun j => by rw [b _ rfl]; exact hs j) (by rw [b _ rfl]; exact hp) (by unfold has; rw [b _ rfl]; exact hd) hk
      have hlib : l.filter FromLibrary = [] := by
        rw [List.filter_eq_nil_iff]; intro x hx; simp [hl' x hx]
      simp only [hl, List.filter_append, hlib, List.append_nil] at this
      simpa only [preprocess, ownLines_dir, Dir.run] using this
    | incl f =>
      rcases hf f (by simp) with rfl | rfl
      · have e : preprocess spell (files ver) once seen (.incl 0 :: ls) s =
            preprocess spell (files ver) once (0 :: seen) ls s := by
          simp [preprocess, once, files, run_fwdH hp, hd]
        rw [e, ownLines_incl]
        exact ih (fun l hl => hu l (by simp [hl])) (fun f h => hf f (by simp [h])) hs hp hd (by simp [hk])
      · have e : preprocess spell (files ver) once seen (.incl (k + 1) :: ls) s = preprocess spell (files ver) once seen ls s := by
          simp [preprocess, once, hk]
        rw [e, ownLines_incl]
        exact ih (fun l hl => hu l (by simp [hl])) (fun f h => hf f (by simp [h])) hs hp hd hk

/-- The user's lines leave the internal macros alone. -/
theorem ownLines_internal {ls : List (Line Name)} (hu : ∀ l ∈ ls, UserLine l) {s : PP Name}
    (hs : ∀ j, s.env (.userSpecialisation j) = none) {x : Name} (hx : Internal x = true) :
    ((ownLines ls).run spell s).env x = s.env x := by
  induction ls generalizing s with
  | nil => rfl
  | cons l ls ih =>
    cases l with
    | dir d =>
      obtain ⟨a, b, c, f, _⟩ := userDir_sim (hu (.dir d) (by simp)) hs hs (fun _ _ => rfl)
      rw [ownLines_dir, Dir.run, ih (fun l hl => hu l (by simp [hl])) (fun j => by rw [b _ rfl]; exact hs j), b x hx]
    | incl f =>
      rw [ownLines_incl]
      exact ih (fun l hl => hu l (by simp [hl])) hs

/-- The text so far has its declarations in order. -/
def DeclaredFirst (out : List (Tok Name)) : Prop :=
  ∀ pre t post, out = pre ++ t :: post → NeedsDeclaration t = true → .id (.piece .declareManip) ∈ pre

theorem DeclaredFirst.append {out l : List (Tok Name)} (h : DeclaredFirst out)
    (hl : .id (.piece .declareManip) ∈ out ∨ ∀ t ∈ l, NeedsDeclaration t = false) : DeclaredFirst (out ++ l) := by
  intro pre t post he hn
  rcases List.append_eq_append_iff.mp he with ⟨m, rfl, h2⟩ | ⟨m, rfl, h2⟩
  · rcases hl with hl | hl
    · simp [hl]
    · have := hl t (by simp [h2])
      simp [this] at hn
  · cases m with
    | nil =>
      simp only [List.nil_append] at h2
      rcases hl with hl | hl
      · simpa using hl
      · have := hl t (by simp [← h2])
        simp [this] at hn
    | cons a m =>
      simp only [List.cons_append, List.cons.injEq] at h2
      obtain ⟨rfl, rfl⟩ := h2
      exact h pre t m rfl hn

theorem preprocess_declared {ver : Nat → Nat} {k : Nat} {ls : List (Line Name)} (hu : ∀ l ∈ ls, UserLine l)
    (hf : ∀ f, .incl f ∈ ls → f = 0 ∨ f = k + 1) {seen : List Nat} {s : PP Name}
    (hs : ∀ j, s.env (.userSpecialisation j) = none) (hp : s.env (.piece .declareManip) = none)
    (hd : has s.env .declared = true → .id (.piece .declareManip) ∈ s.out) 
    (hk : (k + 1 ∈ seen ∧ has s.env .declared = true) ∨ (k + 1 ∉ seen ∧ CleanBut s.env))
    (ha : ∀ pre j post, ls = pre ++ .dir (.text [.id (.userSpecialisation j)]) :: post →
      has s.env .declared = true ∨ ∃ f, .incl f ∈ pre)
    (h : DeclaredFirst s.out) : DeclaredFirst (preprocess spell (files ver) once seen ls s).out := by
  induction ls generalizing seen s with
  | nil => exact h
  | cons l ls ih =>
    cases l with
    | dir d =>
      have hud := hu (.dir d) (by simp)
      obtain ⟨a, b, c, f, l, hl, hl'⟩ := userDir_sim hud hs hs (fun _ _ => rfl)
      have hdecl : has (d.run spell s).env .declared = has s.env .declared := by unfold has; rw [b _ rfl]
      refine ih (seen := seen) (s := d.run spell s) (fun l hl => hu l (by simp [hl])) (fun f h => hf f (by simp [h]))
        (fun j => by rw [b _ rfl]; exact hs j) (by rw [b _ rfl]; exact hp)
        (fun h' => by rw [hl]; exact List.mem_append_left _ (hd (hdecl ▸ h'))) ?_ ?_ ?_
      · rcases hk with hk | hk
        · exact .inl ⟨hk.1, hdecl ▸ hk.2⟩
        · exact .inr ⟨hk.1, fun n hn hn' => by rw [b n hn]; exact hk.2 n hn hn'⟩
      · intro pre j post he
        rcases ha (.dir d :: pre) j post (by simp [he]) with h' | ⟨f, h'⟩
        · exact .inl (hdecl ▸ h')
        · exact .inr ⟨f, by simpa using h'⟩
      · rw [hl]
        refine h.append ?_
        cases hud with
        | specialise j =>
          rcases ha [] j ls rfl with h' | ⟨f, h'⟩
          · exact .inl (hd h')
          · simp at h'
        | define m hn =>
          right
          have : l = [] := by
            simp only [Dir.run] at hl
            split at hl
            · simpa using hl
            · split at hl <;> simpa using hl
          simp [this]
        | undef hn =>
          right
          have : l = [] := by simpa [Dir.run] using hl
          simp [this]
    | incl f =>
      have hu' := fun l hl => hu l (List.mem_cons_of_mem _ hl)
      have hf' := fun f (h : Line.incl f ∈ ls) => hf f (List.mem_cons_of_mem _ h)
      rcases hf f (by simp) with rfl | rfl
      · have e : preprocess spell (files ver) once seen (.incl 0 :: ls) s =
            preprocess spell (files ver) once (0 :: seen) ls (fwdH.run spell s) := by simp [preprocess, once, files]
        rw [e, run_fwdH hp]
        by_cases hdd : has s.env .declared = true
        · rw [if_pos hdd]
          refine ih hu' hf' hs hp hd ?_ (fun _ _ _ _ => .inl hdd) h
          rcases hk with hk | hk
          · exact .inl ⟨by simp [hk.1], hk.2⟩
          · exact .inr ⟨by simp [hk.1], hk.2⟩
        · rw [if_neg hdd]
          have hh : has (fun x => if x = Name.declared then some (Macro.obj []) else s.env x) .declared = true := by simp [has]
          refine ih hu' hf' (by simpa using hs) (by simpa using hp) (fun _ => by simp) ?_ (fun _ _ _ _ => .inl hh)
            (h.append (.inr (by simp [NeedsDeclaration])))
          rcases hk with hk | hk
          · exact absurd hk.2 hdd
          · exact .inr ⟨by simp [hk.1], fun n hn hn' => by simpa [hn'] using hk.2 n hn hn'⟩
      · by_cases hkk : k + 1 ∈ seen
        · have e : preprocess spell (files ver) once seen (.incl (k + 1) :: ls) s = preprocess spell (files ver) once seen ls s := by
            simp [preprocess, once, hkk]
          rw [e]
          have hdd : has s.env .declared = true := by
            rcases hk with hk | hk
            · exact hk.2
            · exact absurd hkk hk.1
          exact ih hu' hf' hs hp hd (.inl ⟨hkk, hdd⟩) (fun _ _ _ _ => .inl hdd) h
        · have hcl : CleanBut s.env := by
            rcases hk with hk | hk
            · exact absurd hk.1 hkk
            · exact hk.2
          have e : preprocess spell (files ver) once seen (.incl (k + 1) :: ls) s =
              preprocess spell (files ver) once ((k + 1) :: seen) ls ((optionalH (ver k)).run spell s) := by
            simp [preprocess, once, hkk, files]
          rw [e, run_optionalH hcl]
          have hdd : has (envAfter (ver k) s.env) .declared = true := by
            unfold has envAfter
            by_cases h' : has s.env .declared = true
            · simp only [h', if_true]; exact h'
            · simp [h']
          have hm : .id (.piece .declareManip) ∈ s.out ++ decl s.env := by
            unfold decl
            by_cases h' : has s.env .declared = true
            · simp [h', hd h']
            · simp [h']
          refine ih hu' hf' (fun j => hcl _ rfl (by simp)) (hcl _ rfl (by simp)) (fun _ => List.mem_append_left _ hm)
            (.inl ⟨by simp, hdd⟩) (fun _ _ _ _ => .inl hdd) ((h.append (.inr ?_)).append (.inl hm))
          unfold decl
          split <;> simp [NeedsDeclaration]

section congr
variable {e e' : Macros Name} (h : ∀ x, Internal x = false → e x = e' x)
include h

theorem has_congr {x : Name} (hx : Internal x = false) : has e x = has e' x := by unfold has; rw [h x hx]

theorem num_congr {x : Name} (hx : Internal x = false) : e.num x = e'.num x := by unfold Macros.num; rw [h x hx]

theorem archOf_congr : archOf e = archOf e' := by
  unfold archOf
  rw [has_congr h (x := .x86_64) rfl, has_congr h (x := .mX64) rfl, has_congr h (x := .i386) rfl, has_congr h (x := .i386__) rfl,
    has_congr h (x := .__i386) rfl, has_congr h (x := .mIX86) rfl]

theorem settingsOf_congr : settingsOf e = settingsOf e' := by
  unfold settingsOf
  rw [has_congr h (x := .ubTricks) rfl, has_congr h (x := .unusedBits) rfl, has_congr h (x := .member) rfl, archOf_congr h]

theorem present_congr (p : Piece) : present e p = present e' p := by
  unfold present threewayOf isGcc conceptsOf
  rw [settingsOf_congr h, archOf_congr h, has_congr h (x := .gnug) rfl, has_congr h (x := .clang) rfl, num_congr h (x := .gnuc) rfl,
    has_congr h (x := .gnuc) rfl, has_congr h (x := .libThreeWay) rfl, has_congr h (x := .cppConcepts) rfl,
    has_congr h (x := .libConcepts) rfl]

theorem core_congr (v : Nat) : core v e = core v e' := by
  unfold core toks
  congr 1
  funext a
  cases a with
  | begin => simp [Part.toks, settingsOf_congr h]
  | close => rfl
  | piece p => simp [Part.toks, present_congr h]

theorem rejected_congr : Rejected e ↔ Rejected e' := by
  unfold Rejected TooOld
  rw [settingsOf_congr h, archOf_congr h, num_congr h (x := .cplusplus) rfl, num_congr h (x := .msvcLang) rfl]

end congr

/-- The state after the first inclusion of `optional.h`. -/
theorem preprocess_at {ver : Nat → Nat} {k : Nat} {env : Macros Name} (hc : Clean env) {pre : List (Line Name)}
    (hu : ∀ l ∈ pre, UserLine l) (h1 : ∀ f, .incl f ∈ pre → f = 0) (post : List (Line Name)) :
    ∃ seen s, k + 1 ∈ seen ∧
      preprocess spell (files ver) once [] (pre ++ .incl (k + 1) :: post) ⟨env, [], false⟩ =
        preprocess spell (files ver) once seen post s ∧
      (∀ j, s.env (.userSpecialisation j) = none) ∧ s.env (.piece .declareManip) = none ∧ has s.env .declared = true ∧
      s.out.filter FromLibrary = .id (.piece .declareManip) :: core (ver k) ((ownLines pre).run spell ⟨env, [], false⟩).env ∧
      s.failed = (((ownLines pre).run spell ⟨env, [], false⟩).failed ||
        decide (Rejected ((ownLines pre).run spell ⟨env, [], false⟩).env)) := by
  obtain ⟨b1, b2, b3, b4, b5⟩ := preprocess_before (ver := ver) (k := k) hu h1 (seen := []) (s := ⟨env, [], false⟩) (t := ⟨env, [], false⟩)
    (clean_but hc) (fun j => hc _ rfl) (fun _ _ => rfl) rfl (by simp)
  have hd : has env .declared = false := by simp [has, hc .declared rfl]
  have hk : k + 1 ∉ seenAfter [] pre := by
    rw [mem_seenAfter]
    rintro (h | h)
    · simp at h
    · exact absurd (h1 _ h) (by simp)
  generalize hr : preprocess spell (files ver) once [] pre ⟨env, [], false⟩ = r at b1 b2 b3 b4 b5
  refine ⟨(k + 1) :: seenAfter [] pre, (optionalH (ver k)).run spell r, by simp, ?_, ?_⟩
  · rw [preprocess_append, hr]
    simp [preprocess, once, hk, files]
  · rw [run_optionalH b1]
    refine ⟨fun j => b1 _ rfl (by simp), b1 _ rfl (by simp), ?_, ?_, ?_⟩
    · unfold has envAfter
      by_cases h' : has r.env .declared = true
      · simp only [h', if_true]; exact h'
      · simp [h']
    · have hcore : (core (ver k) r.env).filter FromLibrary = core (ver k) r.env := by
        rw [List.filter_eq_self]
        intro t ht
        unfold core toks at ht
        obtain ⟨a, _, ha⟩ := List.mem_flatMap.mp ht
        cases a with
        | begin => simp only [Part.toks, List.mem_cons, List.not_mem_nil, or_false] at ha; rcases ha with rfl | rfl | rfl <;> rfl
        | close => simp only [Part.toks, List.mem_cons, List.not_mem_nil, or_false] at ha; subst ha; rfl
        | piece p =>
          simp only [Part.toks] at ha
          split at ha
          · simp only [List.mem_cons, List.not_mem_nil, or_false] at ha; subst ha; rfl
          · simp at ha
      rw [List.filter_append, List.filter_append, hcore, core_congr b2]
      simp only [hd, List.filter_nil, true_and, List.nil_append] at b5
      rw [b5]
      unfold decl
      simp only [hd, Bool.false_eq_true, false_or] at b4
      by_cases h0 : Line.incl 0 ∈ pre
      · simp [b4.mpr h0, h0]
      · have : has r.env .declared = false := by
          rw [← Bool.not_eq_true]; exact fun h => h0 (b4.mp h)
        simp only [this, h0, Bool.false_eq_true, if_false, List.nil_append]
        rfl
    · simp only [b3, rejected_congr b2]

/-- `optional.h` always contains the definition of the primary template. -/
theorem run_primary (v : Nat) {s : PP Name} (h : ∀ p, s.env (.piece p) = none) :
    s.out.count (.id (.piece .primaryManip)) + 1 ≤ ((optionalH v).run spell s).out.count (.id (.piece .primaryManip)) := by
  have grow : ∀ (d : Dir Name) (u : PP Name), u.out.count (.id (.piece .primaryManip)) ≤
      (d.run spell u).out.count (.id (.piece .primaryManip)) := by
    intro d u
    obtain ⟨l, hl⟩ := (run_out d u).1
    rw [hl, List.count_append]
    omega
  have step : ∀ (pre : Dir Name) (u : PP Name), u.env (.piece .primaryManip) = none → .piece .primaryManip ∉ defs pre →
      u.out.count (.id (.piece .primaryManip)) + 1 ≤
        ((piece .primaryManip).run spell (pre.run spell u)).out.count (.id (.piece .primaryManip)) := by
    intro pre u hu hd
    have he : (pre.run spell u).env (.piece .primaryManip) = none := by rw [run_env hd]; exact hu
    have := grow pre u
    simp only [piece, Dir.run, List.map, expand, expandSteps, he, Option.map_some]
    simpa using this
  refine Nat.le_trans (step (.block [macroPart v, declaration, nsBegin, piece .basics, nsEnd]) s (h _) ?_) ?_
  · simp only [defs, Dir.block, List.foldr, macroPart, declaration, nsBegin, piece, nsEnd, languageCheck, cpp20Macro, archMacros,
      ubTricksMacros, threewayMacros, orElseMacro, partMacros, namespaceMacros, ifdef, ifndef, flag]
    decide
  · have e : (optionalH v).run spell s = (Dir.block [nsBegin, piece .sentinelManip, nsEnd, secondPart, thirdPart, fourthPart,
        .define .compareMacro (.fn []), fifthPart]).run spell ((piece .primaryManip).run spell
          ((Dir.block [macroPart v, declaration, nsBegin, piece .basics, nsEnd]).run spell s)) := by
      simp only [optionalH, firstPart, Dir.block, List.foldr, Dir.run]
    rw [e]
    exact grow _ _

theorem piece_notMem_defs (v : Nat) (p : Piece) : .piece p ∉ defs (optionalH v) := by
  have : ∀ x ∈ defs (optionalH v), ∀ p, x ≠ .piece p := by
    simp only [defs, optionalH, firstPart, secondPart, thirdPart, fourthPart, fifthPart, archError, bitsPartText, memberPartText,
      copyableText, memberChoice, comparison, spaceshipText, Dir.block, List.foldr, macroPart, declaration, nsBegin, piece,
      nsEnd, languageCheck, cpp20Macro, archMacros, ubTricksMacros, threewayMacros, orElseMacro, partMacros, namespaceMacros, ifdef,
      ifndef, flag]
    simp
  exact fun h => this _ h p rfl

/-- Every copy of `optional.h` defines the primary template anew. -/
theorem preprocess_primary {ver : Nat → Nat} {j k : Nat} (hjk : j ≠ k) {ls : List (Line Name)} (hu : ∀ l ∈ ls, UserLine l)
    {seen : List Nat} {s : PP Name} (hs : ∀ p, s.env (.piece p) = none) :
    s.out.count (.id (.piece .primaryManip)) + (if j + 1 ∉ seen ∧ .incl (j + 1) ∈ ls then 1 else 0) +
      (if k + 1 ∉ seen ∧ .incl (k + 1) ∈ ls then 1 else 0) ≤
      (preprocess spell (files ver) once seen ls s).out.count (.id (.piece .primaryManip)) := by
  induction ls generalizing seen s with
  | nil => simp [preprocess]
  | cons l ls ih =>
    have hu' : ∀ l ∈ ls, UserLine l := fun x hx => hu x (List.mem_cons_of_mem _ hx)
    have grow : ∀ (d : Dir Name) (u : PP Name), u.out.count (.id (.piece .primaryManip)) ≤
        (d.run spell u).out.count (.id (.piece .primaryManip)) := by
      intro d u
      obtain ⟨l, hl⟩ := (run_out d u).1
      rw [hl, List.count_append]
      omega
    cases l with
    | dir d =>
      have hd : ∀ p, .piece p ∉ defs d := by
        intro p
        have := hu _ (List.mem_cons_self)
        cases this with
        | define m h => simp only [defs, List.mem_singleton]; rintro rfl; simp [Internal] at h
        | undef h => simp only [defs, List.mem_singleton]; rintro rfl; simp [Internal] at h
        | specialise k => simp [defs]
      have := ih hu' (seen := seen) (s := d.run spell s) (fun p => by rw [run_env (hd p)]; exact hs p)
      have := grow d s
      simp only [preprocess, List.mem_cons, reduceCtorEq, false_or]
      omega
    | incl f =>
      simp only [preprocess]
      by_cases hf : once f = true ∧ f ∈ seen
      · simp only [hf, if_true, and_self]
        have := ih hu' (seen := seen) hs
        refine Nat.le_trans ?_ this
        have hj : (j + 1 ∉ seen ∧ Line.incl (j + 1) ∈ Line.incl f :: ls) ↔ (j + 1 ∉ seen ∧ Line.incl (N := Name) (j + 1) ∈ ls) := by
          grind
        have hk : (k + 1 ∉ seen ∧ Line.incl (k + 1) ∈ Line.incl f :: ls) ↔ (k + 1 ∉ seen ∧ Line.incl (N := Name) (k + 1) ∈ ls) := by
          grind
        simp only [hj, hk]; exact Nat.le_refl _
      · simp only [hf, if_false]
        cases f with
        | zero =>
          have he : ∀ p, ((files ver 0).run spell s).env (.piece p) = none := by
            intro p
            rw [show files ver 0 = fwdH from rfl, run_env]
            · exact hs p
            · simp [fwdH, declaration, defs, ifndef, flag, piece]
          have := ih hu' (seen := 0 :: seen) he
          have := grow (files ver 0) s
          simp only [List.mem_cons, Nat.add_eq_zero_iff, Nat.one_ne_zero, and_false, false_or, Line.incl.injEq] at *
          omega
        | succ m =>
          have he : ∀ p, ((files ver (m + 1)).run spell s).env (.piece p) = none := by
            intro p
            rw [show files ver (m + 1) = optionalH (ver m) from rfl, run_env (piece_notMem_defs _ p)]
            exact hs p
          have h1 := ih hu' (seen := (m + 1) :: seen) he
          have h2 := run_primary (ver m) hs
          rw [show optionalH (ver m) = files ver (m + 1) from rfl] at h2
          refine Nat.le_trans ?_ h1
          have hj : (if j + 1 ∉ seen ∧ Line.incl (j + 1) ∈ Line.incl (m + 1) :: ls then 1 else 0) ≤
              (if j = m then 1 else 0) +
                (if j + 1 ∉ (m + 1) :: seen ∧ Line.incl (N := Name) (j + 1) ∈ ls then 1 else 0) := by grind
          have hk : (if k + 1 ∉ seen ∧ Line.incl (k + 1) ∈ Line.incl (m + 1) :: ls then 1 else 0) ≤
              (if k = m then 1 else 0) +
                (if k + 1 ∉ (m + 1) :: seen ∧ Line.incl (N := Name) (k + 1) ∈ ls then 1 else 0) := by grind
          have : (if j = m then 1 else 0) + (if k = m then 1 else 0) ≤ 1 := by grind
          omega

end Verif.Lemmas.Headers
