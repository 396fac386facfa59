import Verif.Model.Units
import Verif.Spec.Documented
import Verif.Lemmas.Select
import Verif.Props.Access
import Verif.Props.Select

/-!
# C68: specialisations of `optional_flag_manipulator` that are placed next to the type are seen by all instantiations
-/

namespace Verif.Props
open Verif Verif.Model Verif.Spec Verif.Examples

variable {P : Model.Prog} {V G : Type} {S : Sem V}

/-- The type whose specialisation matters for a use of the library: that of the member, or the payload. -/
def Entry.flagTy (e : Entry) : QTy := match e.memPtr? with
  | some p => p.var
  | none => e.payload

/-- The advice of the README: the specialisation `d` comes before the definition of the type `k` or close behind it, without any use
of the library in between. (For an enumeration within a class at least the rest of the class comes in between.) -/
def Placed (k : Kind) (d : TopDecl) (u : List TopDecl) : Prop :=
  ∀ pre post, u = pre ++ .define k :: post → d ∈ pre ∨ ∃ mid post', post = mid ++ d :: post' ∧ ∀ e, .use e ∉ mid

section
variable {f : QTy → Option Nat} {g : QTy → List Nat}

/-- The program with other specialisations. -/
private abbrev other (P : Model.Prog) (f : QTy → Option Nat) (g : QTy → List Nat) : Model.Prog := { P with full := f, partials := g }

private theorem body_other (a : Args) (s : Specialisation) : s.body (other P f g) a = s.body P a := by cases s <;> rfl

private theorem pick_congr (a : Args) (h : ∀ t, (t = match a.memPtr with | .memPtr p => p.var | _ => a.payload) →
    hasCustom (other P f g) t = hasCustom P t) : pick (other P f g) a = pick P a := by
  obtain ⟨t, s, m⟩ := a
  cases m with
  | memPtr p => rw [pick_member, pick_member, h _ rfl]
  | useDefault v =>
    cases v with
    | zero => rw [pick_default, pick_default, h _ rfl]
    | succ v => rw [pick_other _ _ _ rfl (by simp), pick_other _ _ _ rfl (by simp)]
  | const c => rw [pick_other _ _ _ rfl (by simp), pick_other _ _ _ rfl (by simp)]

private theorem registered_flag {a : Args} {sel : Selected} (h : selectDecomposition P a = .ok sel) {t : QTy}
    (ht : sel.manip = .registered t) : t = match a.memPtr with | .memPtr p => p.var | _ => a.payload := by
  obtain ⟨u, s, m⟩ := a
  unfold selectDecomposition at h
  cases m with
  | memPtr p =>
    rw [pick_member] at h
    cases hc : hasCustom P p.var with
    | error e => simp [hc, Except.map, bind, Except.bind] at h
    | ok x =>
      by_cases hu : u = Kind.plain (.cls p.cls) <;> cases hn : P.set.noMem <;> cases s <;> cases x <;>
        simp [hc, Except.map, bind, Except.bind, SentTy.isDefault, Specialisation.body, memberBody, hu, hn] at h <;>
        subst h <;> simp at ht <;> exact ht.symm
  | useDefault v =>
    cases v with
    | zero =>
      rw [pick_default] at h
      cases hc : hasCustom P u with
      | error e => simp [hc, Except.map, bind, Except.bind] at h
      | ok x =>
        cases s <;> cases x <;> simp [hc, Except.map, bind, Except.bind, SentTy.isDefault, Specialisation.body] at h <;>
          subst h <;> simp at ht <;> exact ht.symm
    | succ v => rw [pick_other _ _ _ rfl (by simp)] at h; simp [bind, Except.bind] at h
  | const c => rw [pick_other _ _ _ rfl (by simp)] at h; simp [bind, Except.bind] at h

private theorem instantiate_congr (sel : Selected)
    (h : ∀ t, sel.manip = .registered t → flagManipulator (other P f g) t = flagManipulator P t) :
    instantiate (other P f g) sel = instantiate P sel := by
  have hm : instantiateManip (other P f g) sel.manip = instantiateManip P sel.manip := by
    cases hs : sel.manip with
    | registered t => simp only [instantiateManip, h t hs]
    | separate => rfl
    | assign t c => rfl
    | custom id => rfl
  unfold instantiate
  rw [hm]
  rfl

private theorem viaType_congr (t : QTy) (s : SentTy) (m : NTTP)
    (h : flagManipulator (other P f g) (match m with | .memPtr p => p.var | _ => t) =
      flagManipulator P (match m with | .memPtr p => p.var | _ => t)) :
    optionalSentinelViaType (other P f g) t s m = optionalSentinelViaType P t s m := by
  have hs : selectDecomposition (other P f g) ⟨t, s, m⟩ = selectDecomposition P ⟨t, s, m⟩ := by
    unfold selectDecomposition
    rw [pick_congr _ (fun t' ht' => by subst ht'; unfold hasCustom; rw [h])]
    cases pick P ⟨t, s, m⟩ with
    | error e => rfl
    | ok s' => exact body_other _ _
  unfold optionalSentinelViaType
  rw [hs]
  cases hr : selectDecomposition P ⟨t, s, m⟩ with
  | error e => rfl
  | ok sel =>
    exact instantiate_congr sel fun t' ht' => by rw [registered_flag hr ht']; exact h

/-- The storage of an optional depends on no other specialisations than those for the type of its flag. -/
theorem C68_local (P : Model.Prog) (f : QTy → Option Nat) (g : QTy → List Nat) (e : Entry)
    (hf : f (Entry.flagTy e) = P.full (Entry.flagTy e)) (hg : g (Entry.flagTy e) = P.partials (Entry.flagTy e)) :
    compile { P with full := f, partials := g } e = compile P e := by
  have hm : flagManipulator (other P f g) (Entry.flagTy e) = flagManipulator P (Entry.flagTy e) := by
    unfold flagManipulator
    simp only [hf, hg]
    rfl
  have tiny : ∀ t a b, flagManipulator (other P f g) (match a with | .memPtr p => p.var | _ => t) =
      flagManipulator P (match a with | .memPtr p => p.var | _ => t) → tinyOptional (other P f g) t a b = tinyOptional P t a b := by
    intro t a b h
    unfold tinyOptional
    cases a <;> exact viaType_congr _ _ _ h
  cases e with
  | optional t a b => exact tiny t a b (by cases a <;> exact hm)
  | viaType t s m => exact viaType_congr t s m (by cases m <;> exact hm)
  | inplace t id => rfl
  | aip t s =>
    change optionalAip (other P f g) t s = optionalAip P t s
    unfold optionalAip
    cases s with
    | some a => exact tiny t a _ (by cases a <;> exact hm)
    | none =>
      have hs : selectSentinelValueWithSwallowing (other P f g) t = selectSentinelValueWithSwallowing P t := by
        unfold selectSentinelValueWithSwallowing hasCustom
        rw [show flagManipulator (other P f g) t = flagManipulator P t from hm]
        rfl
      simp only [hs]
      cases hr : selectSentinelValueWithSwallowing P t with
      | error e => rfl
      | ok a =>
        refine tiny t a _ ?_
        have hna : ∀ p, a ≠ .memPtr p := by
          rintro p rfl
          unfold selectSentinelValueWithSwallowing swallowingDefaultSentinel at hr
          cases hc : hasCustom P t with
          | error e => simp [hc, bind, Except.bind] at hr
          | ok b =>
            cases b with
            | true => simp [hc, bind, Except.bind, pure, Except.pure] at hr
            | false =>
              simp only [hc, bind, Except.bind, Bool.false_eq_true, if_false] at hr
              split at hr
              · split at hr <;> simp at hr
              · simp at hr
        cases a with
        | memPtr p => exact absurd rfl (hna p)
        | _ => exact hm

end

/-! ### What each translation unit sees -/

/-- Language rule: what is complete stays complete. -/
private theorem Complete.mono {opq : Kind → Bool} {pre mid : List TopDecl} {k : Kind} (h : Complete opq pre k) :
    Complete opq (pre ++ mid) k := by
  rcases h with h | h | ⟨h, h'⟩
  · exact .inl h
  · exact .inr (.inl (List.mem_append_left _ h))
  · exact .inr (.inr ⟨h, List.mem_append_left _ h'⟩)

/-- The type of the flag is complete wherever an optional is used. -/
theorem C68_flag_complete {opq : Kind → Bool} {u : List TopDecl} (hu : UnitOK S opq u) (hcls : ∀ c, opq (.cls c) = false)
    {pre post : List TopDecl} {e : Entry} (h : u = pre ++ .use e :: post) : Complete opq pre (Entry.flagTy e).kind := by
  obtain ⟨h1, h2, h3⟩ := hu.uses pre e post h
  unfold Entry.flagTy
  cases hp : e.memPtr? with
  | none => exact h1
  | some p =>
    obtain ⟨h4, h5⟩ := h3 p hp
    have h6 : TopDecl.define (.cls p.cls) ∈ pre := by
      rcases h5 with h | h | ⟨h, _⟩
      · exact absurd h (by simp [Kind.userDefined])
      · exact h
      · rw [hcls] at h; cases h
    have h7 : p.Valid S := by
      cases e with
      | optional t a b =>
        cases a <;> simp [Entry.memPtr?] at hp
        subst hp; exact h2
      | viaType t s m =>
        cases m <;> simp [Entry.memPtr?] at hp
        subst hp; exact h2
      | inplace t id => simp [Entry.memPtr?] at hp
      | aip t s =>
        cases s with
        | none => simp [Entry.memPtr?] at hp
        | some a =>
          cases a <;> simp [Entry.memPtr?] at hp
          subst hp; exact h2 _ rfl
    obtain ⟨a, b, rfl⟩ := List.append_of_mem h6
    have h8 := hu.members a p.cls (b ++ .use e :: post) (by rw [h]; simp) p.var (List.mem_of_getElem? (h7 h4))
    exact Complete.mono h8

/-- A specialisation that is placed as the README advises is seen by every use behind the definition of the type. -/
private theorem placed_seen {k : Kind} {d : TopDecl} (hd : ∀ e, d ≠ .use e) {pre post : List TopDecl} {e : Entry}
    (hp : Placed k d (pre ++ .use e :: post)) (hk : .define k ∈ pre) : d ∈ pre := by
  obtain ⟨a, b, rfl⟩ := List.append_of_mem hk
  rcases hp a (b ++ .use e :: post) (by simp) with h | ⟨mid, post', h, hm⟩
  · exact List.mem_append_left _ h
  · refine List.mem_append_right _ (List.mem_cons_of_mem _ ?_)
    rcases List.append_eq_append_iff.mp h with ⟨c, h1, h2⟩ | ⟨c, h1, h2⟩
    · -- `mid` goes beyond `b`: it would contain the use
      cases c with
      | nil =>
        simp only [List.nil_append, List.cons.injEq] at h2
        exact absurd h2.1.symm (hd e)
      | cons x c =>
        simp only [List.cons_append, List.cons.injEq] at h2
        exact absurd (by rw [h1, h2.1]; simp) (hm e)
    · cases c with
      | nil =>
        simp only [List.nil_append, List.cons.injEq] at h2
        exact absurd h2.1 (hd e)
      | cons x c =>
        simp only [List.cons_append, List.cons.injEq] at h2
        rw [h1, h2.1]
        simp

/-- The types that the README recommends specialisations for: classes, and enumerations defined within a class. They cannot be used
without their definition, whereas all other scoped enumerations, and unscoped ones with fixed underlying type, can. -/
theorem C68_needs_definition (inClass fixed : Nat → Bool) :
    (∀ c, opaqueDeclarable inClass fixed (.cls c) = false) ∧
    (∀ id u, opaqueDeclarable inClass fixed (.enumScoped id u) = true ↔ inClass id = false) ∧
    (∀ id u, opaqueDeclarable inClass fixed (.enumUnscoped id u) = true ↔ inClass id = false ∧ fixed id = true) := by
  simp [opaqueDeclarable]

/-- All specialisations of a program are placed as advised, and are for types that cannot be used without their definition. -/
structure Advised (P : Model.Prog) (opq : Kind → Bool) (units : List (List TopDecl)) : Prop where
  full : ∀ t id, P.full t = some id →
    t.kind.userDefined = true ∧ opq t.kind = false ∧ ∀ u ∈ units, Placed t.kind (.specialise t) u
  partials : ∀ t id, id ∈ P.partials t →
    t.kind.userDefined = true ∧ opq t.kind = false ∧ ∀ u ∈ units, Placed t.kind (.generic id) u

/-- C68. If all specialisations are placed as advised, then every use of the library in every translation unit is compiled as if
all specialisations were visible everywhere. -/
theorem C68_consistent {opq : Kind → Bool} (hcls : ∀ c, opq (.cls c) = false) {units : List (List TopDecl)}
    (hok : ∀ u ∈ units, UnitOK S opq u) (ha : Advised P opq units) {u pre post : List TopDecl} (hu : u ∈ units) {e : Entry}
    (h : u = pre ++ .use e :: post) : compile (seen P pre) e = compile P e := by
  have hc := C68_flag_complete (hok u hu) hcls h
  have hdef : ∀ (hud : (Entry.flagTy e).kind.userDefined = true) (hop : opq (Entry.flagTy e).kind = false),
      TopDecl.define (Entry.flagTy e).kind ∈ pre := by
    intro hud hop
    rcases hc with h' | h' | ⟨h', _⟩
    · rw [hud] at h'; cases h'
    · exact h'
    · rw [hop] at h'; cases h'
  refine C68_local P _ _ e ?_ ?_
  · cases hf : P.full (Entry.flagTy e) with
    | none => simp
    | some id =>
      obtain ⟨h1, h2, h3⟩ := ha.full _ _ hf
      have := placed_seen (by intro e'; simp) (h ▸ h3 u hu) (hdef h1 h2)
      rw [if_pos]
      exact List.any_eq_true.mpr ⟨_, this, by simp⟩
  · refine List.filter_eq_self.mpr fun id hid => ?_
    obtain ⟨h1, h2, h3⟩ := ha.partials _ _ hid
    have := placed_seen (by intro e'; simp) (h ▸ h3 u hu) (hdef h1 h2)
    exact List.any_eq_true.mpr ⟨_, this, by simp⟩

private theorem instantiations_split {pre rest : List TopDecl} {e : Entry} {r : Except Err Inst}
    (h : (e, r) ∈ instantiations P pre rest) : ∃ a b, rest = a ++ .use e :: b ∧ r = compile (seen P (pre ++ a)) e := by
  induction rest generalizing pre with
  | nil => simp [instantiations] at h
  | cons d rest ih =>
    have next : (e, r) ∈ instantiations P (pre ++ [d]) rest →
        ∃ a b, d :: rest = a ++ .use e :: b ∧ r = compile (seen P (pre ++ a)) e := by
      intro h
      obtain ⟨a, b, h1, h2⟩ := ih h
      exact ⟨d :: a, b, by rw [h1]; rfl, by rw [h2]; simp⟩
    cases d with
    | use e' =>
      simp only [instantiations, List.mem_cons, Prod.mk.injEq] at h
      rcases h with ⟨rfl, rfl⟩ | h
      · exact ⟨[], rest, rfl, by simp⟩
      · exact next h
    | _ => exact next h

/-- C68. All translation units agree about every type of the library that they use. -/
theorem C68_agree {opq : Kind → Bool} (hcls : ∀ c, opq (.cls c) = false) {units : List (List TopDecl)}
    (hok : ∀ u ∈ units, UnitOK S opq u) (ha : Advised P opq units) {u u' : List TopDecl} (hu : u ∈ units) (hu' : u' ∈ units)
    {e : Entry} {r r' : Except Err Inst} (h : (e, r) ∈ instantiations P [] u) (h' : (e, r') ∈ instantiations P [] u') : r = r' := by
  obtain ⟨a, b, h1, h2⟩ := instantiations_split h
  obtain ⟨a', b', h1', h2'⟩ := instantiations_split h'
  rw [h2, h2']
  exact (C68_consistent hcls hok ha hu (by simpa using h1)).trans (C68_consistent hcls hok ha hu' (by simpa using h1')).symm

/-- A unit in which no specialisation comes after a use that it would have applied to. Otherwise the program is ill-formed
([temp.expl.spec]/7); compilers report it. `optional_inplace` does not look at specialisations. -/
def NotLate (u : List TopDecl) : Prop :=
  ∀ pre e post, u = pre ++ .use e :: post → (∀ t id, e ≠ .inplace t id) → .specialise (Entry.flagTy e) ∉ post

/-- C68, for explicit specialisations in the same file as the type, wherever they are: every translation unit that contains the
definition of the type contains the specialisation. Then all uses are compiled as if all specialisations were visible, unless the
compiler reports one that comes too late. -/
theorem C68_same_file {opq : Kind → Bool} (hcls : ∀ c, opq (.cls c) = false) {units : List (List TopDecl)}
    (hok : ∀ u ∈ units, UnitOK S opq u) (hnl : ∀ u ∈ units, NotLate u)
    (hf : ∀ t id, P.full t = some id → t.kind.userDefined = true ∧ opq t.kind = false ∧
      ∀ u ∈ units, .define t.kind ∈ u → .specialise t ∈ u)
    (hp : ∀ t, P.partials t = []) {u pre post : List TopDecl} (hu : u ∈ units) {e : Entry} (h : u = pre ++ .use e :: post) :
    compile (seen P pre) e = compile P e := by
  by_cases hin : ∃ t id, e = .inplace t id
  · obtain ⟨t, id, rfl⟩ := hin
    rfl
  refine C68_local P _ _ e ?_ ?_
  · cases hfe : P.full (Entry.flagTy e) with
    | none => simp
    | some id =>
      obtain ⟨h1, h2, h3⟩ := hf _ _ hfe
      have hd : TopDecl.define (Entry.flagTy e).kind ∈ pre := by
        rcases C68_flag_complete (hok u hu) hcls h with h' | h' | ⟨h', _⟩
        · rw [h1] at h'; cases h'
        · exact h'
        · rw [h2] at h'; cases h'
      have hm := h3 u hu (by rw [h]; exact List.mem_append_left _ hd)
      rw [h] at hm
      rcases List.mem_append.mp hm with hm | hm
      · rw [if_pos]
        exact List.any_eq_true.mpr ⟨_, hm, by simp⟩
      · rcases List.mem_cons.mp hm with hm | hm
        · cases hm
        · exact absurd hm (hnl u hu pre e post h fun t id he => hin ⟨t, id, he⟩)
  · simp [hp]

/-! ### What happens otherwise -/

private theorem user_kind {k : Kind} (h : k.userDefined = true) : k ≠ .bool ∧ (∀ n, k ≠ .flt n) ∧ ∀ n, k ≠ .ptr n := by
  cases k <;> simp [Kind.userDefined] at h ⊢

private theorem unused_user {t : QTy} (h : t.kind.userDefined = true) : unusedBitsKnown P t = false := by
  obtain ⟨h1, h2, h3⟩ := user_kind h
  unfold unusedBitsKnown
  split
  · rfl
  · split
    · exact absurd (by assumption) (h2 _)
    · exact absurd (by assumption) h1
    · exact absurd (by assumption) (h3 _)
    · rfl

/-- A use that comes before the specialisation compiles nevertheless, to a type of another size: the flag is stored separately. -/
theorem C68_mismatch {t : QTy} {id : Nat} (harch : archCheck P = .ok ()) (hk : t.kind.userDefined = true) (hf : P.full t = some id)
    (hp : P.partials t = []) (hn : P.manipNoexcept id = true) (hok : P.payloadOK t = true) {sees not : List TopDecl}
    (hs : .specialise t ∈ sees) (hns : .specialise t ∉ not) :
    compile (seen P sees) (.optional t (.useDefault 0) (.useDefault 0)) = .ok ⟨t, .inplace, .user id⟩ ∧
    compile (seen P not) (.optional t (.useDefault 0) (.useDefault 0)) = .ok ⟨t, .separate, .separate⟩ ∧
    ∀ payload : Extent, payload.OK → (sizeofOptional .inplace payload).size < (sizeofOptional .separate payload).size := by
  have f1 : flagManipulator (seen P sees) t = .ok (.user id) := by
    unfold flagManipulator
    have : (seen P sees).full t = some id := by
      show (if _ then P.full t else none) = _
      rw [if_pos (List.any_eq_true.mpr ⟨_, hs, by simp⟩), hf]
    rw [this]
  have f2 : flagManipulator (seen P not) t = .ok .nothing := by
    unfold flagManipulator
    have h1 : (seen P not).full t = none := by
      show (if _ then P.full t else none) = _
      rw [if_neg]
      intro h
      obtain ⟨d, hd, he⟩ := List.any_eq_true.mp h
      cases d <;> simp at he
      subst he
      exact hns hd
    have h2 : (seen P not).partials t = [] := by
      show (P.partials t).filter _ = []
      rw [hp]; rfl
    have h3 : unusedBitsKnown (seen P not) t = false := unused_user hk
    rw [h1, h2, h3]
  refine ⟨?_, ?_, fun payload h => ?_⟩
  · show optionalSentinelViaType (seen P sees) t .useDefault (.useDefault 0) = _
    unfold optionalSentinelViaType selectDecomposition
    rw [pick_default]
    have : archCheck (seen P sees) = .ok () := harch
    have hok' : (seen P sees).payloadOK t = true := hok
    have hn' : (seen P sees).manipNoexcept id = true := hn
    simp [hasCustom, f1, Except.map, bind, Except.bind, SentTy.isDefault, Specialisation.body, instantiate, this, checkMemPtr,
      instantiateManip, hn', hok', pure, Except.pure]
  · show optionalSentinelViaType (seen P not) t .useDefault (.useDefault 0) = _
    unfold optionalSentinelViaType selectDecomposition
    rw [pick_default]
    have : archCheck (seen P not) = .ok () := harch
    have hok' : (seen P not).payloadOK t = true := hok
    simp [hasCustom, f2, Except.map, bind, Except.bind, SentTy.isDefault, Specialisation.body, instantiate, this, checkMemPtr,
      instantiateManip, hok', pure, Except.pure]
  · rw [((C29_in_place .inplace h).1).mpr (by simp)]
    exact (C29_separate h).1

/-- The same for a partial specialisation, for instance of all instances of a class template. -/
theorem C68_mismatch_generic {t : QTy} {id : Nat} (harch : archCheck P = .ok ()) (hk : t.kind.userDefined = true)
    (hf : P.full t = none) (hp : P.partials t = [id]) (hn : P.manipNoexcept id = true) (hok : P.payloadOK t = true)
    {sees not : List TopDecl} (hs : .generic id ∈ sees) (hns : .generic id ∉ not) :
    compile (seen P sees) (.optional t (.useDefault 0) (.useDefault 0)) = .ok ⟨t, .inplace, .user id⟩ ∧
    compile (seen P not) (.optional t (.useDefault 0) (.useDefault 0)) = .ok ⟨t, .separate, .separate⟩ := by
  have hfull : ∀ l, (seen P l).full t = none := by
    intro l
    show (if _ then P.full t else none) = _
    rw [hf]; simp
  have hu : ∀ l, unusedBitsKnown (seen P l) t = false := fun l => unused_user hk
  have f1 : flagManipulator (seen P sees) t = .ok (.user id) := by
    unfold flagManipulator
    have h2 : (seen P sees).partials t = [id] := by
      show (P.partials t).filter _ = [id]
      rw [hp]
      refine List.filter_eq_self.mpr fun a ha => ?_
      rw [List.mem_singleton.mp ha]
      exact List.any_eq_true.mpr ⟨_, hs, by simp⟩
    rw [hfull, h2, hu]
  have f2 : flagManipulator (seen P not) t = .ok .nothing := by
    unfold flagManipulator
    have h2 : (seen P not).partials t = [] := by
      show (P.partials t).filter _ = []
      rw [hp]
      refine List.filter_eq_nil_iff.mpr fun a ha h => ?_
      rw [List.mem_singleton.mp ha] at h
      obtain ⟨d, hd, he⟩ := List.any_eq_true.mp h
      cases d <;> simp at he
      subst he
      exact hns hd
    rw [hfull, h2, hu]
  constructor
  · show optionalSentinelViaType (seen P sees) t .useDefault (.useDefault 0) = _
    unfold optionalSentinelViaType selectDecomposition
    rw [pick_default]
    have : archCheck (seen P sees) = .ok () := harch
    have hok' : (seen P sees).payloadOK t = true := hok
    have hn' : (seen P sees).manipNoexcept id = true := hn
    simp [hasCustom, f1, Except.map, bind, Except.bind, SentTy.isDefault, Specialisation.body, instantiate, this, checkMemPtr,
      instantiateManip, hn', hok', pure, Except.pure]
  · show optionalSentinelViaType (seen P not) t .useDefault (.useDefault 0) = _
    unfold optionalSentinelViaType selectDecomposition
    rw [pick_default]
    have : archCheck (seen P not) = .ok () := harch
    have hok' : (seen P not).payloadOK t = true := hok
    simp [hasCustom, f2, Except.map, bind, Except.bind, SentTy.isDefault, Specialisation.body, instantiate, this, checkMemPtr,
      instantiateManip, hok', pure, Except.pure]

/-- Whereas `optional_aip`, which has no other way to store the flag, is rejected. -/
theorem C68_aip {t : QTy} (hk : t.kind.userDefined = true) (hp : P.partials t = []) {not : List TopDecl}
    (hns : .specialise t ∉ not) : compile (seen P not) (.aip t none) = .error .missingSentinel := by
  have f2 : flagManipulator (seen P not) t = .ok .nothing := by
    unfold flagManipulator
    have h1 : (seen P not).full t = none := by
      show (if _ then P.full t else none) = _
      rw [if_neg]
      intro h
      obtain ⟨d, hd, he⟩ := List.any_eq_true.mp h
      cases d <;> simp at he
      subst he
      exact hns hd
    have h2 : (seen P not).partials t = [] := by
      show (P.partials t).filter _ = []
      rw [hp]; rfl
    have h3 : unusedBitsKnown (seen P not) t = false := unused_user hk
    rw [h1, h2, h3]
  show optionalAip (seen P not) t none = _
  unfold optionalAip selectSentinelValueWithSwallowing hasCustom
  rw [f2]
  have : swallowingDefaultSentinel (seen P not) t.kind = .error .missingSentinel := by
    revert hk
    cases t.kind <;> simp [swallowingDefaultSentinel, Kind.userDefined]
  simp [bind, Except.bind, this]

/-- An optional that one translation unit keeps with the flag in the payload, looked at by one that expects it behind the payload:
whatever the program has done, a byte is read that nobody has written. -/
theorem C68_runtime {Γ Γ' : Env V G} (hΓ : ∀ z, (Γ z).cfg.WF) (h : List (Op V G)) (g : G) {x : Nat}
    (hm : (Γ x).cfg.manip ≠ .separate) (hm' : (Γ' x).cfg.manip = .separate) (hsz : (Γ' x).cfg.size = (Γ x).cfg.size)
    {s : Storage V} (hs : (run Γ h (.init g)).2.mem x = some s) :
    hasValue Γ' x (run Γ h (.init g)).2 = (.abort (.ub .indeterminate), (run Γ h (.init g)).2) := by
  have hd : (Γ x).cfg.decomp ≠ .separate := by
    rcases (hΓ x).fits with ⟨_, h⟩ | ⟨h, _⟩
    · exact absurd h hm
    · exact h
  have hb : s.bytes (Γ' x).cfg.size = none := by
    refine C46_writes hΓ h g x s hs _ ?_
    rw [hsz]
    unfold extent
    split
    · exact absurd (by assumption) hd
    · exact Nat.le_refl _
  unfold Model.hasValue
  rw [bind_ok (readStorage_ok hs)]
  simp only [Config.isEmpty, hm', hb, readBool]
  rfl

/-- The other way round: an empty optional with a separate flag, looked at by a translation unit that expects the flag of a user's
manipulator in the payload: there is no object that the manipulator could look at. -/
theorem C68_runtime' {Γ Γ' : Env V G} {w : World V G} (hΓ : EnvWF Γ) (hw : Reach Γ w) {x : Nat} (hm : (Γ x).cfg.manip = .separate)
    (hx : IsEmpty Γ x w) {p : V → Bool} {ev : V} (hm' : (Γ' x).cfg.manip = .custom p ev) :
    hasValue Γ' x w = (.abort (.ub .noObject), w) := by
  obtain ⟨sw, hR, _⟩ := hw.rel hΓ
  obtain ⟨s, hs, h1, h2⟩ := hR.emp ((hR.isEmpty_iff hΓ).1 hx)
  rw [hm] at h2
  unfold Model.hasValue
  rw [bind_ok (readStorage_ok hs)]
  simp only [Config.isEmpty, hm', Config.readFlag, h1, h2.1]
  rfl

/-! ### Forward declared enumerations -/

private def okFrom (S : Sem V) (opq : Kind → Bool) : List TopDecl → List TopDecl → Prop
  | _, [] => True
  | pre, d :: rest => (match d with
      | .define (.cls c) => ∀ t ∈ S.members c, Complete opq pre t.kind
      | .use e => Complete opq pre e.payload.kind ∧ e.Valid S ∧ ∀ p, e.memPtr? = some p → p.null = false ∧ Complete opq pre (.cls p.cls)
      | _ => True) ∧ okFrom S opq (pre ++ [d]) rest

private theorem okFrom_mid {opq : Kind → Bool} : ∀ (a pre : List TopDecl) (d : TopDecl) (b : List TopDecl),
    okFrom S opq pre (a ++ d :: b) → okFrom S opq (pre ++ a) (d :: b) := by
  intro a
  induction a with
  | nil => intro pre d b h; simpa using h
  | cons x a ih =>
    intro pre d b h
    have := ih (pre ++ [x]) d b h.2
    simpa using this

private theorem unitOK_of {opq : Kind → Bool} {u : List TopDecl} (h : okFrom S opq [] u) : UnitOK S opq u where
  members pre _ post hu := (okFrom_mid pre [] _ post (hu ▸ h)).1
  uses pre _ post hu := (okFrom_mid pre [] _ post (hu ▸ h)).1

/-- The restriction of `Advised` to types that need a definition is necessary, as the README warns (530-545): two translation units
that the compiler accepts, with the specialisation directly behind the definition of an enumeration that the first one only
declares. -/
theorem C68_forward_declared : ∃ (P : Model.Prog) (k : Kind) (u u' : List TopDecl) (r r' : Except Err Inst),
    (∀ t id, P.full t = some id → t.kind = k ∧ ∀ v ∈ [u, u'], Placed k (.specialise t) v) ∧ (∀ t, P.partials t = []) ∧
    (∀ v ∈ [u, u'], UnitOK exSem (opaqueDeclarable (fun _ => false) (fun _ => true)) v) ∧
    (.optional k.plain (.useDefault 0) (.useDefault 0), r) ∈ instantiations P [] u ∧
    (.optional k.plain (.useDefault 0) (.useDefault 0), r') ∈ instantiations P [] u' ∧ r ≠ r' := by
  refine ⟨{ exProg exSettings with full := fun t => if t = (Kind.enumScoped 3 ⟨3, true, 0⟩).plain then some 1 else none },
    .enumScoped 3 ⟨3, true, 0⟩,
    [.declare (.enumScoped 3 ⟨3, true, 0⟩), .use (.optional (Kind.enumScoped 3 ⟨3, true, 0⟩).plain (.useDefault 0) (.useDefault 0))],
    [.define (.enumScoped 3 ⟨3, true, 0⟩), .specialise (Kind.enumScoped 3 ⟨3, true, 0⟩).plain,
      .use (.optional (Kind.enumScoped 3 ⟨3, true, 0⟩).plain (.useDefault 0) (.useDefault 0))],
    .ok ⟨(Kind.enumScoped 3 ⟨3, true, 0⟩).plain, .separate, .separate⟩,
    .ok ⟨(Kind.enumScoped 3 ⟨3, true, 0⟩).plain, .inplace, .user 1⟩, ?_, fun _ => rfl, ?_, ?_, ?_, ?_⟩
  · intro t id h
    simp only [Option.ite_none_right_eq_some] at h
    obtain ⟨rfl, _⟩ := h
    refine ⟨rfl, fun v hv => ?_⟩
    simp only [List.mem_cons, List.not_mem_nil, or_false] at hv
    rcases hv with rfl | rfl
    · intro pre post hp
      have : TopDecl.define (.enumScoped 3 ⟨3, true, 0⟩) ∈ pre ++ .define (.enumScoped 3 ⟨3, true, 0⟩) :: post := by simp
      rw [← hp] at this
      simp at this
    · intro pre post hp
      cases pre with
      | nil =>
        simp only [List.nil_append, List.cons.injEq, true_and] at hp
        exact .inr ⟨[], _, hp.symm, by simp⟩
      | cons a pre =>
        simp only [List.cons_append, List.cons.injEq] at hp
        have : TopDecl.define (.enumScoped 3 ⟨3, true, 0⟩) ∈ pre ++ .define (.enumScoped 3 ⟨3, true, 0⟩) :: post := by simp
        rw [← hp.2] at this
        simp at this
  · intro v hv
    simp only [List.mem_cons, List.not_mem_nil, or_false] at hv
    rcases hv with rfl | rfl <;> apply unitOK_of <;>
      simp [okFrom, Complete, Entry.payload, Entry.Valid, Entry.memPtr?, opaqueDeclarable, Kind.plain, NTTP.Valid]
  · exact List.mem_cons_self ..
  · exact List.mem_cons_self ..
  · simp

/-! ### Examples -/

/-- Class 9 with its specialisation, in two translation units: `struct C9 { ... }; template <> struct optional_flag_manipulator<C9> ...`
in a header, and uses of it, also as a member of class 7, which is not defined in the second unit. -/
private def unit₁ : List TopDecl :=
  [.define (.cls 9), .specialise (Kind.cls 9).plain, .use (.optional (Kind.cls 9).plain (.useDefault 0) (.useDefault 0)),
   .define (.cls 7), .use (.optional (Kind.cls 7).plain (.memPtr ⟨7, Kind.bool.plain, 2, false, 0⟩) (.useDefault 0))]
private def unit₂ : List TopDecl :=
  [.declare (.cls 7), .define (.cls 9), .specialise (Kind.cls 9).plain, .use (.optional exInt.plain (.useDefault 0) (.useDefault 0)),
   .use (.optional (Kind.cls 9).plain (.useDefault 0) (.useDefault 0))]

private theorem units_ok : ∀ u ∈ [unit₁, unit₂], UnitOK exSem (opaqueDeclarable (fun _ => true) (fun _ => true)) u := by
  intro u hu
  simp only [List.mem_cons, List.not_mem_nil, or_false] at hu
  have h7 : exSem.members 7 = exMembers := rfl
  have h9 : exSem.members 9 = [] := rfl
  rcases hu with rfl | rfl <;> apply unitOK_of <;>
    simp [unit₁, unit₂, okFrom, Complete, Entry.payload, Entry.Valid, NTTP.Valid, Entry.memPtr?, Kind.plain, Kind.userDefined, h7, h9,
      exMembers, exChar, exInt, MemPtr.Valid]

private def notLateFrom : List TopDecl → Prop
  | [] => True
  | .use e :: rest => .specialise (Entry.flagTy e) ∉ rest ∧ notLateFrom rest
  | _ :: rest => notLateFrom rest

private theorem notLate_of {u : List TopDecl} (h : notLateFrom u) : NotLate u := by
  intro pre e post hu _
  subst hu
  induction pre with
  | nil => exact h.1
  | cons d pre ih => cases d <;> first | exact ih h | exact ih h.2

private theorem units_notLate : ∀ u ∈ [unit₁, unit₂], NotLate u := by
  intro u hu
  simp only [List.mem_cons, List.not_mem_nil, or_false] at hu
  rcases hu with rfl | rfl <;> apply notLate_of <;> simp [unit₁, unit₂, notLateFrom]

private theorem units_advised : Advised (exProg exSettings) (opaqueDeclarable (fun _ => true) (fun _ => true)) [unit₁, unit₂] where
  full t id h := by
    simp only [exProg, Option.ite_none_right_eq_some] at h
    obtain ⟨rfl, _⟩ := h
    refine ⟨rfl, rfl, fun u hu => ?_⟩
    simp only [List.mem_cons, List.not_mem_nil, or_false] at hu
    have key : ∀ {a b : List TopDecl}, .define (.cls 9) ∉ a → .define (.cls 9) ∉ b →
        Placed (.cls 9) (.specialise (Kind.cls 9).plain) (a ++ .define (.cls 9) :: .specialise (Kind.cls 9).plain :: b) := by
      intro a b ha hb pre post h
      rcases List.append_eq_append_iff.mp h with ⟨c, h1, h2⟩ | ⟨c, h1, h2⟩
      · cases c with
        | nil =>
          simp only [List.nil_append, List.cons.injEq, true_and] at h2
          exact .inr ⟨[], b, h2.symm, by simp⟩
        | cons x c =>
          simp only [List.cons_append, List.cons.injEq] at h2
          have : TopDecl.define (.cls 9) ∈ TopDecl.specialise (Kind.cls 9).plain :: b := by rw [h2.2]; simp
          simp [hb] at this
      · cases c with
        | nil =>
          simp only [List.nil_append, List.cons.injEq, true_and] at h2
          exact .inr ⟨[], b, h2, by simp⟩
        | cons x c =>
          simp only [List.cons_append, List.cons.injEq] at h2
          exact absurd (by rw [h1, ← h2.1]; simp) ha
    rcases hu with rfl | rfl
    · exact key (a := []) (b := unit₁.drop 2) (by simp) (by simp [unit₁])
    · exact key (a := [.declare (.cls 7)]) (b := unit₂.drop 3) (by simp) (by simp [unit₂])
  partials t id h := by simp [exProg] at h

example : compile (seen (exProg exSettings) (unit₂.take 4)) (.optional (Kind.cls 9).plain (.useDefault 0) (.useDefault 0)) =
    .ok ⟨(Kind.cls 9).plain, .inplace, .user 1⟩ :=
  C68_consistent (fun _ => rfl) units_ok units_advised (u := unit₂) (post := []) (by simp) rfl

example := C68_flag_complete (units_ok unit₁ (by simp)) (fun _ => rfl) (pre := unit₁.take 4) (post := [])
  (e := .optional (Kind.cls 7).plain (.memPtr ⟨7, Kind.bool.plain, 2, false, 0⟩) (.useDefault 0)) rfl

example := C68_agree (fun _ => rfl) units_ok units_advised (u := unit₁) (u' := unit₂) (by simp) (by simp)
  (e := .optional (Kind.cls 9).plain (.useDefault 0) (.useDefault 0)) (List.mem_cons_self ..)
  (List.mem_cons_of_mem _ (List.mem_cons_self ..))

example := C68_same_file (P := exProg exSettings) (fun _ => rfl) units_ok
  units_notLate
  (fun t id h => ⟨(units_advised.full t id h).1, (units_advised.full t id h).2.1, fun u hu _ => by
    simp only [exProg, Option.ite_none_right_eq_some] at h
    obtain ⟨rfl, _⟩ := h
    simp only [List.mem_cons, List.not_mem_nil, or_false] at hu
    rcases hu with rfl | rfl <;> simp [unit₁, unit₂]⟩)
  (fun _ => rfl) (u := unit₂) (pre := unit₂.take 4) (post := []) (by simp) rfl

example := C68_local (exProg exSettings) (fun _ => none) (fun _ => []) (.optional exInt.plain (.useDefault 0) (.useDefault 0)) rfl rfl

example := C68_mismatch (P := exProg exSettings) (t := (Kind.cls 9).plain) (id := 1) rfl rfl rfl rfl rfl rfl
  (sees := [.define (.cls 9), .specialise (Kind.cls 9).plain]) (not := [.define (.cls 9)]) (by simp) (by simp)

example := C68_mismatch_generic (P := { exProg exSettings with partials := fun t => if t = (Kind.cls 8).plain then [2] else [] })
  (t := (Kind.cls 8).plain) (id := 2) rfl rfl rfl rfl rfl rfl (sees := [.define (.cls 8), .generic 2])
  (not := [.define (.cls 8)]) (by simp) (by simp)

example := C68_aip (P := exProg exSettings) (t := (Kind.cls 9).plain) rfl rfl (not := [.define (.cls 9)]) (by simp)

/-- One translation unit keeps the flag of 30 in the payload and that of 0 behind it, the other one the other way round. -/
private def thisEnv : Env (BitVec 8) (List String) := env _ loggingOps false
private def otherEnv : Env (BitVec 8) (List String) := fun x => thisEnv (if x = 30 then 0 else 30)

example := C68_runtime (Γ := thisEnv) (Γ' := otherEnv) (fun z => (env_wf loggingOps_lawful false).cfg z)
  [.ctorInPlace 30 (lit 5#8)] [] (x := 30) (by simp [thisEnv, env, customCfg]) rfl rfl rfl

private theorem this_reach : Reach thisEnv (run thisEnv [.ctorDefault 0] (.init [])).2 := by
  refine .of_legal (env_wf loggingOps_lawful false) ⟨?_, rfl, ?_, ?_⟩
  · intro op hop
    simp only [List.mem_cons, List.not_mem_nil, or_false] at hop
    subst hop; trivial
  · intro p hp
    simp [Spec.SWorld.init] at hp
  · intro p hp
    simp at hp
    subst hp; trivial

example := C68_runtime' (Γ' := otherEnv) (env_wf loggingOps_lawful false) this_reach (x := 0) rfl rfl rfl

end Verif.Props
