import Verif.Spec.Trait

/-!
# C60: `is_tiny_optional_v`
-/

namespace Verif.Props
open Verif.Model Verif.Spec

/-- C60, one half: true for every optional of the library, with any qualifiers. -/
theorem C60_library (c : Cls) (h : LibraryOptional c) (const volatile : Bool) :
    isTinyOptional (.cls c const volatile) = true := by
  cases h <;> rfl

example : isTinyOptional (.cls (optionalCls 1 0 .nil) true true) = true := C60_library _ (.optional _ _ _) _ _

/-- C60 for everything that is not a class, whatever it refers or points to. -/
theorem C60_not_class (u : TraitTy) (h : ∀ c const volatile, u ≠ .cls c const volatile) : isTinyOptional u = false := by
  cases u with
  | cls c k v => exact absurd rfl (h c k v)
  | _ => rfl

/-- A reference to an optional is not an optional. -/
example : isTinyOptional (.ref true (.cls (optionalCls 1 0 .nil) false false)) = false := C60_not_class _ nofun

/-! ### The exact condition -/

mutual
theorem Cls.mem_lookup (c : Cls) (f : Found) : f ∈ c.lookup ↔
    ∃ pub d, Reaches pub c d ∧ Declares d f.entity f.member ∧ f.accessible = (f.member.isPublic && pub) := by
  match c with
  | .mk l e (some m) bs =>
    simp only [Cls.lookup, List.mem_singleton]
    constructor
    · rintro rfl; exact ⟨true, _, .self _, ⟨_, _, rfl⟩, by simp⟩
    · rintro ⟨pub, d, hr, ⟨l', bs', hd⟩, ha⟩
      cases hr
      cases f; cases hd; simp_all
  | .mk l e none bs =>
    simp only [Cls.lookup]
    rw [Bases.mem_lookup bs f]
    constructor
    · rintro ⟨pub, pub', b, d, hb, hr, hd, ha⟩
      exact ⟨_, d, .step hb hr, hd, ha⟩
    · rintro ⟨pub, d, hr, hd, ha⟩
      cases hr with
      | self => obtain ⟨_, _, h⟩ := hd; cases h
      | step hb hr => exact ⟨_, _, _, d, hb, hr, hd, ha⟩
theorem Bases.mem_lookup (bs : Bases) (f : Found) : f ∈ bs.lookup ↔
    ∃ pub pub' b d, BaseIn pub b bs ∧ Reaches pub' b d ∧ Declares d f.entity f.member ∧
      f.accessible = (f.member.isPublic && (pub && pub')) := by
  match bs with
  | .nil =>
    simp only [Bases.lookup, List.not_mem_nil, false_iff]
    rintro ⟨pub, pub', b, d, hb, _⟩; cases hb
  | .cons p c rest =>
    simp only [Bases.lookup, List.mem_append, List.mem_map]
    constructor
    · rintro (⟨g, hg, rfl⟩ | h)
      · obtain ⟨pub, d, hr, hd, ha⟩ := (Cls.mem_lookup c g).1 hg
        exact ⟨p, pub, c, d, .head _ _ _, hr, hd, by
          simp only [ha, Bool.and_assoc]; rw [Bool.and_comm pub p]⟩
      · obtain ⟨pub, pub', b, d, hb, hr, hd, ha⟩ := (Bases.mem_lookup rest f).1 h
        exact ⟨pub, pub', b, d, .tail _ _ _ hb, hr, hd, ha⟩
    · rintro ⟨pub, pub', b, d, hb, hr, hd, ha⟩
      cases hb with
      | head =>
        refine .inl ⟨{ f with accessible := f.member.isPublic && pub' }, (Cls.mem_lookup c _).2 ⟨pub', d, hr, hd, rfl⟩, ?_⟩
        cases f; simp only at ha; simp only [ha, Bool.and_assoc]; rw [Bool.and_comm pub']
      | tail _ _ _ hb => exact .inr ((Bases.mem_lookup rest f).2 ⟨pub, pub', b, d, hb, hr, hd, ha⟩)
end

/-- The model's lookup finds the member that can be used according to the rules. -/
theorem Cls.member_iff (c : Cls) (hc : Coherent c) (m : Member) : c.member = some m ↔ Usable c m := by
  have ml := Cls.mem_lookup c
  unfold Cls.member
  generalize hl : c.lookup = l at ml
  constructor
  · intro h
    match l, h, ml with
    | f :: fs, h, ml =>
      simp only at h
      split at h
      case isFalse => cases h
      rename_i hall
      split at h
      case isFalse => cases h
      rename_i hany
      injection h with h
      obtain ⟨g, hg, ga⟩ := List.any_eq_true.1 hany
      have same : ∀ g ∈ f :: fs, g.entity = f.entity := by
        intro g hg
        rcases List.mem_cons.1 hg with rfl | hg
        · rfl
        · exact beq_iff_eq.1 (List.all_eq_true.1 hall g hg)
      obtain ⟨pub, d, hr, hd, ha⟩ := (ml g).1 hg
      obtain ⟨pub', d', hr', hd', _⟩ := (ml f).1 (List.mem_cons_self ..)
      rw [ga] at ha
      have hb := Bool.and_eq_true_iff.1 ha.symm
      have hm : g.member = f.member := hc _ _ _ _ _ _ _ hr hr' hd (by rw [same g hg]; exact hd')
      subst h
      refine ⟨f.entity, ⟨d, by rw [← hb.2]; exact hr, by rw [← same g hg, ← hm]; exact hd, by rw [← hm]; exact hb.1⟩, ?_⟩
      intro p d e' m' hr hd
      exact same ⟨e', m', m'.isPublic && p⟩ ((ml _).2 ⟨p, d, hr, hd, rfl⟩)
  · rintro ⟨e, ⟨d, hr, hd, hp⟩, hu⟩
    have hg : ⟨e, m, true⟩ ∈ l := (ml _).2 ⟨true, d, hr, hd, by simp [hp]⟩
    match l, hg, ml with
    | f :: fs, hg, ml =>
      have same : ∀ g ∈ f :: fs, g.entity = e := by
        intro g hg
        obtain ⟨p, d, hr, hd, _⟩ := (ml g).1 hg
        exact hu _ _ _ _ hr hd
      obtain ⟨p', d', hr', hd', _⟩ := (ml f).1 (List.mem_cons_self ..)
      have fe := same f (List.mem_cons_self ..)
      have hm : f.member = m := hc _ _ _ _ _ _ _ hr' hr hd' (by rw [fe]; exact hd)
      simp only
      rw [if_pos, if_pos, hm]
      · exact List.any_eq_true.2 ⟨_, hg, rfl⟩
      · exact List.all_eq_true.2 fun g hg => beq_iff_eq.2 (by rw [fe]; exact same g (List.mem_cons_of_mem _ hg))

/-- C60, exactly: the trait is true for the classes that have a usable member of this name whose value converts to `true`. -/
theorem C60_exact (c : Cls) (hc : Coherent c) (const volatile : Bool) :
    isTinyOptional (.cls c const volatile) = true ↔ ∃ m, Usable c m ∧ m.asBool = some true := by
  have : isTinyOptional (.cls c const volatile) = true ↔ c.member.bind (·.asBool) = some true := by
    unfold isTinyOptional selectHelper
    simp only [Helper.viable, TraitTy.pointable, TraitTy.marker, Bool.true_and, beq_iff_eq]
    split <;> simp_all [Helper.result]
  rw [this, Option.bind_eq_some_iff]
  exact ⟨fun ⟨m, h, h'⟩ => ⟨m, (Cls.member_iff c hc m).1 h, h'⟩, fun ⟨m, h, h'⟩ => ⟨m, (Cls.member_iff c hc m).2 h, h'⟩⟩

/-- C60 for all other classes that have nothing to do with the library: neither they nor their base classes declare the name, so
that none of their base classes is an optional either. -/
theorem C60_other_partial (c : Cls) (const volatile : Bool)
    (h : ∀ pub d e m, Reaches pub c d → ¬ Declares d e m) : isTinyOptional (.cls c const volatile) = false := by
  have : c.lookup = [] := by
    cases hl : c.lookup with
    | nil => rfl
    | cons f fs =>
      obtain ⟨p, d, hr, hd, _⟩ := (Cls.mem_lookup c f).1 (by rw [hl]; exact List.mem_cons_self ..)
      exact absurd hd (h _ _ _ _ hr)
  simp [isTinyOptional, selectHelper, Helper.viable, TraitTy.marker, Cls.member, this, Helper.result]

/-- `std::optional<T>` and its base classes. -/
def stdOptionalCls : Cls := .mk false 7 none (.cons false (.mk false 8 none .nil) .nil)

example : isTinyOptional (.cls stdOptionalCls false false) = false :=
  C60_other_partial _ _ _ fun pub d e m hr hd => by
    obtain ⟨l, bs, rfl⟩ := hd
    cases hr with
    | step hb hr =>
      cases hb with
      | head => cases hr with
        | step hb _ => cases hb
      | tail _ _ _ hb => cases hb

/-! ### The full statement is false -/

/-- A class derived from an optional is not one of the library's, but the trait is true. -/
theorem C60_false_derived : ∃ c : Cls, isTinyOptional (.cls c false false) = true ∧ ¬ Documented (.cls c false false) :=
  ⟨.mk false 2 none (.cons true (optionalCls 1 0 .nil) .nil), rfl, by
    rintro ⟨c, k, v, h, hl⟩
    cases hl <;> simp [implCls, optionalCls] at h⟩

/-- A class of the user with a member of this name, without any relation to the library: it has no base classes. -/
theorem C60_false_member : ∃ e m, isTinyOptional (.cls (.mk false e (some m) .nil) false false) = true ∧
    ¬ Documented (.cls (.mk false e (some m) .nil) false false) :=
  ⟨2, ⟨true, some true⟩, rfl, by
    rintro ⟨c, k, v, h, hl⟩
    cases hl <;> simp [implCls, optionalCls] at h⟩

/-- Whereas a class derived from two different optionals is not recognised: the name is ambiguous. -/
theorem C60_ambiguous (l : Bool) (a b i j e : Nat) (bs bs' : Bases) (hij : i ≠ j) (p q : Bool) :
    isTinyOptional (.cls (.mk l e none (.cons p (optionalCls a i bs) (.cons q (optionalCls b j bs') .nil))) false false) = false := by
  have : (j == i) = false := by simpa using Ne.symm hij
  simp [isTinyOptional, selectHelper, Helper.viable, TraitTy.marker, TraitTy.pointable, Cls.member, Cls.lookup, Bases.lookup, optionalCls, implCls,
    Helper.result, this]

example := C60_ambiguous true 0 1 0 1 5 .nil .nil (by decide) true true

/-- Nor one that is derived from an optional privately. -/
theorem C60_private (l : Bool) (a i e : Nat) (bs : Bases) :
    isTinyOptional (.cls (.mk l e none (.cons false (optionalCls a i bs) .nil)) false false) = false := by
  simp [isTinyOptional, selectHelper, Helper.viable, TraitTy.marker, TraitTy.pointable, Cls.member, Cls.lookup, Bases.lookup, optionalCls, implCls,
    Helper.result]

/-- The hypothesis of `C60_exact` holds for the optionals of the library. -/
private theorem optionalCls_coherent (i j : Nat) (bs : Bases) : Coherent (optionalCls i j bs) := by
  intro p p' d d' e m m' hr hr' ⟨l, b, hd⟩ ⟨l', b', hd'⟩
  have key : ∀ {p d}, Reaches p (optionalCls i j bs) d → ∀ {l e m b}, d = .mk l e (some m) b → m = ⟨true, some true⟩ := by
    intro p d hr l e m b hd
    cases hr with
    | self => cases hd
    | step hb hr =>
      cases hb with
      | head => cases hr; cases hd; rfl
      | tail _ _ _ hb => cases hb
  rw [key hr hd, key hr' hd']

example := C60_exact _ (optionalCls_coherent 1 0 .nil) true false

end Verif.Props
