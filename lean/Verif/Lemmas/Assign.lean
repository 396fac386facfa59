import Verif.Model.Assign

/-! # Lemmas about the selection of assignments and constructors -/

namespace Verif.Model
open Verif.Spec

theorem baseSteps_self (t : OpTy) : baseSteps t t = some 0 := by
  unfold baseSteps; simp

theorem derivesFrom_of_baseSteps : ∀ (t s : OpTy) (n : Nat), baseSteps t s = some n → DerivesFrom t s := by
  intro t s
  induction t with
  | derived b k ih =>
    intro n h
    unfold baseSteps at h
    split at h
    · next e => exact e ▸ .refl _
    · simp only [Option.map_eq_some_iff] at h
      obtain ⟨m, h1, _⟩ := h
      exact .derived k (ih m h1)
  | tiny p v =>
    intro n h
    unfold baseSteps at h
    split at h
    · next e => exact e ▸ .refl _
    · simp only at h
      split at h
      · next e => exact e ▸ .tiny p v (.refl _)
      · cases h
  | _ =>
    intro n h
    unfold baseSteps at h
    split at h
    · next e => exact e ▸ .refl _
    · simp at h

theorem baseSteps_of_derivesFrom {t s : OpTy} (h : DerivesFrom t s) : (baseSteps t s).isSome := by
  induction h with
  | refl t => simp [baseSteps_self]
  | @tiny p v s h _ =>
    cases h
    unfold baseSteps
    simp
  | @derived b s n h ih =>
    unfold baseSteps
    split
    · rfl
    · simpa using ih

theorem isBaseOf_iff {s t : OpTy} : isBaseOf s t = true ↔ DerivesFrom t s := by
  constructor
  · intro h
    obtain ⟨n, hn⟩ := Option.isSome_iff_exists.mp h
    exact derivesFrom_of_baseSteps _ _ n hn
  · exact baseSteps_of_derivesFrom

theorem derivesFrom_impl {self : OpTy} (h : IsTinyOptional self) : DerivesFrom self (implOf self) := by
  cases self with
  | tiny p v => exact .tiny p v (.refl _)
  | impl p v => exact .refl _
  | _ => cases h

theorem isTiny_impl {self : OpTy} (h : IsTinyOptional self) : IsTinyOptional (implOf self) := by
  cases self with
  | tiny p v => trivial
  | impl p v => trivial
  | _ => cases h

theorem ne_nullopt {self : OpTy} (h : IsTinyOptional self) : self ≠ .nullopt := by rintro rfl; exact h
theorem ne_inPlace {self : OpTy} (h : IsTinyOptional self) : self ≠ inPlaceTy := by rintro rfl; exact h

theorem nullopt_steps {self : OpTy} (h : IsTinyOptional self) : baseSteps .nullopt self = none := by
  unfold baseSteps
  rw [if_neg (ne_nullopt h).symm]

theorem inPlace_steps {self : OpTy} (h : IsTinyOptional self) : baseSteps inPlaceTy self = none := by
  unfold baseSteps
  rw [if_neg (ne_inPlace h).symm]
  rfl

theorem unrelated_steps {self t : OpTy} (hu : Unrelated self t) : baseSteps t self = none := by
  cases h : baseSteps t self with
  | none => rfl
  | some n => exact absurd (derivesFrom_of_baseSteps _ _ n h) (hu self (.refl _))

theorem unrelated_impl {self t : OpTy} (hs : IsTinyOptional self) (hu : Unrelated self t) : Unrelated (implOf self) t := by
  intro s h1
  refine hu s ?_
  cases self with
  | tiny p v => exact .tiny p v h1
  | impl p v => exact h1
  | _ => cases hs

theorem unrelated_ne {self t : OpTy} (hu : Unrelated self t) : t ≠ self := by
  rintro rfl; exact hu t (.refl _) (.refl _)

theorem unrelated_not_base {self t : OpTy} (hs : IsTinyOptional self) (hu : Unrelated self t) :
    isBaseOf (implOf self) t = false := by
  cases h : isBaseOf (implOf self) t with
  | false => rfl
  | true => exact absurd (isBaseOf_iff.mp h) (hu _ (derivesFrom_impl hs))

theorem enableAssign_iff {self : OpTy} {P : Payload} {u : ArgE} : enableAssign self P u = true ↔ StdAssignable self P u := by
  unfold enableAssign StdAssignable
  simp only [Bool.and_eq_true, Bool.not_eq_true', decide_eq_false_iff_not, Bool.or_eq_true, not_and, Bool.not_eq_true]
  constructor
  · rintro ⟨⟨⟨h1, h2⟩, h3⟩, h4⟩
    refine ⟨h1, fun h => ?_, h2, h3⟩
    rcases h4 with h4 | h4
    · rw [h] at h4; cases h4
    · exact h4
  · rintro ⟨h1, h2, h3, h4⟩
    refine ⟨⟨⟨h1, h3⟩, h4⟩, ?_⟩
    cases h : P.scalar with
    | false => exact .inl rfl
    | true => exact .inr (h2 h)

/-- The constraint of the converting constructor for arguments unrelated to the optional. -/
theorem enableCtor_iff {self : OpTy} {P : Payload} {u : ArgE} (hs : IsTinyOptional self) (hu : Unrelated self u.ty)
    (hb : ¬(P.isBool = true ∧ isOptional u.ty = true)) : enableCtor self P u = true ↔ StdConstructible self P u := by
  unfold enableCtor StdConstructible
  rw [unrelated_not_base hs hu]
  have h1 := unrelated_ne hu
  have h2 := unrelated_ne (unrelated_impl hs hu)
  have h3 : P.isBool = true → isOptional u.ty = false := by
    intro h
    cases h' : isOptional u.ty with
    | false => rfl
    | true => exact absurd ⟨h, h'⟩ hb
  simp [h1, h2, Bool.and_eq_true]
  exact fun _ _ h => h3 h

/-! ## Selection in terms of the conversions -/

theorem pick4 (n : Option Ics) (v : Option Ics) (c m : Option Ics) {self : OpTy} {P : Payload} {a : Arg1}
    (hc : toConstRef self P a = c) (hm : toRvalueRef self P a = m) (hn : toNullopt a = n)
    (hv : toForward P (enableAssign self P) a = v) :
    selectAssign self P a = best [⟨.copy, false, c⟩, ⟨.move, false, m⟩, ⟨.nullopt, false, n⟩, ⟨.value, true, v⟩] := by
  unfold selectAssign assignCands
  rw [hc, hm, hn, hv]

/-- `o = nullopt`. -/
theorem selectAssign_nullopt {self : OpTy} {P : Payload} (hs : IsTinyOptional self) (c : Cat) :
    selectAssign self P (.expr ⟨.nullopt, c⟩) = some .nullopt := by
  have h1 : toConstRef self P (.expr ⟨.nullopt, c⟩) = some (.user .optNullopt .lref) := by
    simp [toConstRef, nullopt_steps hs, toOptional]
  have h2 : toRvalueRef self P (.expr ⟨.nullopt, c⟩) = some (.user .optNullopt .rref) := by
    simp [toRvalueRef, nullopt_steps hs, toOptional]
  rw [pick4 _ _ _ _ h1 h2 rfl rfl]
  simp only [toNullopt, if_true, toForward]
  split
  · cases c <;> rfl
  · rfl

/-- `o = other` with the same type. -/
theorem selectAssign_self {self : OpTy} {P : Payload} (hs : IsTinyOptional self) (c : Cat) :
    selectAssign self P (.expr ⟨self, c⟩) = some (if c = .rvalue then .move else .copy) := by
  have h1 : toConstRef self P (.expr ⟨self, c⟩) = some (.std 0 .lref) := by simp [toConstRef, baseSteps_self]
  have h2 : toRvalueRef self P (.expr ⟨self, c⟩) = if c = .rvalue then some (.std 0 .rref) else none := by
    simp [toRvalueRef, baseSteps_self]
  have h3 : toNullopt (.expr ⟨self, c⟩) = none := by simp [toNullopt, ne_nullopt hs]
  have h4 : toForward P (enableAssign self P) (.expr ⟨self, c⟩) = none := by simp [toForward, enableAssign]
  rw [pick4 _ _ _ _ h1 h2 h3 h4]
  cases c <;> rfl

/-- `o = v` with an unrelated type. -/
theorem selectAssign_value {self : OpTy} {P : Payload} {e : ArgE} (hn : e.ty ≠ .nullopt)
    (hu : Unrelated self e.ty) (he : enableAssign self P e = true) : selectAssign self P (.expr e) = some .value := by
  have h1 : toConstRef self P (.expr e) = (toOptional self P e).map (.user · .lref) := by
    simp [toConstRef, unrelated_steps hu]
  have h2 : toRvalueRef self P (.expr e) = (toOptional self P e).map (.user · .rref) := by
    simp [toRvalueRef, unrelated_steps hu]
  have h3 : toNullopt (.expr e) = none := by simp [toNullopt, hn]
  rw [pick4 _ _ _ _ h1 h2 h3 rfl]
  simp only [toForward, he, if_true]
  cases toOptional self P e with
  | none => rfl
  | some f => split <;> cases f <;> rfl

theorem selectAssign_temp {self : OpTy} {P : Payload} {e : ArgE} (hn : e.ty ≠ .nullopt) (hu : Unrelated self e.ty)
    (he : enableAssign self P e = false) :
    selectAssign self P (.expr e) = (toOptional self P e).map fun _ => .move := by
  have h1 : toConstRef self P (.expr e) = (toOptional self P e).map (.user · .lref) := by
    simp [toConstRef, unrelated_steps hu]
  have h2 : toRvalueRef self P (.expr e) = (toOptional self P e).map (.user · .rref) := by
    simp [toRvalueRef, unrelated_steps hu]
  have h3 : toNullopt (.expr e) = none := by simp [toNullopt, hn]
  have h4 : toForward P (enableAssign self P) (.expr e) = none := by simp [toForward, he]
  rw [pick4 _ _ _ _ h1 h2 h3 h4]
  cases toOptional self P e with
  | none => rfl
  | some f => cases f <;> rfl

/-- `o = {}`. -/
theorem selectAssign_braces {self : OpTy} {P : Payload} :
    selectAssign self P .braces = some (if enableAssign self P P.prvalue = true ∧ (P.scalar = true ∨ P.initList = true)
      then .value else .move) := by
  rw [pick4 _ _ _ _ rfl rfl rfl rfl]
  simp only [toConstRef, toRvalueRef, toNullopt, toForward, bracesToPayload]
  cases enableAssign self P P.prvalue <;> cases P.scalar <;> cases P.initList <;> cases P.fromBraces <;> rfl

/-! ## Constructors -/

theorem pick6 {self : OpTy} {P : Payload} {i : Init} {a : Arg1} {c m n p v x : Option Ics}
    (hc : toConstRef self P a = c) (hm : toRvalueRef self P a = m) (hn : toNullopt a = n)
    (hp : toInPlace P i a = p)
    (hv : toForward P (fun u => enableCtor self P u && P.convertible u) a = v)
    (hx : (if i = .direct then toForward P (fun u => enableCtor self P u && !P.convertible u) a else none) = x) :
    selectCtor self P i a = best [⟨.copy, false, c⟩, ⟨.move, false, m⟩, ⟨.nullopt, false, n⟩, ⟨.inPlace, true, p⟩,
      ⟨.value, true, v⟩, ⟨.valueExplicit, true, x⟩] := by
  subst hc hm hn hp hv hx
  rfl

theorem selectCtor_nullopt {self : OpTy} {P : Payload} (hs : IsTinyOptional self) (i : Init) (c : Cat) :
    selectCtor self P i (.expr ⟨.nullopt, c⟩) = some .nullopt := by
  have h1 : toConstRef self P (.expr ⟨.nullopt, c⟩) = some (.user .optNullopt .lref) := by
    simp [toConstRef, nullopt_steps hs, toOptional]
  have h2 : toRvalueRef self P (.expr ⟨.nullopt, c⟩) = some (.user .optNullopt .rref) := by
    simp [toRvalueRef, nullopt_steps hs, toOptional]
  rw [pick6 h1 h2 rfl rfl rfl rfl]
  simp only [toNullopt, toForward, toInPlace, if_true, inPlaceTy, reduceCtorEq, false_and, if_false]
  cases enableCtor self P ⟨.nullopt, c⟩ <;> cases P.convertible ⟨.nullopt, c⟩ <;> cases c <;> cases i <;> rfl

theorem selectCtor_self {self : OpTy} {P : Payload} (hs : IsTinyOptional self) (i : Init) (c : Cat) :
    selectCtor self P i (.expr ⟨self, c⟩) = some (if c = .rvalue then .move else .copy) := by
  have h1 : toConstRef self P (.expr ⟨self, c⟩) = some (.std 0 .lref) := by simp [toConstRef, baseSteps_self]
  have h2 : toRvalueRef self P (.expr ⟨self, c⟩) = if c = .rvalue then some (.std 0 .rref) else none := by
    simp [toRvalueRef, baseSteps_self]
  have h3 : toNullopt (.expr ⟨self, c⟩) = none := by simp [toNullopt, ne_nullopt hs]
  have hd : enableCtor self P ⟨self, c⟩ = false := by
    simp [enableCtor, isBaseOf_iff.mpr (derivesFrom_impl hs)]
  rw [pick6 h1 h2 h3 rfl rfl rfl]
  simp only [toForward, toInPlace, hd, ne_inPlace hs, false_and, if_false, Bool.false_and, Bool.false_eq_true]
  cases c <;> cases i <;> rfl

theorem selectCtor_inPlace {self : OpTy} {P : Payload} (hs : IsTinyOptional self) (i : Init) (c : Cat) :
    selectCtor self P i (.expr ⟨inPlaceTy, c⟩) = if P.defaultConstructible = true ∧ i = .direct then some .inPlace else none := by
  have hd : enableCtor self P ⟨inPlaceTy, c⟩ = false := by simp [enableCtor]
  have ho : toOptional self P ⟨inPlaceTy, c⟩ = none := by
    unfold toOptional
    rw [hd]
    rfl
  have h1 : toConstRef self P (.expr ⟨inPlaceTy, c⟩) = none := by simp [toConstRef, inPlace_steps hs, ho]
  have h2 : toRvalueRef self P (.expr ⟨inPlaceTy, c⟩) = none := by simp [toRvalueRef, inPlace_steps hs, ho]
  have h3 : toNullopt (.expr ⟨inPlaceTy, c⟩) = none := by simp [toNullopt, inPlaceTy]
  rw [pick6 h1 h2 h3 rfl rfl rfl]
  simp only [toForward, toInPlace, hd, true_and, Bool.false_and, Bool.false_eq_true, if_false]
  cases P.defaultConstructible <;> cases i <;> rfl

theorem selectCtor_value {self : OpTy} {P : Payload} {e : ArgE} (hn : e.ty ≠ .nullopt) (hp : e.ty ≠ inPlaceTy)
    (hu : baseSteps e.ty self = none) (i : Init) :
    selectCtor self P i (.expr e) =
      if enableCtor self P e = true then
        if P.convertible e = true then some .value else if i = .direct then some .valueExplicit else none
      else none := by
  have h1 : toConstRef self P (.expr e) = (toOptional self P e).map (.user · .lref) := by simp [toConstRef, hu]
  have h2 : toRvalueRef self P (.expr e) = (toOptional self P e).map (.user · .rref) := by simp [toRvalueRef, hu]
  have h3 : toNullopt (.expr e) = none := by simp [toNullopt, hn]
  have ho : toOptional self P e = if enableCtor self P e && P.convertible e then some .optValue else none := by
    simp [toOptional, hn]
  rw [pick6 h1 h2 h3 rfl rfl rfl, ho]
  simp only [toForward, toInPlace, hp, false_and, if_false]
  rcases Bool.eq_false_or_eq_true (enableCtor self P e) with h | h <;>
    rcases Bool.eq_false_or_eq_true (P.convertible e) with h' | h' <;>
    simp only [h, h', Bool.and_true, Bool.and_false, Bool.not_true, Bool.not_false, Bool.false_eq_true, if_true, if_false,
      Option.map_some, Option.map_none] <;>
    cases i <;> split <;> first | rfl | contradiction

/-- `O o({})`. -/
theorem selectCtor_braces {self : OpTy} {P : Payload} :
    selectCtor self P .direct .braces =
      if enableCtor self P P.prvalue = true ∧ (P.scalar = true ∨ P.initList = true) then
        if P.convertible P.prvalue = true then some .value else some .valueExplicit
      else some .move := by
  rw [pick6 rfl rfl rfl rfl rfl rfl]
  simp only [toConstRef, toRvalueRef, toNullopt, toForward, toInPlace, bracesToPayload, if_true]
  rcases Bool.eq_false_or_eq_true (enableCtor self P P.prvalue) with h | h <;>
    rcases Bool.eq_false_or_eq_true (P.convertible P.prvalue) with h' | h' <;>
    simp only [h, h', Bool.and_true, Bool.and_false, Bool.not_true, Bool.not_false, Bool.false_eq_true, if_true, if_false,
      true_and, false_and] <;>
    cases P.scalar <;> cases P.initList <;> cases P.fromBraces <;> rfl

/-! ## Classes derived from the optional, and from its base class only -/

theorem _root_.Verif.Spec.DerivesFrom.trans {a b c : OpTy} (h1 : DerivesFrom a b) (h2 : DerivesFrom b c) : DerivesFrom a c := by
  induction h1 with
  | refl t => exact h2
  | tiny p v _ ih => exact .tiny p v (ih h2)
  | derived n _ ih => exact .derived n (ih h2)

theorem baseSteps_pos {t s : OpTy} (h : DerivesFrom t s) (hne : t ≠ s) : ∃ n, baseSteps t s = some (n + 1) := by
  cases h with
  | refl => exact absurd rfl hne
  | tiny p v h =>
    cases h
    exact ⟨0, by unfold baseSteps; simp⟩
  | derived n h =>
    obtain ⟨m, hm⟩ := Option.isSome_iff_exists.mp (baseSteps_of_derivesFrom h)
    exact ⟨m, by unfold baseSteps; rw [if_neg hne]; simp [hm]⟩

theorem not_derives_steps {t s : OpTy} (h : ¬DerivesFrom t s) : baseSteps t s = none := by
  cases h' : baseSteps t s with
  | none => rfl
  | some n => exact absurd (derivesFrom_of_baseSteps _ _ n h') h

theorem derives_ne {self t : OpTy} (hs : IsTinyOptional self) (h : DerivesFrom t self) : t ≠ .nullopt ∧ t ≠ inPlaceTy := by
  constructor <;> (rintro rfl; cases h; exact hs)

theorem enableCtor_derives {self : OpTy} {P : Payload} {u : ArgE} (h : DerivesFrom u.ty (implOf self)) :
    enableCtor self P u = false := by
  simp [enableCtor, isBaseOf_iff.mpr h]

/-- `o = d` with an object of a derived class: an exact match for `U&&`, a conversion for the special members. -/
theorem selectAssign_derived {self : OpTy} {P : Payload} {e : ArgE} (hs : IsTinyOptional self) (hd : DerivesFrom e.ty self)
    (hne : e.ty ≠ self) :
    selectAssign self P (.expr e) =
      some (if enableAssign self P e = true then .value else if e.cat = .rvalue then .move else .copy) := by
  obtain ⟨n, hn⟩ := baseSteps_pos hd hne
  have h1 : toConstRef self P (.expr e) = some (.std (n + 1) .lref) := by simp [toConstRef, hn]
  have h2 : toRvalueRef self P (.expr e) = if e.cat = .rvalue then some (.std (n + 1) .rref) else none := by
    simp [toRvalueRef, hn]
  have h3 : toNullopt (.expr e) = none := by simp [toNullopt, (derives_ne hs hd).1]
  rw [pick4 _ _ _ _ h1 h2 h3 rfl]
  simp only [toForward]
  rcases Bool.eq_false_or_eq_true (enableAssign self P e) with h | h <;>
    cases hc : e.cat <;> simp [h, best, Choice.better, Ics.better, List.find?]

/-- Construction from an object of a derived class. -/
theorem selectCtor_derived {self : OpTy} {P : Payload} {e : ArgE} (hs : IsTinyOptional self) (hd : DerivesFrom e.ty self) (i : Init) :
    selectCtor self P i (.expr e) = some (if e.cat = .rvalue then .move else .copy) := by
  obtain ⟨n, hn⟩ := Option.isSome_iff_exists.mp (baseSteps_of_derivesFrom hd)
  have h1 : toConstRef self P (.expr e) = some (.std n .lref) := by simp [toConstRef, hn]
  have h2 : toRvalueRef self P (.expr e) = if e.cat = .rvalue then some (.std n .rref) else none := by
    simp [toRvalueRef, hn]
  have h3 : toNullopt (.expr e) = none := by simp [toNullopt, (derives_ne hs hd).1]
  have h := enableCtor_derives (P := P) (hd.trans (derivesFrom_impl hs))
  rw [pick6 h1 h2 h3 rfl rfl rfl]
  simp only [toForward, toInPlace, h, (derives_ne hs hd).2, false_and, if_false, Bool.false_and, Bool.false_eq_true]
  cases hc : e.cat <;> cases i <;> simp [best, Choice.better, Ics.better, List.find?]

/-- `o = b` with an object of the base class of `tiny::optional` or of another class derived from that. -/
theorem selectAssign_base {p : OpTy} {v : Nat} {P : Payload} {e : ArgE} (hd : DerivesFrom e.ty (.impl p v))
    (hnd : ¬DerivesFrom e.ty (.tiny p v)) :
    selectAssign (.tiny p v) P (.expr e) = if enableAssign (.tiny p v) P e = true then some .value else none := by
  have hn := (derives_ne (self := .impl p v) trivial hd).1
  have ho : toOptional (.tiny p v) P e = none := by
    simp [toOptional, hn, enableCtor_derives (self := .tiny p v) (P := P) hd]
  have h1 : toConstRef (.tiny p v) P (.expr e) = none := by simp [toConstRef, not_derives_steps hnd, ho]
  have h2 : toRvalueRef (.tiny p v) P (.expr e) = none := by simp [toRvalueRef, not_derives_steps hnd, ho]
  have h3 : toNullopt (.expr e) = none := by simp [toNullopt, hn]
  rw [pick4 _ _ _ _ h1 h2 h3 rfl]
  simp only [toForward]
  rcases Bool.eq_false_or_eq_true (enableAssign (.tiny p v) P e) with h | h <;> simp [h, best]

end Verif.Model
