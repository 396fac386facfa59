import Verif.Lemmas.Assign
import Verif.Lemmas.Step
import Verif.Examples

/-!
# C52: assignment and construction select the right function

For every payload type (described by arbitrary traits), every tiny optional type and every argument.
-/

namespace Verif.Props
open Verif Verif.Model Verif.Spec Verif.Examples

variable {self : OpTy} {P : Payload} {e : ArgE}

/-! ### Payload types for the examples -/

/-- `int`: constructible and assignable from itself and from `long` (`other 2`). -/
def intP : Payload :=
  { ty := .other 1, const := false, volatile := false, scalar := true, isBool := false, initList := false, fromBraces := true,
    constructible := fun u => u.ty == .other 1 || u.ty == .other 2, assignable := fun u => u.ty == .other 1 || u.ty == .other 2,
    convertible := fun u => u.ty == .other 1 || u.ty == .other 2, defaultConstructible := true }

/-- `volatile int`. -/
def volatileIntP : Payload := { intP with volatile := true }

/-- `bool`: constructible, but not convertible or assignable, from everything with an `explicit operator bool`. -/
def boolP : Payload :=
  { ty := .other 3, const := false, volatile := false, scalar := true, isBool := true, initList := false, fromBraces := true,
    constructible := fun u => u.ty == .other 3 || role u.ty == .opt, assignable := fun u => u.ty == .other 3,
    convertible := fun u => u.ty == .other 3, defaultConstructible := true }

/-- `std::any`: takes everything. -/
def anyP : Payload :=
  { ty := .other 4, const := false, volatile := false, scalar := false, isBool := false, initList := false, fromBraces := true,
    constructible := fun _ => true, assignable := fun _ => true, convertible := fun _ => true, defaultConstructible := true }

/-! ### Assignment -/

/-- C52. `o = nullopt` empties the optional, whatever the payload can be constructed from. -/
theorem C52_assign_nullopt (hs : IsTinyOptional self) (P : Payload) (c : Cat) :
    assignDoes self P (.expr ⟨.nullopt, c⟩) = some .nullopt := by
  unfold assignDoes
  rw [selectAssign_nullopt hs]
  cases self with
  | tiny p v => exact selectAssign_nullopt (self := .impl p v) trivial _
  | _ => rfl

example := C52_assign_nullopt (self := .tiny (.other 4) 0) trivial anyP .constLvalue

/-- C52. `o = other` with an optional of the same type copies it, or moves it if it is a modifiable rvalue. -/
theorem C52_assign_self (hs : IsTinyOptional self) (P : Payload) (c : Cat) :
    assignDoes self P (.expr ⟨self, c⟩) = some (if c = .rvalue then .move else .copy) := by
  unfold assignDoes
  rw [selectAssign_self hs]
  cases self <;> cases c <;> rfl

example : assignDoes (.tiny (.other 4) 0) anyP (.expr ⟨.tiny (.other 4) 0, .lvalue⟩) = some .copy :=
  C52_assign_self (self := .tiny _ _) trivial anyP .lvalue

/-- A law of the language: a `const` scalar cannot be assigned to. -/
def ConstScalarLaw (P : Payload) : Prop := P.scalar = true → P.const = true → ∀ u, P.assignable u = false

/-- C52. `o = {}` uses the move assignment from a default constructed temporary, unless the payload is a `std::initializer_list` or
a `volatile` scalar. -/
theorem C52_assign_braces (hl : ConstScalarLaw P) (hi : P.initList = false) (hv : P.scalar = true → P.volatile = false) :
    assignDoes self P .braces = some .move ∧ toRvalueRef self P .braces = some (.user .optDefault .rref) := by
  refine ⟨?_, rfl⟩
  have h : selectAssign self P .braces = some .move := by
    rw [selectAssign_braces]
    refine congrArg some (if_neg ?_)
    rintro ⟨h1, h2⟩
    have hsc : P.scalar = true := by
      rcases h2 with h2 | h2
      · exact h2
      · rw [hi] at h2; cases h2
    obtain ⟨_, h4, _, h5⟩ := enableAssign_iff.mp h1
    cases hc : P.const with
    | false => exact h4 ⟨hsc, by simp [Payload.isDecayOf, Payload.prvalue, hc, hv hsc]⟩
    | true => rw [hl hsc hc] at h5; cases h5
  unfold assignDoes
  rw [h]
  cases self <;> rfl

example := C52_assign_braces (self := .tiny (.other 1) 0) (P := intP) (by intro _ h; cases h) rfl (fun _ => rfl)
example := C52_assign_braces (self := .impl (.other 4) 0) (P := anyP) (by intro h; cases h) rfl (by intro h; cases h)

/-- The exceptions are genuine, and they are those of `std::optional`: `operator=(U&&)` is selected for `{}` exactly if the standard's
constraints allow it for `U = P` and `P` is a scalar or a `std::initializer_list`. -/
theorem C52_assign_braces_iff :
    selectAssign self P .braces = some .value ↔ StdAssignable self P P.prvalue ∧ (P.scalar = true ∨ P.initList = true) := by
  rw [selectAssign_braces, ← enableAssign_iff]
  constructor
  · intro h
    split at h
    · assumption
    · cases h
  · intro h
    rw [if_pos h]

example : selectAssign (.tiny (.other 1) 0) volatileIntP .braces = some .value := by decide

/-- C52. What the move assignment selected for `o = {}` does: the optional `x` is empty afterwards, a payload it had is destroyed,
and the temporary is gone. -/
theorem C52_braces_empties {V G : Type} {Γ : Env V G} {w : World V G} (hΓ : EnvWF Γ) (hw : Reach Γ w) {x tmp : Nat}
    (hxt : Γ x = Γ tmp) (ht : Absent tmp w) (hx : IsEmpty Γ x w ∨ ∃ u, Holds Γ x u w) :
    ∃ w', run Γ (bracesOps x tmp) w = ([.ok .unit, .ok .unit, .ok .unit], w') ∧ Reach Γ w' ∧ IsEmpty Γ x w' ∧ Absent tmp w' ∧
      (IsEmpty Γ x w → w'.user = w.user) ∧ (∀ u, Holds Γ x u w → w'.user = (Γ x).ops.dtor u w.user) := by
  obtain ⟨vars, hs⟩ := hw.view hΓ
  have hne : x ≠ tmp := by
    rintro rfl
    rcases hx with hx | ⟨u, hx⟩
    · rw [IsEmpty, hasValue_absent ht] at hx; simp at hx
    · have := hx.1; rw [hasValue_absent ht] at this; simp at this
  have hne' : tmp ≠ x := hne.symm
  have ht' : vars tmp = none := hs.abs ht
  obtain ⟨w₁, h1, r1, s1⟩ := hw.call hΓ hs (op := .ctorDefault tmp) (r := .ok .unit) trivial
    (by spec_eval [ht']; rfl) (by simp) (by simp [NoReserved])
  rcases hx with hx | ⟨u, hx⟩
  · have hx' : vars x = some none := hs.emp hx
    obtain ⟨w₂, h2, r2, s2⟩ := r1.call hΓ s1 (op := .assignMove x tmp) (r := .ok .unit) hxt
      (by spec_eval [hx', hne, hne']; rfl) (by simp) (by simp [NoReserved])
    obtain ⟨w₃, h3, r3, s3⟩ := r2.call hΓ s2 (op := .dtor tmp) (r := .ok .unit) trivial
      (by spec_eval [hne, hne']; rfl) (by simp) (by simp [NoReserved])
    refine ⟨w₃, by simp [bracesOps, run, h1, h2, h3, SResToRes], r3, s3.isEmpty (by simp [hne, hx']), s3.absent (by simp), fun _ => s3.1, ?_⟩
    intro u hu
    have : vars x = some (some u) := hs.full hu
    rw [hx'] at this; cases this
  · have hx' : vars x = some (some u) := hs.full hx
    obtain ⟨w₂, h2, r2, s2⟩ := r1.call hΓ s1 (op := .assignMove x tmp) (r := .ok .unit) hxt
      (by spec_eval [hx', hne, hne']; rfl) (by simp) (by simp [NoReserved])
    obtain ⟨w₃, h3, r3, s3⟩ := r2.call hΓ s2 (op := .dtor tmp) (r := .ok .unit) trivial
      (by spec_eval [hne, hne']; rfl) (by simp) (by simp [NoReserved])
    refine ⟨w₃, by simp [bracesOps, run, h1, h2, h3, SResToRes], r3, s3.isEmpty (by simp [hne]), s3.absent (by simp), ?_, ?_⟩
    · intro he
      have : vars x = some none := hs.emp he
      rw [hx'] at this; cases this
    · intro u' hu
      have : vars x = some (some u') := hs.full hu
      rw [hx'] at this; cases this
      exact s3.1

example := C52_braces_empties exEnv_wf ex_reach (x := 20) (tmp := 25) rfl ex25 (.inr ⟨_, ex20⟩)

/-- C52. `o = v` for a `v` that has nothing to do with the optional: if the standard's constraints allow it, `v` is assigned to the
payload (or the payload is constructed from it); otherwise, if the payload is implicitly convertible from `v`, a temporary optional
is constructed from `v` and moved; otherwise the program is rejected. -/
theorem C52_assign_value (hs : IsTinyOptional self) (hn : e.ty ≠ .nullopt) (hu : Unrelated self e.ty)
    (hb : ¬(P.isBool = true ∧ isOptional e.ty = true)) :
    (StdAssignable self P e → assignDoes self P (.expr e) = some .value) ∧
    (¬StdAssignable self P e → StdConstructible self P e → P.convertible e = true →
      assignDoes self P (.expr e) = some .move ∧ toRvalueRef self P (.expr e) = some (.user .optValue .rref)) ∧
    (¬StdAssignable self P e → ¬(StdConstructible self P e ∧ P.convertible e = true) → assignDoes self P (.expr e) = none) := by
  have hui := unrelated_impl hs hu
  have hto : toOptional self P e = if enableCtor self P e && P.convertible e then some .optValue else none := by
    simp [toOptional, hn]
  have hoff : ¬StdAssignable self P e → enableAssign self P e = false := by
    intro h
    cases h' : enableAssign self P e with
    | false => rfl
    | true => exact absurd (enableAssign_iff.mp h') h
  refine ⟨fun h => ?_, fun h h2 h3 => ?_, fun h h2 => ?_⟩
  · have h1 : selectAssign self P (.expr e) = some .value := selectAssign_value hn hu (enableAssign_iff.mpr h)
    unfold assignDoes
    rw [h1]
    cases self with
    | tiny p v =>
      refine selectAssign_value hn hui (enableAssign_iff.mpr ⟨unrelated_ne hui, h.2⟩)
    | _ => rfl
  · have h4 : toOptional self P e = some .optValue := by
      rw [hto, (enableCtor_iff hs hu hb).mpr h2, h3]; rfl
    have h1 := selectAssign_temp (P := P) hn hu (hoff h)
    rw [h4] at h1
    refine ⟨?_, by simp [toRvalueRef, unrelated_steps hu, h4]⟩
    unfold assignDoes
    rw [h1]
    cases self <;> rfl
  · have h4 : toOptional self P e = none := by
      rw [hto]
      refine if_neg fun h5 => h2 ?_
      rw [Bool.and_eq_true] at h5
      exact ⟨(enableCtor_iff hs hu hb).mp h5.1, h5.2⟩
    have h1 := selectAssign_temp (P := P) hn hu (hoff h)
    rw [h4] at h1
    unfold assignDoes
    rw [h1]
    cases self <;> rfl

theorem unrelated_other {p : OpTy} {v n : Nat} : Unrelated (.tiny p v) (.other n) := by
  intro s h1 h2
  cases h2
  cases h1 with
  | tiny _ _ h => cases h

/-- `o = 5L` for an `optional<int>` assigns the payload; `o = 5` goes through a temporary. -/
example : assignDoes (.tiny (.other 1) 0) intP (.expr ⟨.other 2, .rvalue⟩) = some .value ∧
    assignDoes (.tiny (.other 1) 0) intP (.expr ⟨.other 1, .rvalue⟩) = some .move :=
  ⟨(C52_assign_value (self := .tiny _ _) trivial (by decide) unrelated_other (by decide)).1 (by unfold StdAssignable; decide),
   ((C52_assign_value (self := .tiny _ _) trivial (by decide) unrelated_other (by decide)).2.1 (by unfold StdAssignable; decide)
      (by unfold StdConstructible; decide) rfl).1⟩
example : assignDoes (.tiny (.other 1) 0) intP (.expr ⟨.other 9, .rvalue⟩) = none := by decide

/-- C52. The constraints of the assignment from a value are those of the standard. -/
theorem C52_assign_constraints (self : OpTy) (P : Payload) (u : ArgE) : enableAssign self P u = true ↔ StdAssignable self P u :=
  enableAssign_iff

example : enableAssign (.tiny (.other 1) 0) intP ⟨.other 2, .lvalue⟩ = true :=
  (C52_assign_constraints _ _ _).mpr (by unfold StdAssignable; decide)

/-! ### Construction -/

/-- C52. Construction from `nullopt`: empty, whatever the payload can be constructed from. -/
theorem C52_construct_nullopt (hs : IsTinyOptional self) (P : Payload) (i : Init) (c : Cat) :
    selectCtor self P i (.expr ⟨.nullopt, c⟩) = some .nullopt := selectCtor_nullopt hs i c

example := C52_construct_nullopt (self := .tiny (.other 4) 0) trivial anyP .copy .constLvalue

/-- C52. Construction from an optional of the same type: copy or move. -/
theorem C52_construct_self (hs : IsTinyOptional self) (P : Payload) (i : Init) (c : Cat) :
    selectCtor self P i (.expr ⟨self, c⟩) = some (if c = .rvalue then .move else .copy) := selectCtor_self hs i c

example : selectCtor (.tiny (.other 4) 0) anyP .direct (.expr ⟨.tiny (.other 4) 0, .lvalue⟩) = some .copy :=
  C52_construct_self (self := .tiny _ _) trivial anyP .direct .lvalue

/-- C52. Construction from `in_place`: the payload is default constructed; the constructor is explicit. -/
theorem C52_construct_in_place (hs : IsTinyOptional self) (P : Payload) (i : Init) (c : Cat) :
    selectCtor self P i (.expr ⟨inPlaceTy, c⟩) = some .inPlace ↔ P.defaultConstructible = true ∧ i = .direct := by
  rw [selectCtor_inPlace hs]
  constructor
  · intro h
    split at h
    · assumption
    · cases h
  · intro h
    rw [if_pos h]

example : selectCtor (.tiny (.other 4) 0) anyP .direct (.expr ⟨inPlaceTy, .constLvalue⟩) = some .inPlace :=
  (C52_construct_in_place (self := .tiny _ _) trivial anyP .direct .constLvalue).mpr ⟨rfl, rfl⟩

/-- C52. Construction from a value that has nothing to do with the optional: possible under the standard's constraints, implicitly
exactly if the value is implicitly convertible to the payload. -/
theorem C52_construct_value (hs : IsTinyOptional self) (hn : e.ty ≠ .nullopt) (hu : Unrelated self e.ty)
    (hb : ¬(P.isBool = true ∧ isOptional e.ty = true)) :
    (StdConstructible self P e → P.convertible e = true → ∀ i, selectCtor self P i (.expr e) = some .value) ∧
    (StdConstructible self P e → P.convertible e = false → selectCtor self P .direct (.expr e) = some .valueExplicit ∧
      selectCtor self P .copy (.expr e) = none) ∧
    (¬StdConstructible self P e → ∀ i, e.ty ≠ inPlaceTy → selectCtor self P i (.expr e) = none) := by
  have hst := unrelated_steps hu
  refine ⟨fun h hc i => ?_, fun h hc => ?_, fun h i hp => ?_⟩
  · rw [selectCtor_value hn h.2.1 hst, if_pos ((enableCtor_iff hs hu hb).mpr h), if_pos hc]
  · constructor <;>
    · rw [selectCtor_value hn h.2.1 hst, if_pos ((enableCtor_iff hs hu hb).mpr h), if_neg (by rw [hc]; decide)]
      rfl
  · rw [selectCtor_value hn hp hst, if_neg fun h' => h ((enableCtor_iff hs hu hb).mp h')]

example : selectCtor (.tiny (.other 1) 0) intP .copy (.expr ⟨.other 2, .rvalue⟩) = some .value :=
  (C52_construct_value (self := .tiny _ _) trivial (by decide) unrelated_other (by decide)).1 (by unfold StdConstructible; decide) rfl _

/-- C52. `O o({})` makes an empty optional unless the payload is a scalar or a `std::initializer_list` (for which it is engaged, as
for `std::optional`). -/
theorem C52_construct_braces (h1 : P.scalar = false) (h2 : P.initList = false) :
    selectCtor self P .direct .braces = some .move ∧ toRvalueRef self P .braces = some (.user .optDefault .rref) := by
  rw [selectCtor_braces]
  simp [h1, h2, toRvalueRef]

example := C52_construct_braces (self := .tiny (.other 4) 0) (P := anyP) rfl rfl
example : selectCtor (.tiny (.other 1) 0) intP .direct .braces = some .value := by decide

/-- C52, part about the constraints of the converting constructor: they agree with the standard's except for arguments that are
related to the optional by inheritance without being of its type, and except for payload `bool` with an optional as argument. What is
missing for the full claim is false, see `C52_false_bool` and `C52_false_derived`. -/
theorem C52_construct_constraints_partial (hs : IsTinyOptional self) (u : ArgE)
    (hu : u.ty = self ∨ Unrelated self u.ty) (hb : ¬(P.isBool = true ∧ isOptional u.ty = true)) :
    enableCtor self P u = true ↔ StdConstructible self P u := by
  rcases hu with hu | hu
  · constructor
    · intro h
      have : isBaseOf (implOf self) u.ty = true := by rw [hu]; exact isBaseOf_iff.mpr (derivesFrom_impl hs)
      simp [enableCtor, this] at h
    · intro h
      exact absurd hu h.2.2.1
  · exact enableCtor_iff hs hu hb

example : enableCtor (.tiny (.other 1) 0) intP ⟨.other 2, .lvalue⟩ = true :=
  (C52_construct_constraints_partial (self := .tiny _ _) trivial _ (.inr unrelated_other) (by decide)).mpr
    (by unfold StdConstructible; decide)

/-! ### Classes related to the optional -/

/-- Every argument type is of one of these kinds: the optional's own type, derived from it, for `tiny::optional` its base class or
something else derived from that, or unrelated. -/
theorem C52_cases (hs : IsTinyOptional self) (t : OpTy) :
    t = self ∨ (DerivesFrom t self ∧ t ≠ self) ∨
    (∃ p v, self = .tiny p v ∧ DerivesFrom t (.impl p v) ∧ ¬DerivesFrom t (.tiny p v)) ∨ Unrelated self t := by
  by_cases h : DerivesFrom t self
  · by_cases h' : t = self
    · exact .inl h'
    · exact .inr (.inl ⟨h, h'⟩)
  cases self with
  | tiny p v =>
    by_cases h' : DerivesFrom t (.impl p v)
    · exact .inr (.inr (.inl ⟨p, v, rfl, h', h⟩))
    · refine .inr (.inr (.inr fun s h1 => ?_))
      cases h1 with
      | refl => exact h
      | tiny _ _ h1 => cases h1; exact h'
  | impl p v =>
    refine .inr (.inr (.inr fun s h1 => ?_))
    cases h1; exact h
  | _ => cases hs

/-- C52. Assigning an object of a class derived from the optional: as for every other value it is assigned to the payload, if the
standard's constraints allow it; otherwise the optional in it is copied or moved. -/
theorem C52_assign_derived (hs : IsTinyOptional self) (hd : DerivesFrom e.ty self) (hne : e.ty ≠ self) :
    (StdAssignable self P e → assignDoes self P (.expr e) = some .value) ∧
    (¬StdAssignable self P e → assignDoes self P (.expr e) = some (if e.cat = .rvalue then .move else .copy)) := by
  have h1 := selectAssign_derived (P := P) hs hd hne
  constructor
  · intro h
    rw [if_pos (enableAssign_iff.mpr h)] at h1
    unfold assignDoes
    rw [h1]
    cases self with
    | tiny p v =>
      have hi : e.ty ≠ .impl p v := by
        intro h'
        rw [h'] at hd
        cases hd
      have h2 := selectAssign_derived (self := .impl p v) (P := P) trivial (hd.trans (.tiny p v (.refl _))) hi
      rw [if_pos (enableAssign_iff.mpr ⟨hi, h.2⟩)] at h2
      exact h2
    | _ => rfl
  · intro h
    rw [if_neg fun h' => h (enableAssign_iff.mp h')] at h1
    unfold assignDoes
    rw [h1]
    cases self <;> cases e.cat <;> rfl

example : assignDoes (.tiny (.other 4) 0) anyP (.expr ⟨.derived (.tiny (.other 4) 0) 3, .lvalue⟩) = some .value :=
  (C52_assign_derived (self := .tiny _ _) trivial (.derived _ (.refl _)) (by decide)).1 (by unfold StdAssignable; decide)
example : assignDoes (.tiny (.other 1) 0) intP (.expr ⟨.derived (.tiny (.other 1) 0) 3, .rvalue⟩) = some .move :=
  (C52_assign_derived (self := .tiny _ _) trivial (.derived _ (.refl _)) (by decide)).2 (by unfold StdAssignable; decide)

/-- C52. Constructing from an object of a class derived from the optional copies or moves the optional in it. -/
theorem C52_construct_derived (hs : IsTinyOptional self) (hd : DerivesFrom e.ty self) (i : Init) :
    selectCtor self P i (.expr e) = some (if e.cat = .rvalue then .move else .copy) := selectCtor_derived hs hd i

example : selectCtor (.impl (.other 4) 0) anyP .copy (.expr ⟨.derived (.tiny (.other 4) 0) 3, .lvalue⟩) = some .copy :=
  C52_construct_derived (self := .impl _ _) trivial (.derived _ (.tiny _ _ (.refl _))) _

/-- Assigning an object of the base class of `tiny::optional` to a `tiny::optional`: if the payload could take it as a value,
`operator=(U&&)` is selected, but it hands it on to the operators of the base class, which copy the optional. Otherwise it is
rejected. -/
theorem C52_assign_base (p : OpTy) (v : Nat) (c : Cat) :
    assignDoes (.tiny p v) P (.expr ⟨.impl p v, c⟩) =
      if enableAssign (.tiny p v) P ⟨.impl p v, c⟩ = true then some (if c = .rvalue then .move else .copy) else none := by
  have h := selectAssign_base (p := p) (v := v) (P := P) (e := ⟨.impl p v, c⟩) (.refl _) (by intro h; cases h)
  unfold assignDoes
  rw [h]
  rcases Bool.eq_false_or_eq_true (enableAssign (.tiny p v) P ⟨.impl p v, c⟩) with h' | h'
  · rw [h', if_pos rfl, if_pos rfl]
    exact selectAssign_self (self := .impl p v) trivial c
  · rw [h']; rfl

example : assignDoes (.tiny (.other 4) 0) anyP (.expr ⟨.impl (.other 4) 0, .lvalue⟩) = some .copy := C52_assign_base _ _ _

/-- Other classes derived from the base class only are values for a `tiny::optional`. -/
theorem C52_assign_base_derived (p : OpTy) (v : Nat) (hd : DerivesFrom e.ty (.impl p v)) (hne : e.ty ≠ .impl p v)
    (hnd : ¬DerivesFrom e.ty (.tiny p v)) :
    assignDoes (.tiny p v) P (.expr e) = if enableAssign (.tiny p v) P e = true then some .value else none := by
  have h := selectAssign_base (P := P) hd hnd
  unfold assignDoes
  rw [h]
  rcases Bool.eq_false_or_eq_true (enableAssign (.tiny p v) P e) with h' | h'
  · rw [h', if_pos rfl]
    have h2 := selectAssign_derived (self := .impl p v) (P := P) trivial hd hne
    rw [if_pos (enableAssign_iff.mpr ⟨hne, (enableAssign_iff.mp h').2⟩)] at h2
    exact h2
  · rw [h']; rfl

example : assignDoes (.tiny (.other 4) 0) anyP (.expr ⟨.derived (.impl (.other 4) 0) 1, .lvalue⟩) = some .value :=
  C52_assign_base_derived _ _ (.derived _ (.refl _)) (by decide) (by intro h; cases h with | derived _ h => cases h)

/-- A `tiny::optional` cannot be constructed from its base class or other classes derived from that. -/
theorem C52_construct_base (p : OpTy) (v : Nat) (hd : DerivesFrom e.ty (.impl p v)) (hnd : ¬DerivesFrom e.ty (.tiny p v)) (i : Init) :
    selectCtor (.tiny p v) P i (.expr e) = none := by
  obtain ⟨h1, h2⟩ := derives_ne (self := .impl p v) trivial hd
  rw [selectCtor_value h1 h2 (not_derives_steps hnd), if_neg]
  rw [enableCtor_derives (self := .tiny p v) hd]
  decide

example : selectCtor (.tiny (.other 4) 0) anyP .direct (.expr ⟨.impl (.other 4) 0, .lvalue⟩) = none :=
  C52_construct_base _ _ (.refl _) (by intro h; cases h) _

/-! ### The selection is no matter of the order of declarations -/

theorem ics_asymm (i j : Ics) (h : i.better j = true) : j.better i = false := by
  cases i <;> cases j <;> simp only [Ics.better, Bool.or_eq_true, Bool.and_eq_true, decide_eq_true_eq, beq_iff_eq, Bool.or_eq_false_iff,
    Bool.and_eq_false_iff, decide_eq_false_iff_not, beq_eq_false_iff_ne, reduceCtorEq] at h ⊢
  · rename_i m a n b
    refine ⟨by omega, ?_⟩
    rcases h with h | ⟨⟨h, ha⟩, hb⟩
    · exact .inl (.inl (by omega))
    · exact .inr (by simp [ha])
  · obtain ⟨⟨_, ha⟩, hb⟩ := h
    exact .inr (by simp [ha])

theorem choice_asymm {F : Type} (a b : Choice F) (h : a.better b = true) : b.better a = false := by
  unfold Choice.better at h ⊢
  rcases hi : a.ics with _ | i <;> rcases hj : b.ics with _ | j <;> simp only [hi, hj] at h ⊢
  have h1 := ics_asymm i j
  revert h h1
  cases i.better j <;> cases j.better i <;> cases a.template <;> cases b.template <;> simp

theorem best_unique {F : Type} [DecidableEq F] {cs : List (Choice F)} {f : F} (h : best cs = some f) :
    ∃ c ∈ cs, c.fn = f ∧ c.ics.isSome = true ∧
      ∀ d ∈ cs, d.ics.isSome = true → d.fn ≠ f → c.better d = true ∧ d.better c = false := by
  simp only [best, Option.map_eq_some_iff] at h
  obtain ⟨c, hf, rfl⟩ := h
  have h1 := List.find?_some hf
  have h2 := List.mem_filter.1 (List.mem_of_find?_eq_some hf)
  refine ⟨c, h2.1, rfl, h2.2, fun d hd hv hne => ?_⟩
  have h3 := List.all_eq_true.1 h1 d (List.mem_filter.2 ⟨hd, hv⟩)
  simp only [Bool.or_eq_true, decide_eq_true_eq] at h3
  rcases h3 with h3 | h3
  · exact absurd h3.symm hne
  · exact ⟨h3, choice_asymm _ _ h3⟩

/-- C52. The assignment operator that is selected is viable and beats all other viable ones, none of which beats it. -/
theorem C52_assign_unique {a : Arg1} {f : AFun} (h : selectAssign self P a = some f) :
    ∃ c ∈ assignCands self P a, c.fn = f ∧ c.ics.isSome = true ∧
      ∀ d ∈ assignCands self P a, d.ics.isSome = true → d.fn ≠ f → c.better d = true ∧ d.better c = false :=
  best_unique h

/-- C52. The same for the constructors. -/
theorem C52_construct_unique {a : Arg1} {i : Init} {f : CFun} (h : selectCtor self P i a = some f) :
    ∃ c ∈ ctorCands self P i a, c.fn = f ∧ c.ics.isSome = true ∧
      ∀ d ∈ ctorCands self P i a, d.ics.isSome = true → d.fn ≠ f → c.better d = true ∧ d.better c = false :=
  best_unique h

example : Unrelated (.tiny (.other 4) 0) (.std (.other 4)) := by
  rcases C52_cases (self := .tiny (.other 4) 0) trivial (.std (.other 4)) with h | h | ⟨p, v, h, h', _⟩ | h
  · cases h
  · cases h.1
  · cases h
    cases h'
  · exact h
example := C52_assign_unique (self := .tiny (.other 1) 0) (P := intP) (a := .expr ⟨.other 2, .rvalue⟩) (f := .value) (by decide)
example := C52_construct_unique (self := .tiny (.other 1) 0) (P := intP) (a := .braces) (i := .direct) (f := .value) (by decide)

/-! ### Disagreements -/

/-- C52 is violated for `optional<bool>`: it can be constructed (explicitly) from every other optional, e.g. from
`optional<int>`, and then holds whether that optional had a value. The standard excludes this. -/
theorem C52_false_bool : ∃ (self : OpTy) (P : Payload) (u : ArgE), IsTinyOptional self ∧ P.isBool = true ∧ u.ty ≠ self ∧
    isOptional u.ty = true ∧ selectCtor self P .direct (.expr u) = some .valueExplicit ∧ ¬StdConstructible self P u :=
  ⟨.tiny (.other 3) 0, boolP, ⟨.tiny (.other 1) 0, .lvalue⟩, trivial, rfl, by decide, rfl, by decide, fun h => by
    have := h.2.2.2 rfl; revert this; decide⟩

/-- C52 is violated for classes derived from the optional: the standard allows the converting constructor for them (an
`optional<any>` constructed from such an object holds that object), the code does not (the optional is copied). -/
theorem C52_false_derived : ∃ (self : OpTy) (P : Payload) (u : ArgE), IsTinyOptional self ∧ DerivesFrom u.ty self ∧
    StdConstructible self P u ∧ enableCtor self P u = false ∧ selectCtor self P .direct (.expr u) = some .copy :=
  ⟨.tiny (.other 4) 0, anyP, ⟨.derived (.tiny (.other 4) 0) 0, .lvalue⟩, trivial, .derived 0 (.refl _),
    ⟨rfl, by decide, by decide, by intro h; cases h⟩, by decide, by decide⟩

/-- For such an argument construction and assignment do different things: `O o(d)` copies the optional in `d`, `o = d` stores `d` in
the payload. For a tiny optional other than `tiny::optional` the library's own `tiny::optional` is such a class. -/
theorem C52_construct_vs_assign : ∃ (self : OpTy) (P : Payload) (u : ArgE), IsTinyOptional self ∧ IsTinyOptional u.ty ∧
    DerivesFrom u.ty self ∧ selectCtor self P .direct (.expr u) = some .copy ∧ assignDoes self P (.expr u) = some .value :=
  ⟨.impl (.other 4) 0, anyP, ⟨.tiny (.other 4) 0, .lvalue⟩, trivial, trivial, .tiny _ _ (.refl _), by decide, by decide⟩

end Verif.Props
