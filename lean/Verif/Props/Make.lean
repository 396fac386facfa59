import Verif.Model.Make
import Verif.Props.Assign

/-!
# C54: `make_optional` and the deduction guide
-/

namespace Verif.Props
open Verif Verif.Model Verif.Spec

/-! ### Types that cannot be related -/

theorem derives_size {t s : OpTy} (h : DerivesFrom t s) : sizeOf s ≤ sizeOf t := by
  induction h with
  | refl => exact Nat.le_refl _
  | tiny p v _ ih => simp at ih ⊢; omega
  | derived n _ ih => simp at ih ⊢; omega

/-- An optional has nothing to do with its payload type, even if that is an optional. -/
theorem unrelated_payload (t : OpTy) (v : Nat) : Unrelated (.tiny t v) t := by
  intro s h1 h2
  have h3 := derives_size h2
  cases h1 with
  | refl => simp at h3; omega
  | tiny _ _ h1 => cases h1; simp at h3; omega

/-! ### Without template arguments -/

/-- What a payload type has to satisfy for `make_optional(e)` and `optional(e)`: it is `std::decay_t` of the argument's type, and can be
constructed from the argument. `nullopt_t` and `in_place_t` are no payloads. -/
structure Decays (e : ArgE) (P : Payload) : Prop where
  ty : P.ty = e.ty
  const : P.const = false
  volatile : P.volatile = false
  constructible : P.constructible e = true
  notNullopt : e.ty ≠ .nullopt
  notInPlace : e.ty ≠ inPlaceTy
  bool : P.isBool = true → isOptional P.ty = false

/-- The converting constructors: the payload is constructed from the argument. -/
def TakesValue (self : OpTy) (P : Payload) (e : ArgE) : Prop :=
  selectCtor self P .direct (.expr e) = some .value ∨ selectCtor self P .direct (.expr e) = some .valueExplicit

theorem takesValue {e : ArgE} {P : Payload} (h : Decays e P) (v : Nat) : TakesValue (.tiny P.ty v) P e := by
  have hu : Unrelated (.tiny P.ty v) e.ty := by rw [h.ty]; exact unrelated_payload _ _
  have hb : ¬(P.isBool = true ∧ isOptional e.ty = true) := by
    rintro ⟨h1, h2⟩
    rw [← h.ty, h.bool h1] at h2
    cases h2
  have hc := C52_construct_value (self := .tiny P.ty v) (P := P) trivial h.notNullopt hu hb
  have hs : StdConstructible (.tiny P.ty v) P e :=
    ⟨h.constructible, h.notInPlace, fun h' => hu _ (.refl _) (h' ▸ .refl _), fun h' => by rw [← h.ty]; exact h.bool h'⟩
  cases hv : P.convertible e with
  | true => exact .inl (hc.1 hs hv _)
  | false => exact .inr (hc.2.1 hs hv).1

/-- C54. `make_optional(e)` is an optional of the decayed type without sentinel; its payload is constructed from the argument, whatever
that is: also an optional becomes the payload. -/
theorem C54_deduced {e : ArgE} {P : Payload} (h : Decays e P) :
    makeDeduced e = (⟨P.ty, P.const, P.volatile, defaultVariant⟩, .value e) ∧ TakesValue (.tiny P.ty defaultVariant) P e :=
  ⟨by rw [h.ty, h.const, h.volatile]; rfl, takesValue h _⟩

theorem intP_decays (c : Cat) : Decays ⟨.other 1, c⟩ intP :=
  ⟨rfl, rfl, rfl, rfl, nofun, nofun, nofun⟩

/-- `tiny::optional<int>` as a payload. -/
def nestedP : Payload := { anyP with ty := .tiny (.other 1) 0 }

theorem nestedP_decays (c : Cat) : Decays ⟨.tiny (.other 1) 0, c⟩ nestedP :=
  ⟨rfl, rfl, rfl, rfl, nofun, nofun, nofun⟩

example := C54_deduced (intP_decays .constLvalue)
example := C54_deduced (nestedP_decays .lvalue)

/-! ### With a payload type -/

/-- The arguments that the constructor of the payload gets. -/
def payloadArgs : Build → List MArg
  | .value e => [.expr e]
  | .temporary a => [a]
  | .inPlace es => es.map .expr
  | .inPlaceList a es => a :: es.map .expr

theorem exprs_map (es : List ArgE) : exprs (es.map .expr) = some es := by
  induction es with
  | nil => rfl
  | cons e es ih => simp [exprs, ih]

theorem exprs_eq {as : List MArg} {es : List ArgE} (h : exprs as = some es) : as = es.map .expr := by
  induction as generalizing es with
  | nil => cases h; rfl
  | cons a as ih =>
    cases a with
    | list _ _ => cases h
    | expr e =>
      simp only [exprs, Option.map_eq_some_iff] at h
      obtain ⟨es', h, rfl⟩ := h
      simp [ih h]

variable {isIL : OpTy → Bool} {P : Payload}

/-- The selection for arguments that are all expressions. -/
theorem selectMake_exprs (es : List ArgE) :
    selectMake isIL P (es.map .expr) = some (
      if (es.head?.map (isIL ·.ty)).getD false then .list
      else if es.length = 1 ∧ makeConv isIL P (es.map .expr) .value = some .identity then .value
      else .inPlace) := by
  unfold selectMake
  have h2 : makeConv isIL P (es.map .expr) .inPlace = some .identity := by simp [makeConv, exprs_map]
  cases es with
  | nil => rfl
  | cons e es =>
    have h3 : makeConv isIL P ((e :: es).map .expr) .list = if isIL e.ty then some .identity else none := by
      simp [makeConv, exprs_map]
    have h1 : makeConv isIL P ((e :: es).map .expr) .value = some .identity → es = [] := by
      cases es with
      | nil => intro; rfl
      | cons _ _ => intro h; cases h
    have h4 : makeConv isIL P ((e :: es).map .expr) .value ≠ some .toList := by
      cases es with
      | cons _ _ => intro h; cases h
      | nil =>
        simp only [makeConv, List.map, toRvalue]
        repeat' split
        all_goals simp
    generalize hc : makeConv isIL P ((e :: es).map .expr) = c at *
    cases hi : isIL e.ty with
    | true =>
      simp only [hi, if_true] at h3
      rcases hv : c .value with _ | (_ | _ | _ | _)
      all_goals simp [List.find?, h2, h3, hv, hi, makeBetter, MConv.better, MFun.moreSpecialized] at h4 ⊢
      all_goals rfl
    | false =>
      simp only [hi] at h3
      rcases hv : c .value with _ | (_ | _ | _ | _)
      all_goals simp [List.find?, h2, h3, hv, hi, makeBetter, MConv.better, MFun.moreSpecialized] at h1 h4 ⊢
      all_goals first | assumption | rfl

theorem identity_ty {e : ArgE} (h : toRvalue P (.expr e) = some .identity) : e.ty = P.ty ∧
    (match e.cat with
      | .rvalue => P.const = false ∧ P.volatile = false
      | .constRvalue => P.const = true ∧ P.volatile = false
      | _ => False) := by
  obtain ⟨t, cat⟩ := e
  simp only [toRvalue] at h
  split at h
  · next ht =>
    refine ⟨ht, ?_⟩
    cases cat <;> cases hc : P.const <;> cases hv : P.volatile <;> simp [hc, hv] at h <;> simp
  · split at h
    · cases cat <;> simp at h
    · split at h <;> cases h

theorem explicit_cases (e : ArgE) (es : List ArgE) (v : Nat) :
    (isIL e.ty = true ∧ makeExplicit isIL P v ((e :: es).map .expr) =
      some (⟨P.ty, P.const, P.volatile, v⟩, .inPlaceList (.expr e) es)) ∨
    (isIL e.ty = false ∧ es = [] ∧ toRvalue P (.expr e) = some .identity ∧ makeExplicit isIL P v ((e :: es).map .expr) =
      some (⟨P.ty, false, false, v⟩, .value P.prvalue)) ∨
    (isIL e.ty = false ∧ ¬(es = [] ∧ toRvalue P (.expr e) = some .identity) ∧ makeExplicit isIL P v ((e :: es).map .expr) =
      some (⟨P.ty, P.const, P.volatile, v⟩, .inPlace (e :: es))) := by
  have hs := selectMake_exprs (isIL := isIL) (P := P) (e :: es)
  cases hi : isIL e.ty with
  | true =>
    have : selectMake isIL P ((e :: es).map .expr) = some .list := by rw [hs]; simp [hi]
    exact .inl ⟨rfl, by rw [makeExplicit, this]; simp [makeWith, exprs_map]⟩
  | false =>
    refine .inr ?_
    by_cases hv : es = [] ∧ toRvalue P (.expr e) = some .identity
    · obtain ⟨rfl, hv⟩ := hv
      have : selectMake isIL P ([e].map .expr) = some .value := by rw [hs]; simp [hi, makeConv, hv]
      exact .inl ⟨rfl, rfl, hv, by rw [makeExplicit, this]; simp [makeWith, (identity_ty hv).1]⟩
    · have : selectMake isIL P ((e :: es).map .expr) = some .inPlace := by
        rw [hs]
        have hn : ¬((e :: es).length = 1 ∧ makeConv isIL P ((e :: es).map .expr) .value = some .identity) := by
          rintro ⟨h1, h2⟩
          cases es with
          | nil => exact hv ⟨rfl, h2⟩
          | cons _ _ => simp at h1
        rw [if_neg (by simp [hi]), if_neg hn]
      exact .inr ⟨rfl, hv, by rw [makeExplicit, this]; simp [makeWith, exprs, exprs_map]⟩

/-- C54, for unqualified payload types: `make_optional<T, ...>(args...)` with any number of expressions as arguments has the payload
type `T` and the given sentinel, and the payload's constructor gets exactly these arguments with their types and value categories,
whichever overload is selected. What is missing: `const` and `volatile` payload types, see `C54_qualified`. -/
theorem C54_explicit_partial (hc : P.const = false) (hv : P.volatile = false) (v : Nat) (es : List ArgE) :
    ∃ b, makeExplicit isIL P v (es.map .expr) = some (⟨P.ty, P.const, P.volatile, v⟩, b) ∧ payloadArgs b = es.map .expr := by
  cases es with
  | nil => exact ⟨_, rfl, rfl⟩
  | cons e es =>
    rcases explicit_cases (isIL := isIL) (P := P) e es v with ⟨-, h⟩ | ⟨-, h1, h2, h⟩ | ⟨-, -, h⟩
    · exact ⟨_, h, rfl⟩
    · subst h1
      refine ⟨_, by rw [h, hc, hv], ?_⟩
      obtain ⟨t, cat⟩ := e
      obtain ⟨rfl, h2⟩ := identity_ty h2
      cases cat <;> simp [hc, hv] at h2
      simp [payloadArgs, Payload.prvalue, hc]
    · exact ⟨_, h, rfl⟩

/-- `std::initializer_list<int>` is `other 7` in the examples. -/
def exIL (t : OpTy) : Bool := t == .other 7

example := C54_explicit_partial (isIL := exIL) (P := intP) rfl rfl 3 [⟨.other 2, .lvalue⟩]
example : makeExplicit exIL intP 3 [.expr ⟨.other 2, .lvalue⟩] = some (⟨.other 1, false, false, 3⟩, .inPlace [⟨.other 2, .lvalue⟩]) := by decide
example : makeExplicit exIL intP 3 [.expr ⟨.other 1, .rvalue⟩] = some (⟨.other 1, false, false, 3⟩, .value ⟨.other 1, .rvalue⟩) := by decide
example : makeExplicit exIL anyP 0 [.expr ⟨.other 7, .lvalue⟩, .expr ⟨.other 1, .lvalue⟩] =
    some (⟨.other 4, false, false, 0⟩, .inPlaceList (.expr ⟨.other 7, .lvalue⟩) [⟨.other 1, .lvalue⟩]) := by decide
example : makeExplicit exIL anyP 0 [] = some (⟨.other 4, false, false, 0⟩, .inPlace []) := by decide

/-- C54, the exact condition for all payload types: the result has the payload type `T` except for a `const` (and not `volatile`) `T`
with one argument that is a `const` rvalue of type `T`; then it has the unqualified type. -/
theorem C54_qualified (v : Nat) (es : List ArgE) (hi : isIL P.ty = false) :
    (makeExplicit isIL P v (es.map .expr)).map (·.1) = some (
      if P.const = true ∧ P.volatile = false ∧ es = [⟨P.ty, .constRvalue⟩] then ⟨P.ty, false, false, v⟩
      else ⟨P.ty, P.const, P.volatile, v⟩) := by
  cases es with
  | nil => rw [if_neg (by simp)]; rfl
  | cons e es =>
    rcases explicit_cases (isIL := isIL) (P := P) e es v with ⟨hl, h⟩ | ⟨-, h1, h2, h⟩ | ⟨-, hn, h⟩
    · rw [h, if_neg]
      · rfl
      · rintro ⟨-, -, he⟩
        cases he
        simp [hi] at hl
    · rw [h]
      subst h1
      obtain ⟨t, cat⟩ := e
      obtain ⟨rfl, h2⟩ := identity_ty h2
      cases cat <;> simp at h2 <;> simp [h2]
    · rw [h, if_neg]
      · rfl
      · rintro ⟨hc, hv, he⟩
        cases he
        exact hn ⟨rfl, by simp [toRvalue, hc, hv]⟩

/-- `const int`. -/
def constIntP : Payload := { intP with const := true }

example := C54_qualified (isIL := exIL) (P := constIntP) 0 [⟨.other 1, .rvalue⟩] rfl

/-- C54 is violated: `make_optional<const T>(e)` with a const rvalue `e` of type `T` is an `optional<T>`. (`std::make_optional` does the
same.) -/
theorem C54_false : ∃ (P : Payload) (e : ArgE), P.constructible e = true ∧
    (makeExplicit exIL P 0 [.expr e]).map (·.1) = some ⟨P.ty, false, false, 0⟩ ∧ P.const = true :=
  ⟨constIntP, ⟨.other 1, .constRvalue⟩, rfl, by decide, rfl⟩

/-- C54. With a braced list whose element type can be deduced as first argument the payload is constructed from the
`std::initializer_list` and the other arguments, whatever else the list converts to. -/
theorem C54_list (v : Nat) (u : OpTy) (t : Option ListConv) (es : List ArgE) :
    makeExplicit isIL P v (.list (some u) t :: es.map .expr) =
      some (⟨P.ty, P.const, P.volatile, v⟩, .inPlaceList (.list (some u) t) es) := by
  have : selectMake isIL P (.list (some u) t :: es.map .expr) = some .list := by
    unfold selectMake
    cases es with
    | nil => cases t with
      | none => simp [makeConv, toRvalue, exprs, makeBetter, List.find?]
      | some t => cases t <;> · simp [makeConv, toRvalue, exprs, makeBetter, List.find?, MConv.better]; rfl
    | cons e es => simp [makeConv, exprs, exprs_map, makeBetter, List.find?]
  simp [makeExplicit, this, makeWith, exprs_map]

example := C54_list (isIL := exIL) (P := anyP) 0 (.other 1) (some .identity) [⟨.other 2, .lvalue⟩]

/-- C54. `make_optional<T>({})`, or with a list without common element type: a temporary `T` is made from it, if it can be, and moved. Lists
in another place are not accepted. -/
theorem C54_list_temporary (v : Nat) (t : Option ListConv) :
    makeExplicit isIL P v [.list none t] =
      if t.isSome then some (⟨P.ty, false, false, v⟩, .temporary (.list none t)) else none := by
  cases t with
  | none => rfl
  | some t => cases t <;> rfl

example : makeExplicit exIL intP 0 [.list none (some .identity)] = some (⟨.other 1, false, false, 0⟩, .temporary (.list none (some .identity))) :=
  C54_list_temporary 0 (some .identity)

/-! ### Class template argument deduction -/

theorem tinyBase_cases (t : OpTy) : (∃ p v, t = .tiny p v) ∨ tinyBase t = none ∨ ∃ s n, tinyBase t = some (s, n + 1) := by
  induction t with
  | tiny p v => exact .inl ⟨p, v, rfl⟩
  | derived b n ih =>
    rcases ih with ⟨p, v, rfl⟩ | h | ⟨s, m, h⟩
    · exact .inr (.inr ⟨_, 0, rfl⟩)
    · exact .inr (.inl (by simp [tinyBase, h]))
    · exact .inr (.inr ⟨s, m + 1, by simp [tinyBase, h]⟩)
  | _ => exact .inr (.inl rfl)

/-- The deduced type, for every argument: an optional stays what it is, everything else becomes the payload. This includes classes
derived from an optional, and all other tiny optionals. -/
theorem C54_deduce (e : ArgE) : deduce e = some (match e.ty with
    | .tiny p v => .tiny p v
    | t => .tiny t defaultVariant) := by
  obtain ⟨t, cat⟩ := e
  rcases tinyBase_cases t with ⟨p, v, rfl⟩ | h | ⟨s, n, h⟩
  · cases cat <;> rfl
  · have ht : ∀ p v, t ≠ .tiny p v := by rintro p v rfl; cases h
    have hd : deduce ⟨t, cat⟩ = some (.tiny t defaultVariant) := by
      cases cat <;> simp [deduce, guideIcs, guideBetter, h, List.find?]
    rw [hd]
    cases t <;> first | rfl | exact absurd rfl (ht _ _)
  · have ht : ∀ p v, t ≠ .tiny p v := by rintro p v rfl; cases h
    have hd : deduce ⟨t, cat⟩ = some (.tiny t defaultVariant) := by
      cases cat <;> simp [deduce, guideIcs, guideBetter, h, List.find?, Ics.better]
    rw [hd]
    cases t <;> first | rfl | exact absurd rfl (ht _ _)

example : deduce ⟨.tiny (.other 1) 5, .constLvalue⟩ = some (.tiny (.other 1) 5) := C54_deduce _
example : deduce ⟨.derived (.tiny (.other 1) 5) 2, .rvalue⟩ = some (.tiny (.derived (.tiny (.other 1) 5) 2) 0) := C54_deduce _

/-- C54. `optional(o)` is a copy of the optional `o` (or is moved from a modifiable rvalue). -/
theorem C54_copy (p : OpTy) (v : Nat) (c : Cat) (P : Payload) :
    ∃ t, deduce ⟨.tiny p v, c⟩ = some t ∧ t = .tiny p v ∧
      selectCtor t P .direct (.expr ⟨.tiny p v, c⟩) = some (if c = .rvalue then .move else .copy) :=
  ⟨_, C54_deduce _, rfl, C52_construct_self (self := .tiny p v) trivial P .direct c⟩

example := C54_copy (.other 1) 5 .lvalue intP

/-- C54. `optional(e)` for everything else: an optional without sentinel whose payload is constructed from `e`. -/
theorem C54_value {e : ArgE} {P : Payload} (h : Decays e P) (hn : ∀ p v, e.ty ≠ .tiny p v) :
    deduce e = some (.tiny P.ty defaultVariant) ∧ TakesValue (.tiny P.ty defaultVariant) P e := by
  refine ⟨?_, takesValue h _⟩
  rw [C54_deduce, h.ty]
  cases ht : e.ty <;> first | rfl | exact absurd ht (hn _ _)

example := C54_value (intP_decays .lvalue) nofun

/-! ### The selection is no matter of the order of declarations -/

/-- C54. No two overloads of `make_optional` beat each other. -/
theorem C54_make_asymm (c : MFun → Option MConv) (f g : MFun) (h : makeBetter c f g = true) : makeBetter c g f = false := by
  unfold makeBetter at h ⊢
  revert h
  rcases c f with _ | i <;> rcases c g with _ | j
  · simp
  · simp
  · simp
  · cases f <;> cases g <;> cases i <;> cases j <;> decide

/-- C54. No two deduction guides beat each other. -/
theorem C54_guide_asymm (e : ArgE) (f g : Guide) (hne : f ≠ g) (h : guideBetter e f g = true) : guideBetter e g f = false := by
  unfold guideBetter at h ⊢
  revert h
  rcases guideIcs e f with _ | ⟨i, _⟩ <;> rcases guideIcs e g with _ | ⟨j, _⟩
  · simp
  · simp
  · simp
  · have h1 := ics_asymm i j
    simp only
    revert h1 hne
    cases i.better j <;> cases j.better i <;> cases f <;> cases g <;> decide

example : makeBetter (makeConv exIL intP [.expr ⟨.other 1, .rvalue⟩]) .value .inPlace = true := by decide
example := C54_make_asymm (makeConv exIL intP [.expr ⟨.other 1, .rvalue⟩]) .value .inPlace (by decide)
example : guideBetter ⟨.tiny (.other 1) 5, .constLvalue⟩ .copyCand .user = true := by decide
example := C54_guide_asymm ⟨.tiny (.other 1) 5, .constLvalue⟩ .copyCand .user (by decide) (by decide)

end Verif.Props
