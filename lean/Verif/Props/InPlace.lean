import Verif.Model.InPlace
import Verif.Props.Make

/-!
# C57: the arguments of `in_place` constructors and of `emplace`
-/

namespace Verif.Props
open Verif Verif.Model Verif.Spec

/-- `args` begin with something that initializes a `std::initializer_list` of type `t`, followed by the expressions `es`. -/
inductive BeginsWithList (L : ListTypes) : List MArg → OpTy → List ArgE → Prop
  | object (e : ArgE) (es : List ArgE) (h : L.isIL e.ty = true) : BeginsWithList L (.expr e :: es.map .expr) e.ty es
  | braces (u : OpTy) (t : Option ListConv) (es : List ArgE) : BeginsWithList L (.list (some u) t :: es.map .expr) (L.ilTy u) es

/-- What the payload's constructor is to get: the initializer list as lvalue and the rest, if the payload can be constructed from that;
otherwise exactly the arguments, if it can be constructed from them. -/
inductive Receives (L : ListTypes) : List MArg → List ArgE → Prop
  | list {args t es} (h : BeginsWithList L args t es) (hc : L.constructible (⟨t, .lvalue⟩ :: es) = true) :
      Receives L args (⟨t, .lvalue⟩ :: es)
  | plain {es : List ArgE} (hc : L.constructible es = true)
      (hn : ∀ t rest, BeginsWithList L (es.map .expr) t rest → L.constructible (⟨t, .lvalue⟩ :: rest) = false) :
      Receives L (es.map .expr) es

theorem forwardE_id (e : ArgE) : forwardE e = e := by
  obtain ⟨t, c⟩ := e
  cases c <;> rfl

theorem map_forwardE (es : List ArgE) : es.map forwardE = es := by
  rw [show forwardE = id from funext forwardE_id, List.map_id]

theorem constructorArgs_eq (L : ListTypes) (args : List MArg) (f : PFun) : constructorArgs L args f = bodyArgs L args f := by
  cases f with
  | pack =>
    simp only [constructorArgs, map_forwardE]
    cases bodyArgs L args .pack <;> rfl
  | list =>
    simp only [constructorArgs, map_forwardE]
    rcases h : bodyArgs L args .list with _ | (_ | ⟨il, es⟩)
    · rfl
    · exfalso
      cases args with
      | nil => cases h
      | cons a as =>
        simp only [bodyArgs, Option.bind_eq_some_iff, Option.map_eq_some_iff] at h
        obtain ⟨_, _, _, _, h⟩ := h
        cases h
    · rfl

theorem emplaceArgs_eq (L : ListTypes) (args : List MArg) (f : PFun) : emplaceArgs L args f = bodyArgs L args f := by
  cases f with
  | pack =>
    simp only [emplaceArgs, map_forwardE]
    cases bodyArgs L args .pack <;> rfl
  | list =>
    simp only [emplaceArgs, map_forwardE]
    rcases h : bodyArgs L args .list with _ | (_ | ⟨il, es⟩)
    · rfl
    · exfalso
      cases args with
      | nil => cases h
      | cons a as =>
        simp only [bodyArgs, Option.bind_eq_some_iff, Option.map_eq_some_iff] at h
        obtain ⟨_, _, _, _, h⟩ := h
        cases h
    · rfl

theorem body_list {L : ListTypes} {args : List MArg} {es : List ArgE} (h : bodyArgs L args .list = some es) :
    ∃ t rest, es = ⟨t, .lvalue⟩ :: rest ∧ BeginsWithList L args t rest := by
  cases args with
  | nil => cases h
  | cons a as =>
    simp only [bodyArgs, Option.bind_eq_some_iff, Option.map_eq_some_iff] at h
    obtain ⟨t, ht, rest, hr, rfl⟩ := h
    refine ⟨t, rest, rfl, ?_⟩
    rw [exprs_eq hr]
    cases a with
    | expr e =>
      simp only [listParam] at ht
      split at ht
      · next hi => cases ht; exact .object e rest hi
      · cases ht
    | list u c => cases u with
      | none => cases ht
      | some u => cases ht; exact .braces u c rest

theorem begins_body {L : ListTypes} {args : List MArg} {t : OpTy} {rest : List ArgE} (h : BeginsWithList L args t rest) :
    bodyArgs L args .list = some (⟨t, .lvalue⟩ :: rest) := by
  cases h with
  | object e es h => simp [bodyArgs, listParam, h, exprs_map, ilistExpr]
  | braces u c es => simp [bodyArgs, listParam, exprs_map, ilistExpr]

theorem selectP_eq (v : PFun → Bool) : selectP v = if v .list then some .list else if v .pack then some .pack else none := by
  cases h1 : v .list <;> cases h2 : v .pack <;> simp [selectP, List.find?, h1, h2, pfunBetter] <;> rfl

theorem receives_of_body {L : ListTypes} {args : List MArg} {rs : List ArgE} :
    Receives L args rs ↔ (bodyArgs L args .list = some rs ∧ L.constructible rs = true) ∨
      (bodyArgs L args .pack = some rs ∧ L.constructible rs = true ∧ ctorViable L args .list = false) := by
  constructor
  · rintro (⟨h, hc⟩ | ⟨hc, hn⟩)
    · exact .inl ⟨begins_body h, hc⟩
    · refine .inr ⟨exprs_map _, hc, ?_⟩
      simp only [ctorViable]
      split
      · next es h =>
        obtain ⟨t, rest, rfl, hb⟩ := body_list h
        exact hn t rest hb
      · rfl
  · rintro (⟨h, hc⟩ | ⟨h, hc, hv⟩)
    · obtain ⟨t, rest, rfl, hb⟩ := body_list h
      exact .list hb hc
    · rw [exprs_eq h]
      refine .plain hc fun t rest hb => ?_
      rw [← exprs_eq h] at hb
      simp only [ctorViable, begins_body hb] at hv
      exact hv

/-- C57. `optional(in_place, args...)` gives the payload's constructor what it is to get, and compiles exactly if there is such a
constructor. -/
theorem C57_in_place (L : ListTypes) (args : List MArg) (rs : List ArgE) : inPlaceCall L args = some rs ↔ Receives L args rs := by
  rw [receives_of_body, inPlaceCall, selectP_eq]
  simp only [constructorArgs_eq]
  cases hl : ctorViable L args .list with
  | true =>
    simp only [if_true, Option.bind_some, Option.filter_eq_some_iff]
    simp
  | false =>
    simp only [ctorViable] at hl
    have h1 : ¬(bodyArgs L args .list = some rs ∧ L.constructible rs = true) := by
      rintro ⟨h, hc⟩
      simp [h, hc] at hl
    cases hp : ctorViable L args .pack with
    | true => simp [h1, Option.filter_eq_some_iff]
    | false =>
      simp only [ctorViable] at hp
      have h2 : ¬(bodyArgs L args .pack = some rs ∧ L.constructible rs = true) := by
        rintro ⟨h, hc⟩
        simp [h, hc] at hp
      simp only [Bool.false_eq_true, if_false, Option.bind_none, h1, false_or]
      exact ⟨nofun, fun h => absurd ⟨h.1, h.2.1⟩ h2⟩

/-- C57. The constructor takes part in overload resolution only if its body compiles. -/
theorem C57_participates (L : ListTypes) (args : List MArg) : inPlaceParticipates L args = (inPlaceCall L args).isSome := by
  rw [inPlaceParticipates, inPlaceCall, selectP_eq]
  simp only [constructorArgs_eq]
  cases hl : ctorViable L args .list with
  | true =>
    simp only [ctorViable] at hl
    split at hl
    · next es h => simp [h, hl, Option.filter]
    · cases hl
  | false =>
    cases hp : ctorViable L args .pack with
    | true =>
      simp only [ctorViable] at hp
      split at hp
      · next es h => simp [h, hp, Option.filter]
      · cases hp
    | false => simp

/-- C57. The same for `emplace`. -/
theorem C57_emplace (L : ListTypes) (args : List MArg) (rs : List ArgE) : emplaceCall L args = some rs ↔ Receives L args rs := by
  rw [receives_of_body, emplaceCall, selectP_eq]
  simp only [emplaceArgs_eq]
  have hv : emplaceViable L args .list = ctorViable L args .list := by
    simp only [emplaceViable, ctorViable]
    cases bodyArgs L args .list <;> rfl
  rw [hv]
  cases hl : ctorViable L args .list with
  | true =>
    simp only [if_true, Option.bind_some, Option.filter_eq_some_iff]
    simp
  | false =>
    simp only [ctorViable] at hl
    have h1 : ¬(bodyArgs L args .list = some rs ∧ L.constructible rs = true) := by
      rintro ⟨h, hc⟩
      simp [h, hc] at hl
    cases hp : bodyArgs L args .pack with
    | some es => simp [emplaceViable, hp, h1, Option.filter_eq_some_iff]
    | none => simp [emplaceViable, hp, h1]

/-- C57. What is received is determined: no call is ambiguous. -/
theorem C57_unique {L : ListTypes} {args : List MArg} {rs rs' : List ArgE} (h : Receives L args rs) (h' : Receives L args rs') : rs = rs' := by
  rw [← C57_in_place] at h h'
  rw [h] at h'
  exact Option.some.inj h'

/-- C57. Without initializer lists among the arguments' types: exactly the arguments, whatever they are, and nothing else can happen. -/
theorem C57_forwards (L : ListTypes) (es : List ArgE) (hc : L.constructible es = true) (hl : ∀ e ∈ es, L.isIL e.ty = false) :
    inPlaceCall L (es.map .expr) = some es ∧ emplaceCall L (es.map .expr) = some es := by
  have : Receives L (es.map .expr) es := by
    refine .plain hc fun t rest hb => ?_
    generalize ha : es.map MArg.expr = args at hb
    cases hb with
    | object e es' h =>
      cases es with
      | nil => cases ha
      | cons e' _ =>
        simp only [List.map_cons, List.cons.injEq, MArg.expr.injEq] at ha
        obtain ⟨rfl, -⟩ := ha
        rw [hl e' (by simp)] at h
        cases h
    | braces u c es' =>
      cases es with
      | nil => cases ha
      | cons e' _ => simp at ha
  exact ⟨(C57_in_place _ _ _).2 this, (C57_emplace _ _ _).2 this⟩

/-! A payload like `std::vector<int>`: `other 7` is `std::initializer_list<int>`, `other 1` is `int`; constructible from an initializer list,
also with one more argument (the allocator `other 8`), and from two `int`s. -/

def vectorL : ListTypes where
  isIL t := t == .other 7
  ilTy u := if u = .other 1 then .other 7 else .other 9
  constructible es := match es.map ArgE.ty with
    | [OpTy.other 7] => true
    | [OpTy.other 7, OpTy.other 8] => true
    | [OpTy.other 1, OpTy.other 1] => true
    | _ => false

example := C57_forwards vectorL [⟨.other 1, .lvalue⟩, ⟨.other 1, .constRvalue⟩] rfl (by simp [vectorL])
example : inPlaceCall vectorL [.list (some (.other 1)) none, .expr ⟨.other 8, .rvalue⟩] = some [⟨.other 7, .lvalue⟩, ⟨.other 8, .rvalue⟩] :=
  (C57_in_place _ _ _).2 (.list (.braces _ _ [⟨.other 8, .rvalue⟩]) rfl)
example : emplaceCall vectorL [.expr ⟨.other 7, .constRvalue⟩] = some [⟨.other 7, .lvalue⟩] :=
  (C57_emplace _ _ _).2 (.list (.object ⟨.other 7, .constRvalue⟩ [] rfl) rfl)
example := C57_unique (L := vectorL) (.list (.object ⟨.other 7, .constRvalue⟩ [⟨.other 8, .rvalue⟩] rfl) rfl)
  (.list (.object ⟨.other 7, .constRvalue⟩ [⟨.other 8, .rvalue⟩] rfl) rfl)
example : inPlaceParticipates vectorL [.expr ⟨.other 1, .lvalue⟩] = false := by rw [C57_participates]; rfl

end Verif.Props
