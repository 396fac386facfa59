import Verif.Model.Overload

/-!
# Overload resolution depends on the kinds of the operands only

The selected candidate is determined by the kind of each operand type and by whether the payloads are three-way
comparable; all other constraints are irrelevant. This reduces resolution to finitely many cases.
-/

namespace Verif.Model.Overload
open Verif.Spec

/-- What matters about a type. -/
inductive Kind where
  | tiny | impl | std | null | other | dTiny | dImpl | dStd | dNull
deriving DecidableEq, Repr

def Kind.rep : Kind → OpTy
  | .tiny => .tiny .nullopt 0
  | .impl => .impl .nullopt 0
  | .std => .std .nullopt
  | .null => .nullopt
  | .other => .other 0
  | .dTiny => .derived (.tiny .nullopt 0) 0
  | .dImpl => .derived (.impl .nullopt 0) 0
  | .dStd => .derived (.std .nullopt) 0
  | .dNull => .derived .nullopt 0

def Kind.derive : Kind → Kind
  | .tiny => .dTiny
  | .impl => .dImpl
  | .std => .dStd
  | .null => .dNull
  | k => k

def kind : OpTy → Kind
  | .tiny _ _ => .tiny
  | .impl _ _ => .impl
  | .std _ => .std
  | .nullopt => .null
  | .other _ => .other
  | .derived b _ => (kind b).derive

def kinds : List Kind := [.tiny, .impl, .std, .null, .other, .dTiny, .dImpl, .dStd, .dNull]

theorem mem_kinds (k : Kind) : k ∈ kinds := by cases k <;> decide

/-- The distances of the representative, given the number of inheritance steps. -/
def kdist (p : Pat) (k : Kind) (n : Nat) : Option Nat :=
  match p, k with
  | .any, _ => some 0
  | .tiny, .tiny => some 0
  | .impl, .tiny => some 1
  | .impl, .impl => some 0
  | .std, .std => some 0
  | .null, .null => some 0
  | .tiny, .dTiny => some (n + 1)
  | .impl, .dTiny => some (n + 2)
  | .impl, .dImpl => some (n + 1)
  | .std, .dStd => some (n + 1)
  | .null, .dNull => some (n + 1)
  | _, _ => none

theorem dist_kdist (t : OpTy) : ∃ n, ∀ p, dist p t = kdist p (kind t) n := by
  induction t with
  | tiny => exact ⟨0, fun p => by cases p <;> simp [dist, kdist, kind]⟩
  | impl => exact ⟨0, fun p => by cases p <;> simp [dist, kdist, kind]⟩
  | std => exact ⟨0, fun p => by cases p <;> simp [dist, kdist, kind]⟩
  | nullopt => exact ⟨0, fun p => by cases p <;> simp [dist, kdist, kind]⟩
  | other => exact ⟨0, fun p => by cases p <;> simp [dist, kdist, kind]⟩
  | derived b n ih =>
    obtain ⟨k, hk⟩ := ih
    by_cases hd : kind b = .tiny ∨ kind b = .impl ∨ kind b = .std ∨ kind b = .null ∨ kind b = .other
    · refine ⟨0, fun p => ?_⟩
      have := hk p
      rcases hd with h | h | h | h | h <;> cases p <;> simp [dist, kdist, kind, h, Kind.derive] <;>
        simp_all [kdist]
    · refine ⟨k + 1, fun p => ?_⟩
      have := hk p
      cases h : kind b <;> simp [h] at hd <;> cases p <;> simp [dist, kdist, kind, h, Kind.derive] <;> simp_all [kdist]

theorem closer_kind (t : OpTy) (p q : Pat) : closer t p q = closer (kind t).rep p q := by
  obtain ⟨n, hn⟩ := dist_kdist t
  unfold closer
  rw [hn, hn]
  cases kind t <;> cases p <;> cases q <;> simp [kdist, Kind.rep, dist]

theorem isSome_kind (t : OpTy) (p : Pat) : (dist p t).isSome = (dist p (kind t).rep).isSome := by
  obtain ⟨n, hn⟩ := dist_kdist t
  rw [hn]
  cases kind t <;> cases p <;> simp [kdist, Kind.rep, dist]

theorem isTiny_kind (t : OpTy) : IsTiny t = IsTiny (kind t).rep := by
  induction t with
  | derived b n ih =>
    show IsTiny b = _
    rw [ih]
    simp only [kind]
    cases kind b <;> rfl
  | _ => rfl

theorem role_kind (t : OpTy) : role t = role (kind t).rep := by
  induction t with
  | derived b n ih =>
    show role b = _
    rw [ih]
    simp only [kind]
    cases kind b <;> rfl
  | _ => rfl

/-- A type that is none of the derived kinds, except that classes derived from unrelated types are unrelated types. -/
theorem isStd_kind (t : OpTy) : IsStd t = IsStd (kind t).rep := by
  cases t with
  | derived b n => simp only [kind]; cases kind b <;> rfl
  | _ => rfl

theorem better_kind (m : Mode) (l r : OpTy) (u v : Use) : better m l r u v = better m (kind l).rep (kind r).rep u v := by
  unfold better
  rw [closer_kind l, closer_kind l, closer_kind r, closer_kind r]

/-- The part of viability that does not depend on constraints. -/
def Use.fits (u : Use) (l r : OpTy) : Bool :=
  (dist u.lp l).isSome && (dist u.rp r).isSome && (if u.reversed then passesNotTiny u.cand r l else passesNotTiny u.cand l r)

theorem right_kind (u : Use) (l r : OpTy) : u.right l r = u.right (kind l).rep (kind r).rep := by
  unfold Use.right
  rw [role_kind l, role_kind r]

theorem fits_kind (u : Use) (l r : OpTy) : u.fits l r = u.fits (kind l).rep (kind r).rep := by
  unfold Use.fits passesNotTiny
  rw [isSome_kind l, isSome_kind r, isTiny_kind l, isTiny_kind r]

theorem viable_eq (o : Oracle) (u : Use) (l r : OpTy) :
    u.viable o l r = (u.fits l r &&
      if u.cand.owner = .std then (if u.reversed then o.std u.cand r l else o.std u.cand l r)
      else u.cand.cons == .none || (if u.reversed then o.threeWay (consArg u.rp r) (consArg u.lp l)
        else o.threeWay (consArg u.lp l) (consArg u.rp r))) := by
  obtain ⟨c, rw, rv⟩ := u
  cases rv
  · simp [Use.viable, Cand.viable, Use.fits, Use.lp, Use.rp]
  · simp only [Use.viable, Cand.viable, Use.fits, Use.lp, Use.rp, if_true]
    cases (dist c.l r).isSome <;> cases (dist c.r l).isSome <;> simp

theorem valueType_compared (t : OpTy) (h : role t = .opt) : valueType t = compared t := by
  induction t with
  | derived b n ih =>
    have hb : role b = .opt := h
    simp [valueType, compared, hb, ih hb]
  | nullopt => cases h
  | other => cases h
  | _ => rfl

/-- With the right roles the constraint is about the types that are compared in the end. -/
theorem consArg_right {p : Pat} {t : OpTy} (h : p.role = role t) (hn : role t ≠ .nullopt) : consArg p t = compared t := by
  cases hr : role t with
  | nullopt => exact absurd hr hn
  | opt =>
    have : p ≠ .any := by rintro rfl; rw [hr] at h; cases h
    simp [consArg, this, valueType_compared t hr]
  | value =>
    have : p = .any := by rw [hr] at h; cases p <;> first | rfl | cases h
    simp only [consArg, this, if_true]
    cases t with
    | other => rfl
    | derived b n =>
      have hb : role b = .value := hr
      simp [compared, hb]
    | _ => cases hr

/-- Viable for certain, if the answer to the constraint on the compared types is `b`. -/
def certain (b : Bool) (l r : OpTy) (u : Use) : Bool :=
  u.fits l r && u.cand.owner != .std && (u.cand.cons == .none || (u.right l r && b))

/-- Viable for some answers to the remaining constraints. -/
def possible (b : Bool) (l r : OpTy) (u : Use) : Bool :=
  u.fits l r && (u.cand.owner == .std || u.cand.cons == .none || !u.right l r || b)

def beats (m : Mode) (b : Bool) (l r : OpTy) (us : List Use) (w : Use) : Bool :=
  us.all fun v => !possible b l r v || w == v || (better m l r w v && !better m l r v w)

/-- The candidate that is viable for certain and better than all that might be viable. -/
def winner (m : Mode) (op : CmpOp) (l r : OpTy) (b : Bool) : Option Use :=
  let us := uses m op
  us.find? fun w => certain b l r w && beats m b l r us w

/-- The templates that compare with `nullopt` have no constraint. -/
def nullFree (m : Mode) (op : CmpOp) : Bool :=
  (uses m op).all fun u => u.cand.owner == .std || u.cand.cons == .none || (u.cand.l != .null && u.cand.r != .null)

theorem nullFree_all (m : Mode) (op : CmpOp) : nullFree m op = true := by
  obtain ⟨c20, wa, _, p, _, _⟩ := m
  cases c20 <;> cases wa <;> cases p <;> cases op with
  | three => rfl
  | rel r => cases r <;> rfl

theorem find?_unique {α : Type} {p : α → Bool} {a : α} : ∀ {l : List α}, a ∈ l → p a = true → (∀ b ∈ l, p b = true → b = a) →
    l.find? p = some a
  | [], h, _, _ => by cases h
  | x :: xs, h, ha, hu => by
    unfold List.find?
    cases hx : p x with
    | true => simp [hu x (List.mem_cons_self) hx]
    | false =>
      rcases List.mem_cons.1 h with rfl | h
      · rw [ha] at hx; cases hx
      · exact find?_unique h ha fun b hb => hu b (List.mem_cons_of_mem _ hb)

/-- The winner is selected, whatever the other constraints say. -/
theorem resolve_winner {m : Mode} {o : Oracle} (hs : ∀ s t, o.threeWay s t = o.threeWay t s) {op : CmpOp} {l r : OpTy} {w : Use}
    (h : winner m op (kind l).rep (kind r).rep (o.threeWay (compared l) (compared r)) = some w) :
    resolve m o op l r = .found w := by
  unfold winner at h
  have hm := List.mem_of_find?_eq_some h
  have hp := List.find?_some h
  simp only [Bool.and_eq_true] at hp
  obtain ⟨hc, hb⟩ := hp
  -- the constraint of a candidate with the right roles
  have hright : ∀ u ∈ uses m op, u.right l r = true → u.cand.owner ≠ .std → u.cand.cons ≠ .none →
      (if u.reversed then o.threeWay (consArg u.rp r) (consArg u.lp l) else o.threeWay (consArg u.lp l) (consArg u.rp r)) =
        o.threeWay (compared l) (compared r) := by
    intro u hu hr ho hcons
    have hnf := nullFree_all m op
    unfold nullFree at hnf
    rw [List.all_eq_true] at hnf
    have hnf := hnf u hu
    simp only [Bool.or_eq_true, beq_iff_eq, ho, hcons, false_or, Bool.and_eq_true, bne_iff_ne] at hnf
    simp only [Use.right, Bool.and_eq_true, beq_iff_eq] at hr
    have h1 : role l ≠ .nullopt := by
      rw [← hr.1]
      unfold Use.lp
      split
      · cases h : u.cand.r <;> simp_all [Pat.role]
      · cases h : u.cand.l <;> simp_all [Pat.role]
    have h2 : role r ≠ .nullopt := by
      rw [← hr.2]
      unfold Use.rp
      split
      · cases h : u.cand.l <;> simp_all [Pat.role]
      · cases h : u.cand.r <;> simp_all [Pat.role]
    rw [consArg_right hr.1 h1, consArg_right hr.2 h2]
    split
    · exact hs _ _
    · rfl
  have hwv : w.viable o l r = true := by
    rw [viable_eq]
    simp only [certain, Bool.and_eq_true, Bool.or_eq_true, beq_iff_eq, bne_iff_ne] at hc
    obtain ⟨⟨hf, ho⟩, hcc⟩ := hc
    rw [← fits_kind] at hf
    rw [hf, if_neg ho]
    simp only [Bool.true_and, Bool.or_eq_true, beq_iff_eq]
    by_cases hcons : w.cand.cons = .none
    · exact .inl hcons
    · right
      have hcc := hcc.resolve_left hcons
      rw [← right_kind] at hcc
      rw [hright w hm hcc.1 ho hcons]
      exact hcc.2
  have hpos : ∀ v ∈ uses m op, v.viable o l r = true → w = v ∨ (better m l r w v = true ∧ better m l r v w = false) := by
    intro v hv hvv
    unfold beats at hb
    rw [List.all_eq_true] at hb
    have hb := hb v hv
    simp only [Bool.or_eq_true, Bool.not_eq_true', beq_iff_eq, Bool.and_eq_true] at hb
    rw [better_kind, better_kind m l r v]
    rcases hb with (hb | hb) | hb
    · exfalso
      rw [viable_eq] at hvv
      simp only [Bool.and_eq_true] at hvv
      obtain ⟨hf, hvv⟩ := hvv
      rw [fits_kind] at hf
      simp only [possible, hf, Bool.true_and, Bool.or_eq_false_iff, beq_eq_false_iff_ne] at hb
      obtain ⟨⟨⟨ho, hcons⟩, hr⟩, hbb⟩ := hb
      have hr : v.right l r = true := by
        rw [right_kind]
        cases h : v.right (kind l).rep (kind r).rep <;> simp [h] at hr ⊢
      rw [if_neg ho, hright v hv hr ho hcons, hbb] at hvv
      simp [hcons] at hvv
    · exact .inl hb
    · exact .inr hb
  unfold resolve
  dsimp only
  have hmem : w ∈ (uses m op).filter (·.viable o l r) := List.mem_filter.2 ⟨hm, hwv⟩
  rw [find?_unique (a := w) hmem]
  · rw [List.all_eq_true]
    intro v hv
    obtain ⟨hv, hvv⟩ := List.mem_filter.1 hv
    rcases hpos v hv hvv with rfl | h
    · simp
    · simp [h.1]
  · intro v hv hall
    rw [List.all_eq_true] at hall
    have := hall w hmem
    obtain ⟨hv, hvv⟩ := List.mem_filter.1 hv
    rcases hpos v hv hvv with rfl | h
    · rfl
    · simp only [Bool.or_eq_true, beq_iff_eq, h.2, Bool.false_eq_true, or_false] at this
      exact this

end Verif.Model.Overload
