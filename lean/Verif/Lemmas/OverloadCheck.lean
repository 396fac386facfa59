import Verif.Lemmas.Overload

/-!
# The winners of overload resolution

The remaining finite case distinction over language modes and kinds of operands, done by computation.
-/

namespace Verif.Model.Overload
open Verif.Spec

/-- The language modes that exist: C++17; C++20 with the workaround (gcc), or with a compiler that implements CWG 2445. -/
def Mode.Real (m : Mode) : Bool := if m.cpp20 then m.workaround || m.cwg2445 else !m.workaround

def bools : List Bool := [false, true]

def modes : List Mode :=
  (bools.flatMap fun a => bools.flatMap fun b => bools.flatMap fun c => bools.flatMap fun d => bools.flatMap fun e =>
    bools.map fun f => (⟨a, b, c, d, e, f⟩ : Mode)).filter Mode.Real

theorem mem_modes {m : Mode} (h : m.Real = true) : m ∈ modes := by
  refine List.mem_filter.2 ⟨?_, h⟩
  obtain ⟨a, b, c, d, e, f⟩ := m
  cases a <;> cases b <;> cases c <;> cases d <;> cases e <;> cases f <;> decide

def pairs : List (OpTy × OpTy) :=
  (kinds.flatMap fun k => kinds.map fun k' => (k.rep, k'.rep)).filter fun p => Considered p.1 p.2

theorem considered_kind {l r : OpTy} (h : Considered l r = true) : Considered (kind l).rep (kind r).rep = true := by
  have hord : ∀ t, Ordinary t = true → Ordinary (kind t).rep = true := by
    intro t ht
    cases t with
    | derived b n =>
      have h1 := isTiny_kind b
      have h2 := role_kind b
      simp only [Ordinary, Bool.or_eq_true, beq_iff_eq] at ht
      rw [h1, h2] at ht
      simp only [kind]
      cases hk : kind b <;> simp_all [Kind.derive, Kind.rep, Ordinary, IsTiny, role]
    | _ => rfl
  have hder : ∀ t, IsDerived t = false → IsDerived (kind t).rep = false := by
    intro t ht
    cases t with
    | derived b n => cases ht
    | _ => rfl
  simp only [Considered, Bool.and_eq_true, Bool.not_eq_true', Bool.and_eq_false_iff] at h ⊢
  obtain ⟨⟨⟨⟨h1, h2⟩, h3⟩, h4⟩, h5⟩ := h
  rw [← isTiny_kind, ← isTiny_kind, ← isStd_kind, ← isStd_kind]
  exact ⟨⟨⟨⟨h1, hord l h2⟩, hord r h3⟩, h4.imp_right (hder r)⟩, h5.imp_left (hder l)⟩

theorem mem_pairs {l r : OpTy} (h : Considered l r = true) : ((kind l).rep, (kind r).rep) ∈ pairs := by
  refine List.mem_filter.2 ⟨?_, considered_kind h⟩
  exact List.mem_flatMap.2 ⟨kind l, mem_kinds _, List.mem_map.2 ⟨kind r, mem_kinds _, rfl⟩⟩

/-- One operand is `nullopt`. -/
def Null (l r : OpTy) : Bool := role l == .nullopt || role r == .nullopt

def IsImpl : OpTy → Bool
  | .impl _ _ => true
  | _ => false

/-- C++20: is `<` etc. implemented by `<=>` although there is an operator of that name, provided the payloads are three-way
comparable? -/
def prefersThree (m : Mode) (l r : OpTy) : Bool :=
  if IsTiny l then (if IsStd r then IsImpl l || !m.p2113 else true)
  else if IsStd l && !IsImpl r then !m.p2113 && (m.workaround || (m.cwg2445 && m.revCons))
  else m.cwg2445 && m.revCons

/-- The name of the selected operator. -/
def selectedName (m : Mode) (op : CmpOp) (l r : OpTy) (b : Bool) : CmpOp :=
  match op with
  | .three => .three
  | .rel .eq => .rel .eq
  | .rel .ne => if Null l r && m.cpp20 && !m.workaround then .rel .eq else .rel .ne
  | .rel op =>
    if m.cpp20 then
      if Null l r then (if m.workaround then .rel op else .three)
      else if prefersThree m l r && b then .three else .rel op
    else .rel op

/-- What is claimed about the winner. -/
def Use.asClaimed (m : Mode) (op : CmpOp) (l r : OpTy) (b : Bool) (u : Use) : Bool :=
  u.right l r && u.cand.name == selectedName m op l r b && u.cand.owner != .std &&
  (!u.reversed || u.cand.name == .three || (Null l r && u.cand.name == .rel .eq)) &&
  u.rewritten == (u.reversed || u.cand.name != op)

def checked (m : Mode) (op : CmpOp) (l r : OpTy) (b : Bool) : Bool :=
  match winner m op l r b with
  | some u => u.asClaimed m op l r b
  | none => false

def checkRel (op : RelOp) : Bool := modes.all fun m => pairs.all fun p => bools.all fun b => checked m (.rel op) p.1 p.2 b

/-- gcc before CWG 2445 has no overload for `std::optional <=> optional_inplace` and the like. -/
def missing (m : Mode) (l r : OpTy) : Bool := IsStd l && IsImpl r && !m.cwg2445

def checkThree : Bool := modes.all fun m => pairs.all fun p => !m.cpp20 || missing m p.1 p.2 || checked m .three p.1 p.2 true

/-- Comparison with `nullopt` does not depend on the payloads. -/
def checkThreeNull : Bool := modes.all fun m => pairs.all fun p => !m.cpp20 || !Null p.1 p.2 || checked m .three p.1 p.2 false

set_option maxRecDepth 100000

theorem checkRel_eq : checkRel .eq = true := by decide +kernel
theorem checkRel_ne : checkRel .ne = true := by decide +kernel
theorem checkRel_lt : checkRel .lt = true := by decide +kernel
theorem checkRel_le : checkRel .le = true := by decide +kernel
theorem checkRel_gt : checkRel .gt = true := by decide +kernel
theorem checkRel_ge : checkRel .ge = true := by decide +kernel
theorem checkThree_ok : checkThree = true := by decide +kernel
theorem checkThreeNull_ok : checkThreeNull = true := by decide +kernel

theorem checkRel_all (op : RelOp) : checkRel op = true := by
  cases op
  · exact checkRel_eq
  · exact checkRel_ne
  · exact checkRel_lt
  · exact checkRel_le
  · exact checkRel_gt
  · exact checkRel_ge

end Verif.Model.Overload
