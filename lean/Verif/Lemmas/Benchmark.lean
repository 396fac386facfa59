import Verif.Model.Benchmark
import Verif.Spec.Benchmark
import Verif.Lemmas.ProvenanceReentrant
import Verif.Examples

/-! Helper lemmas for C90: loop invariants of the benchmark. -/

namespace Verif.Model.Benchmark
open Verif.Spec Verif.Examples
open Verif.Spec.Benchmark
variable {V G α : Type}

/-- The variables after `x` got the state `o`. -/
def up (v : Nat → Option (Option V)) (x : Nat) (o : Option (Option V)) : Nat → Option (Option V) := fun z => if z = x then o else v z

theorem up_same (v : Nat → Option (Option V)) (x : Nat) (o) : up v x o x = o := if_pos rfl
theorem up_other (v : Nat → Option (Option V)) {x z : Nat} (o) (h : z ≠ x) : up v x o z = v z := if_neg h

/-- With `std::optional`, `p` leads from these variables and this user state to the result `F.1`, the variables `F.2.1` and the user state `F.2.2`. -/
def Runs (lim : Re.Limits) (p : Verif.Prog V G α) (v : Nat → Option (Option V)) (g : G) (F : SRes α × (Nat → Option (Option V)) × G) : Prop :=
  ∀ tr, ∃ tr', specProg (fun _ => scalarOps) lim [] p ⟨v, g, tr⟩ = (F.1, ⟨F.2.1, F.2.2, tr'⟩)

variable {lim : Re.Limits} {v : Nat → Option (Option V)} {g : G} {F : SRes α × (Nat → Option (Option V)) × G}

theorem runs_ret {a : α} : Runs lim (.ret (.ok a)) v g (.ok a, v, g) := fun tr => ⟨tr, rfl⟩

theorem runs_user {f : G → G} {k : G → Verif.Prog V G α} (h : Runs lim (k g) v (f g) F) : Runs lim (.user f k) v g F := fun tr => h tr

/-- One call. -/
theorem runs_use {op : Op V G} {k : Obs V → Verif.Prog V G α} {o : Obs V} {v' : Nat → Option (Option V)} (hn : Re.callThrows lim op = false)
    (ho : ∀ tr, ∃ tr', specOp (fun _ => scalarOps) op ⟨v, g, tr⟩ = (.ok o, ⟨v', g, tr'⟩)) (h : Runs lim (k o) v' g F) :
    Runs lim (use op k) v g F := by
  intro tr
  obtain ⟨tr1, h1⟩ := ho tr
  obtain ⟨tr2, h2⟩ := h tr1
  refine ⟨tr2, ?_⟩
  have hreq : (Re.require ((op.reads ++ op.writes).all (· ∉ ([] : List Nat))) : SM V G Unit) = SM.pure () := by
    unfold Re.require
    rw [if_pos (by simp)]
  unfold use specProg
  rw [hreq, hn]
  show SM.bind (SM.pure ()) (fun _ => SM.bind (Re.attempt (Re.never false (specOp _ op))) _) _ = _
  have h3 : Re.attempt (Re.never false (specOp (fun _ => scalarOps) op)) ⟨v, g, tr⟩ = (.ok (.ok o), ⟨v', g, tr1⟩) := by
    unfold Re.attempt Re.never
    rw [h1]
  unfold SM.bind SM.pure
  simp only [h3]
  exact h2

theorem runs_default {x : Nat} {k : Verif.Prog V G α} (hx : v x = none) (h : Runs lim k (up v x (some none)) g F) :
    Runs lim (stmt (.ctorDefault x) k) v g F := by
  refine runs_use (o := .unit) rfl (fun tr => ⟨tr, ?_⟩) h
  simp [specOp, Spec.ctorDefault, Spec.fresh, Spec.setEmpty, Bind.bind, SM.bind, SM.pure, hx]
  rfl

theorem runs_copy {x y : Nat} {o : Option V} {k : Verif.Prog V G α} (hx : v x = none) (hy : v y = some o)
    (h : Runs lim k (up v x (some o)) g F) : Runs lim (stmt (.ctorCopy x y) k) v g F := by
  refine runs_use (o := .unit) rfl (fun tr => ?_) h
  cases o with
  | none => exact ⟨tr, by simp [specOp, Spec.ctorCopy, Spec.fresh, Spec.get, Spec.setEmpty, Bind.bind, SM.bind, SM.pure, hx, hy]; rfl⟩
  | some a =>
    refine ⟨tr ++ [(x, a)], ?_⟩
    simp [specOp, Spec.ctorCopy, Spec.fresh, Spec.get, Spec.argVal, Spec.getVal, Spec.user, Spec.put, Bind.bind, SM.bind, SM.pure, hx, hy, scalarOps]
    rfl

theorem runs_move {x y : Nat} {o : Option V} {k : Verif.Prog V G α} (hx : v x = none) (hy : v y = some o)
    (h : Runs lim k (up v x (some o)) g F) : Runs lim (stmt (.ctorMove x y) k) v g F := by
  refine runs_use (o := .unit) rfl (fun tr => ?_) h
  cases o with
  | none => exact ⟨tr, by simp [specOp, Spec.ctorMove, Spec.fresh, Spec.get, Spec.setEmpty, Bind.bind, SM.bind, SM.pure, hx, hy]; rfl⟩
  | some a =>
    have e : (fun z => if z = y then some (some a) else v z) = v := by
      funext z
      by_cases hz : z = y
      · rw [if_pos hz, hz, hy]
      · rw [if_neg hz]
    exact ⟨tr ++ [(y, a), (x, a)], by simp [specOp, Spec.ctorMove, Spec.fresh, Spec.get, Spec.argVal, Spec.put, Bind.bind, SM.bind, SM.pure, hx, hy, scalarOps, e]; rfl⟩

theorem runs_dtor {x : Nat} {o : Option V} {k : Verif.Prog V G α} (hx : v x = some o) (h : Runs lim k (up v x none) g F) :
    Runs lim (stmt (.dtor x) k) v g F := by
  refine runs_use (o := .unit) rfl (fun tr => ⟨tr, ?_⟩) h
  cases o with
  | none => simp [specOp, Spec.dtor, Spec.get, Spec.remove, Bind.bind, SM.bind, SM.pure, hx]; rfl
  | some a =>
    simp [specOp, Spec.dtor, Spec.get, Spec.remove, Spec.destroyVal, Bind.bind, SM.bind, SM.pure, hx, scalarOps]
    funext z
    by_cases hz : z = x <;> simp [up, hz]

theorem runs_has {x : Nat} {o : Option V} {k : Obs V → Verif.Prog V G α} (hx : v x = some o) (h : Runs lim (k (.bool o.isSome)) v g F) :
    Runs lim (use (.hasValue x) k) v g F := by
  refine runs_use rfl (fun tr => ⟨tr, ?_⟩) h
  cases o <;> simp [specOp, Spec.hasValue, Spec.get, Bind.bind, SM.bind, SM.pure, hx]

theorem runs_orZero {b : Basis V G} {x : Nat} {o : Option V} {k : V → Verif.Prog V G α} (hx : v x = some o)
    (h : Runs lim (k (o.getD (b.ofNat 0))) v g F) : Runs lim (orZero b x k) v g F := by
  refine runs_use (o := .val (o.getD (b.ofNat 0))) rfl (fun tr => ⟨tr, ?_⟩) h
  cases o <;> simp [specOp, Spec.valueOr, Spec.get, Spec.argVal, Spec.getVal, Spec.user, Bind.bind, SM.bind, SM.pure, hx, scalarOps]

theorem runs_emplace {x : Nat} {o : Option V} {a : V} {k : Verif.Prog V G α} (hx : v x = some o)
    (h : Runs lim k (up v x (some (some a))) g F) : Runs lim (stmt (.emplace x (.ext true fun g => (.ok a, g))) k) v g F := by
  refine runs_use (o := .val a) (v' := up v x (some (some a))) rfl (fun tr => ?_) h
  cases o with
  | none =>
    refine ⟨tr ++ [(x, a)], ?_⟩
    simp [specOp, Spec.emplace, Spec.reset, Spec.init, Spec.get, Spec.argVal, Spec.getVal, Spec.user, Spec.put, Bind.bind, SM.bind, SM.pure, hx]
    rfl
  | some c =>
    refine ⟨tr ++ [(x, a)], ?_⟩
    simp [specOp, Spec.emplace, Spec.reset, Spec.destroyVal, Spec.init, Spec.get, Spec.argVal, Spec.getVal, Spec.user, Spec.put, Bind.bind,
      SM.bind, SM.pure, hx, scalarOps]
    funext z
    by_cases hz : z = x <;> simp [up, hz]

theorem runs_construct {x : Nat} {a : V} {k : Except Exn Unit → Verif.Prog V G α} (hx : v x = none)
    (h : Runs lim (k (.ok ())) (up v x (some (some a))) g F) : Runs lim (.construct x true (.ret (.ok a)) k) v g F := by
  intro tr
  obtain ⟨tr2, h2⟩ := h (tr ++ [(x, a)])
  refine ⟨tr2, ?_⟩
  rw [← h2]
  simp [specProg, Re.require, Re.attempt, Re.construct, Re.never, Spec.fresh, Spec.put, Bind.bind, SM.bind, SM.pure, hx]
  rfl

/-! ### The variables -/

/-- The state of one element of the vector. -/
structure Cell (V : Type) where
  row : Row V
  len : Option V

/-- Its members. -/
def Cell.at (c : Cell V) : Nat → Option V
  | 0 => c.row.x
  | 1 => c.row.y
  | 2 => c.row.z
  | _ => c.len

/-- The variables if these elements are in the vector and no function of `Tester` is active. -/
def layout (cs : List (Cell V)) (z : Nat) : Option (Option V) :=
  if z < 8 then none else (cs[(z - 8) / 4]?).map fun c => c.at ((z - 8) % 4)

theorem layout_low (cs : List (Cell V)) {z : Nat} (h : z < 8) : layout cs z = none := if_pos h

theorem layout_elem (cs : List (Cell V)) {i j : Nat} (hj : j < 4) : layout cs (elem i j) = (cs[i]?).map fun c => c.at j := by
  unfold layout elem
  rw [if_neg (by omega), show (8 + 4 * i + j - 8) / 4 = i by omega, show (8 + 4 * i + j - 8) % 4 = j by omega]

theorem layout_nil : (layout [] : Nat → Option (Option V)) = fun _ => none := by
  funext z
  unfold layout
  split <;> rfl

/-- Every variable is a low one or a member of an element. -/
theorem var_cases (z : Nat) : z < 8 ∨ ∃ i j, j < 4 ∧ z = elem i j := by
  by_cases h : z < 8
  · exact .inl h
  · exact .inr ⟨(z - 8) / 4, (z - 8) % 4, by omega, by unfold elem; omega⟩

theorem elem_inj {i j i' j' : Nat} (hj : j < 4) (hj' : j' < 4) : elem i j = elem i' j' ↔ i = i' ∧ j = j' := by
  unfold elem; omega

theorem elem_high (i j : Nat) : 8 ≤ elem i j := by unfold elem; omega

/-- A new length for one element. -/
theorem layout_len (pre : List (Cell V)) (c : Cell V) (post : List (Cell V)) (l : Option V) :
    up (layout (pre ++ c :: post)) (elem pre.length 3) (some l) = layout (pre ++ ⟨c.row, l⟩ :: post) := by
  funext z
  rcases var_cases z with hz | ⟨i, j, hj, rfl⟩
  · rw [up_other _ _ (by have := elem_high pre.length 3; omega), layout_low _ hz, layout_low _ hz]
  · by_cases h : elem i j = elem pre.length 3
    · obtain ⟨rfl, rfl⟩ := (elem_inj hj (by omega)).1 h
      rw [up_same, layout_elem _ (by omega)]
      simp [Cell.at]
    · rw [up_other _ _ h, layout_elem _ hj, layout_elem _ hj]
      by_cases hi : i = pre.length
      · subst hi
        have hj3 : j ≠ 3 := fun e => h (by rw [e])
        simp only [List.getElem?_append_right (Nat.le_refl _), Nat.sub_self, List.getElem?_cons_zero, Option.map_some]
        have : j = 0 ∨ j = 1 ∨ j = 2 := by omega
        rcases this with rfl | rfl | rfl <;> rfl
      · by_cases hlt : i < pre.length
        · rw [List.getElem?_append_left hlt, List.getElem?_append_left hlt]
        · rw [List.getElem?_append_right (by omega), List.getElem?_append_right (by omega)]
          obtain ⟨n, hn⟩ : ∃ n, i - pre.length = n + 1 := ⟨i - pre.length - 1, by omega⟩
          rw [hn]
          rfl

/-- A new element. -/
theorem layout_push (cs : List (Cell V)) (c : Cell V) {v : Nat → Option (Option V)} (hlow : ∀ z < 8, v z = none)
    (hnew : ∀ j < 4, v (elem cs.length j) = some (c.at j)) (hold : ∀ i j, j < 4 → i ≠ cs.length → v (elem i j) = layout cs (elem i j)) :
    v = layout (cs ++ [c]) := by
  funext z
  rcases var_cases z with hz | ⟨i, j, hj, rfl⟩
  · rw [hlow z hz, layout_low _ hz]
  · by_cases hi : i = cs.length
    · subst hi
      rw [hnew j hj, layout_elem _ hj]
      simp
    · rw [hold i j hj hi, layout_elem _ hj, layout_elem _ hj]
      by_cases hlt : i < cs.length
      · rw [List.getElem?_append_left hlt]
      · rw [List.getElem?_eq_none (by omega), List.getElem?_eq_none (by simp; omega)]

/-! ### The functions -/

theorem elem_ne_low {i j k : Nat} (h : k < 8) : (elem i j = k) = False := eq_false (by have := elem_high i j; omega)
theorem low_ne_elem {i j k : Nat} (h : k < 8) : (k = elem i j) = False := eq_false (by have := elem_high i j; omega)

theorem runs_generate {b : Basis V G} {modulo x : Nat} {k : Verif.Prog V G α} (hx : v x = none)
    (h : Runs lim k (up v x (some (draw b.rng b.ofNat modulo g).1)) (draw b.rng b.ofNat modulo g).2 F) : Runs lim (generate b modulo x k) v g F := by
  refine runs_user ?_
  unfold draw at h
  by_cases hm : (b.rng g).1 % modulo = 0
  · rw [if_pos hm] at h ⊢
    exact runs_default hx h
  · rw [if_neg hm] at h ⊢
    exact runs_construct hx h

theorem runs_count {x nulls : Nat} {o : Option V} {k : Nat → Verif.Prog V G α} (hx : v x = some o)
    (h : Runs lim (k (nulls + ([o].filter Option.isNone).length)) v g F) : Runs lim (countIfEmpty x nulls k) v g F := by
  refine runs_has hx ?_
  cases o <;> exact h

theorem runs_fillBody {b : Basis V G} {modulo nulls : Nat} {k : Nat → Verif.Prog V G α} {cs : List (Cell V)}
    (h : Runs lim (k (nulls + missing [(drawRow b.rng b.ofNat modulo g).1])) (layout (cs ++ [⟨(drawRow b.rng b.ofNat modulo g).1, none⟩]))
      (drawRow b.rng b.ofNat modulo g).2 F) : Runs lim (fillBody b modulo cs.length nulls k) (layout cs) g F := by
  revert h
  unfold drawRow
  rcases h0 : draw b.rng b.ofNat modulo g with ⟨x, g1⟩
  dsimp only
  rcases h1 : draw b.rng b.ofNat modulo g1 with ⟨y, g2⟩
  dsimp only
  rcases h2 : draw b.rng b.ofNat modulo g2 with ⟨z, g3⟩
  intro h
  have new : ∀ j < 4, layout cs (elem cs.length j) = none := fun j hj => by rw [layout_elem _ hj]; simp
  have l0 := layout_low cs (z := 0) (by omega)
  have l1 := layout_low cs (z := 1) (by omega)
  have l2 := layout_low cs (z := 2) (by omega)
  have l3 := layout_low cs (z := 3) (by omega)
  have l4 := layout_low cs (z := 4) (by omega)
  have l5 := layout_low cs (z := 5) (by omega)
  have l6 := layout_low cs (z := 6) (by omega)
  have n0 := new 0 (by omega)
  have n1 := new 1 (by omega)
  have n2 := new 2 (by omega)
  have n3 := new 3 (by omega)
  have e1 : elem cs.length 1 ≠ elem cs.length 0 := by unfold elem; omega
  have e2 : elem cs.length 2 ≠ elem cs.length 0 := by unfold elem; omega
  have e3 : elem cs.length 3 ≠ elem cs.length 0 := by unfold elem; omega
  have e4 : elem cs.length 2 ≠ elem cs.length 1 := by unfold elem; omega
  have e5 : elem cs.length 3 ≠ elem cs.length 1 := by unfold elem; omega
  have e6 : elem cs.length 3 ≠ elem cs.length 2 := by unfold elem; omega
  unfold fillBody
  refine runs_generate l0 (runs_generate (by simp [up, l1]) (runs_generate (by simp [up, l2]) ?_))
  simp only [h0, h1, h2]
  refine runs_copy (o := x) (by simp [up, l3]) (by simp [up]) (runs_copy (o := y) (by simp [up, l4]) (by simp [up])
    (runs_copy (o := z) (by simp [up, l5]) (by simp [up]) (runs_default (by simp [up, l6]) ?_)))
  refine runs_move (o := x) (by simp [up, n0, elem_ne_low]) (by simp [up]) (runs_move (o := y) (by simp [up, n1, elem_ne_low, e1])
    (by simp [up, low_ne_elem]) (runs_move (o := z) (by simp [up, n2, elem_ne_low, e2, e4]) (by simp [up, low_ne_elem])
    (runs_move (o := none) (by simp [up, n3, elem_ne_low, e3, e5, e6]) (by simp [up, low_ne_elem]) ?_)))
  refine runs_dtor (o := none) (by simp [up, low_ne_elem]) (runs_dtor (o := z) (by simp [up, low_ne_elem])
    (runs_dtor (o := y) (by simp [up, low_ne_elem]) (runs_dtor (o := x) (by simp [up, low_ne_elem]) ?_)))
  refine runs_count (o := x) (by simp [up, low_ne_elem]) (runs_count (o := y) (by simp [up, low_ne_elem])
    (runs_count (o := z) (by simp [up, low_ne_elem]) ?_))
  refine runs_dtor (o := z) (by simp [up, low_ne_elem]) (runs_dtor (o := y) (by simp [up, low_ne_elem])
    (runs_dtor (o := x) (by simp [up, low_ne_elem]) ?_))
  have hc : nulls + ([x].filter Option.isNone).length + ([y].filter Option.isNone).length + ([z].filter Option.isNone).length =
      nulls + missing [⟨x, y, z⟩] := by
    cases x <;> cases y <;> cases z <;> rfl
  rw [hc]
  have key := layout_push cs ⟨⟨x, y, z⟩, none⟩ (v := up (up (up (up (up (up (up (up (up (up (up (up (up (up (up (up (up (up (layout cs) 0 (some x)) 1 (some y)) 2 (some z))
    3 (some x)) 4 (some y)) 5 (some z)) 6 (some none)) (elem cs.length 0) (some x)) (elem cs.length 1) (some y)) (elem cs.length 2) (some z))
    (elem cs.length 3) (some none)) 6 none) 5 none) 4 none) 3 none) 2 none) 1 none) 0 none)
    (fun w hw => ?_) (fun j hj => ?_) (fun i j hj hi => ?_)
  · rw [key]; exact h
  · have : w = 0 ∨ w = 1 ∨ w = 2 ∨ w = 3 ∨ w = 4 ∨ w = 5 ∨ w = 6 ∨ w = 7 := by omega
    have l7 := layout_low cs (z := 7) (by omega)
    rcases this with rfl | rfl | rfl | rfl | rfl | rfl | rfl | rfl <;> simp [up, low_ne_elem, l7]
  · have : j = 0 ∨ j = 1 ∨ j = 2 ∨ j = 3 := by omega
    rcases this with rfl | rfl | rfl | rfl <;> simp [up, elem_ne_low, Cell.at, e1.symm, e2.symm, e3.symm, e4.symm, e5.symm, e6.symm]
  · simp [up, elem_ne_low, elem_inj hj, hi]

theorem missing_cons (r : Row V) (rs : List (Row V)) : missing (r :: rs) = missing [r] + missing rs := by
  simp [missing]

theorem runs_fill {b : Basis V G} {modulo : Nat} {k : Nat → Verif.Prog V G α} {n : Nat} : ∀ {cs : List (Cell V)} {nulls : Nat} {g : G},
    Runs lim (k (nulls + missing (drawRows b.rng b.ofNat modulo n g).1))
      (layout (cs ++ (drawRows b.rng b.ofNat modulo n g).1.map fun r => ⟨r, none⟩)) (drawRows b.rng b.ofNat modulo n g).2 F →
    Runs lim (fill b modulo n cs.length nulls k) (layout cs) g F := by
  induction n with
  | zero => intro cs nulls g h; simpa [drawRows, missing, fill] using h
  | succ n ih =>
    intro cs nulls g h
    refine runs_fillBody ?_
    have := @ih (cs ++ [⟨(drawRow b.rng b.ofNat modulo g).1, none⟩]) (nulls + missing [(drawRow b.rng b.ofNat modulo g).1])
      (drawRow b.rng b.ofNat modulo g).2
    rw [List.length_append] at this
    refine this ?_
    simp only [drawRows] at h
    rw [missing_cons, ← Nat.add_assoc] at h
    simpa using h

/-! ### The measured part -/

/-- The length that an element has after the first loop of `RunRawTest`. -/
def Cell.measured (b : Basis V G) (c : Cell V) : Cell V :=
  ⟨c.row, match length2 (b.ofNat 0) b.add b.mul c.row with | some l => some l | none => c.len⟩

theorem layout_mid (pre : List (Cell V)) (c : Cell V) (post : List (Cell V)) {j : Nat} (hj : j < 4) :
    layout (pre ++ c :: post) (elem pre.length j) = some (c.at j) := by
  rw [layout_elem _ hj]
  simp

theorem runs_emplaceLength {b : Basis V G} {k : Verif.Prog V G α} {pre : List (Cell V)} {c : Cell V} {post : List (Cell V)}
    (hc : [c.row.x, c.row.y, c.row.z].all Option.isNone = false) (h : Runs lim k (layout (pre ++ c.measured b :: post)) g F) :
    Runs lim (emplaceLength b pre.length k) (layout (pre ++ c :: post)) g F := by
  refine runs_orZero (layout_mid pre c post (by omega)) (runs_orZero (layout_mid pre c post (by omega))
    (runs_orZero (layout_mid pre c post (by omega)) (runs_emplace (layout_mid pre c post (by omega)) ?_)))
  rw [layout_len]
  unfold Cell.measured length2 at h
  rw [hc] at h
  exact h

theorem runs_lengths {b : Basis V G} {k : Verif.Prog V G α} (post : List (Cell V)) : ∀ {pre : List (Cell V)},
    Runs lim k (layout (pre ++ post.map (Cell.measured b))) g F → Runs lim (lengths b post.length pre.length k) (layout (pre ++ post)) g F := by
  induction post with
  | nil => exact fun h => h
  | cons c post ih =>
    intro pre h
    have next : Runs lim (lengths b post.length (pre.length + 1) k) (layout (pre ++ c.measured b :: post)) g F := by
      have := @ih (pre ++ [c.measured b])
      rw [List.length_append, List.append_assoc, List.append_assoc] at this
      exact this h
    have hx := layout_mid pre c post (j := 0) (by omega)
    have hy := layout_mid pre c post (j := 1) (by omega)
    have hz := layout_mid pre c post (j := 2) (by omega)
    rcases c with ⟨⟨x, y, z⟩, l⟩
    refine runs_has hx ?_
    cases x with
    | some x => exact runs_emplaceLength (by rfl) next
    | none =>
      refine runs_has hy ?_
      cases y with
      | some y => exact runs_emplaceLength (by rfl) next
      | none =>
        refine runs_has hz ?_
        cases z with
        | some z => exact runs_emplaceLength (by rfl) next
        | none => exact next

theorem runs_sum {b : Basis V G} {k : V → Verif.Prog V G α} (post : List (Cell V)) : ∀ {pre : List (Cell V)} {t : V},
    Runs lim (k (post.foldl (fun t c => b.add t (c.len.getD (b.ofNat 0))) t)) (layout (pre ++ post)) g F →
    Runs lim (sum b post.length pre.length t k) (layout (pre ++ post)) g F := by
  induction post with
  | nil => exact fun h => h
  | cons c post ih =>
    intro pre t h
    refine runs_orZero (layout_mid pre c post (by omega)) ?_
    have := @ih (pre ++ [c]) (b.add t (c.len.getD (b.ofNat 0)))
    rw [List.length_append, List.append_assoc] at this
    exact this h

/-- The elements before the first, and after every further iteration. -/
def started (rs : List (Row V)) : List (Cell V) := rs.map fun r => ⟨r, none⟩
def ready (b : Basis V G) (rs : List (Row V)) : List (Cell V) := rs.map fun r => ⟨r, length2 (b.ofNat 0) b.add b.mul r⟩

theorem measured_started (b : Basis V G) (rs : List (Row V)) : (started rs).map (Cell.measured b) = ready b rs := by
  simp only [started, ready, List.map_map]
  refine List.map_congr_left fun r _ => ?_
  simp only [Function.comp, Cell.measured]
  cases length2 (b.ofNat 0) b.add b.mul r <;> rfl

theorem measured_ready (b : Basis V G) (rs : List (Row V)) : (ready b rs).map (Cell.measured b) = ready b rs := by
  simp only [ready, List.map_map]
  refine List.map_congr_left fun r _ => ?_
  simp only [Function.comp, Cell.measured]
  cases length2 (b.ofNat 0) b.add b.mul r <;> rfl

theorem runs_rawTest {b : Basis V G} {k : V → Verif.Prog V G α} {rs : List (Row V)} {cs : List (Cell V)} (hl : cs.length = rs.length)
    (hm : cs.map (Cell.measured b) = ready b rs) (h : Runs lim (k (rowsTotal (b.ofNat 0) b.add b.mul rs)) (layout (ready b rs)) g F) :
    Runs lim (rawTest b rs.length k) (layout cs) g F := by
  have h1 := @runs_lengths V G α lim g F b (sum b rs.length 0 (b.ofNat 0) k) cs []
  rw [hl] at h1
  refine h1 ?_
  rw [hm]
  have h2 := @runs_sum V G α lim g F b k (ready b rs) [] (b.ofNat 0)
  rw [show (ready b rs).length = rs.length by simp [ready]] at h2
  refine h2 ?_
  rw [ready, List.foldl_map]
  exact h

theorem runs_iterations {b : Basis V G} {k : V → Verif.Prog V G α} {rs : List (Row V)} (m : Nat) : ∀ {t : V} {cs : List (Cell V)},
    cs.length = rs.length → cs.map (Cell.measured b) = ready b rs →
    (∀ cs : List (Cell V), cs.length = rs.length →
      Runs lim (k ((List.replicate m (rowsTotal (b.ofNat 0) b.add b.mul rs)).foldl b.add t)) (layout cs) g F) →
    Runs lim (iterations b rs.length m t k) (layout cs) g F := by
  induction m with
  | zero => exact fun hl _ h => h _ hl
  | succ m ih => exact fun hl hm h => runs_rawTest hl hm (ih (by simp [ready]) (measured_ready b rs) h)

/-- The variables while the vector is being destroyed: the first `i` elements are gone. -/
def rest (cs : List (Cell V)) (i : Nat) (z : Nat) : Option (Option V) := if z < elem i 0 then none else layout cs z

theorem runs_clear {k : Verif.Prog V G α} {cs : List (Cell V)} (n : Nat) : ∀ {i : Nat}, i + n = cs.length → Runs lim k (fun _ => none) g F →
    Runs lim (clear n i k) (rest cs i) g F := by
  induction n with
  | zero =>
    intro i hi h
    have : rest cs i = fun _ => none := by
      funext z
      unfold rest
      by_cases hz : z < elem i 0
      · rw [if_pos hz]
      · rw [if_neg hz]
        rcases var_cases z with h8 | ⟨a, j, hj, rfl⟩
        · exact layout_low _ h8
        · rw [layout_elem _ hj, List.getElem?_eq_none (by unfold elem at hz; omega)]; rfl
    rw [this]
    exact h
  | succ n ih =>
    intro i hi h
    obtain ⟨c, hc⟩ : ∃ c, cs[i]? = some c := ⟨cs[i]'(by omega), List.getElem?_eq_getElem (by omega)⟩
    have at_ : ∀ j < 4, rest cs i (elem i j) = some (c.at j) := fun j hj => by
      unfold rest
      rw [if_neg (by unfold elem; omega), layout_elem _ hj, hc]
      rfl
    have e1 : elem i 0 ≠ elem i 1 := by unfold elem; omega
    have e2 : elem i 0 ≠ elem i 2 := by unfold elem; omega
    have e3 : elem i 0 ≠ elem i 3 := by unfold elem; omega
    have e4 : elem i 1 ≠ elem i 2 := by unfold elem; omega
    have e5 : elem i 1 ≠ elem i 3 := by unfold elem; omega
    have e6 : elem i 2 ≠ elem i 3 := by unfold elem; omega
    refine runs_dtor (at_ 3 (by omega)) (runs_dtor (o := c.at 2) (by simp [up, e6, at_]) (runs_dtor (o := c.at 1) (by simp [up, e4, e5, at_])
      (runs_dtor (o := c.at 0) (by simp [up, e1, e2, e3, at_]) ?_)))
    have : up (up (up (up (rest cs i) (elem i 3) none) (elem i 2) none) (elem i 1) none) (elem i 0) none = rest cs (i + 1) := by
      funext z
      unfold up rest
      by_cases h0 : z < elem i 0
      · rw [if_pos (show z < elem (i + 1) 0 by unfold elem at *; omega)]
        simp [h0]
      · by_cases h1 : z < elem (i + 1) 0
        · rw [if_pos h1]
          have : z = elem i 0 ∨ z = elem i 1 ∨ z = elem i 2 ∨ z = elem i 3 := by unfold elem at *; omega
          rcases this with rfl | rfl | rfl | rfl <;> simp
        · rw [if_neg h1, if_neg (by unfold elem at *; omega), if_neg (by unfold elem at *; omega), if_neg (by unfold elem at *; omega),
            if_neg (by unfold elem at *; omega), if_neg h0]
    rw [this]
    exact ih (by omega) h

/-- The whole program. -/
theorem runs_tester {b : Basis V G} {modulo n m : Nat} :
    Runs lim (tester b modulo n m) (fun _ => none) g
      (.ok (missing (drawRows b.rng b.ofNat modulo n g).1, total (b.ofNat 0) b.add b.mul (drawRows b.rng b.ofNat modulo n g).1 m),
        fun _ => none, (drawRows b.rng b.ofNat modulo n g).2) := by
  have hlen : ∀ n g, (drawRows b.rng b.ofNat modulo n g).1.length = n := by
    intro n
    induction n with
    | zero => exact fun _ => rfl
    | succ n ih => intro g; simp [drawRows, ih]
  rw [← layout_nil]
  refine runs_fill (cs := []) ?_
  generalize hd : drawRows b.rng b.ofNat modulo n g = d
  rcases d with ⟨rs, g'⟩
  have hn : rs.length = n := by rw [← hlen n g, hd]
  subst hn
  dsimp only
  rw [Nat.zero_add]
  refine runs_iterations m (cs := [] ++ rs.map fun r => ⟨r, none⟩) (by simp) (measured_started b rs) fun cs hl => ?_
  have hr : layout cs = rest cs 0 := by
    funext z
    unfold rest
    by_cases hz : z < elem 0 0
    · rw [if_pos hz, layout_low _ hz]
    · rw [if_neg hz]
  rw [hr]
  refine runs_clear rs.length (by omega) ?_
  rw [layout_nil]
  exact runs_ret

end Verif.Model.Benchmark
