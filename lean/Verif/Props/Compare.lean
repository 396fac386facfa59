import Verif.Lemmas.Compare
import Verif.Lemmas.Step
import Verif.Examples

/-!
# C19-C21: comparisons and hash
-/

namespace Verif.Props
open Verif Verif.Model Verif.Examples
open Verif.Spec (RelOp Cmp Answer stdRel stdCmp stdHash)
variable {V G U A B R : Type} {Γ : Env V G} {w : World V G}

/-- The caller sees an optional with content `o`. -/
def Views (Γ : Env V G) (x : Nat) (o : Option V) (w : World V G) : Prop :=
  match o with
  | none => IsEmpty Γ x w
  | some v => Holds Γ x v w

private theorem Views.shows {x : Nat} {o : Option V} (h : Views Γ x o w) : (tinyOpt Γ x).Shows o w := by
  cases o with
  | none => exact ⟨h, fun _ h => by simp at h⟩
  | some v => exact ⟨h.1, fun a ha => by cases ha; exact h.2⟩

/-- The prescribed outcome of a comparison: the fixed answer with nothing else happening, or one run of the payload's
comparison `cmp` on the two contained values, whose result or exception and effect on the user state are those of the
whole comparison. -/
def Prescribed (ans : Answer R A B) (cmp : UserCmp G A B R) (w : World V G) (out : Res R × World V G) : Prop :=
  match ans with
  | .const r => out = (.ok r, w)
  | .ask a b =>
    (∀ r, (cmp a b w.user).1 = .ok r → out.1 = .ok r) ∧ (∀ e, (cmp a b w.user).1 = .error e → out.1 = .throw e) ∧
    out.2 = { w with user := (cmp a b w.user).2 }

private theorem prescribed_of {ans : Answer R A B} {cmp : UserCmp G A B R} {out : Res R × World V G}
    (h : out = answer ans cmp w) : Prescribed ans cmp w out := by
  cases ans with
  | const r => exact h
  | ask a b =>
    subst h
    unfold answer userCall Prescribed
    rcases hc : cmp a b w.user with ⟨_ | _, g⟩ <;> simp [hc]

/-- C19. `== != < <= > >=` between two tiny optionals of arbitrary configurations. -/
theorem C19_between_tiny {x y : Nat} {o p : Option V} (hx : Views Γ x o w) (hy : Views Γ y p w) (op : RelOp)
    (cmp : RelOp → UserCmp G V V Bool) :
    Prescribed (stdRel op o p) (cmp op) w (optRel (tinyOpt Γ x) (tinyOpt Γ y) op cmp w) :=
  prescribed_of (optRel_run hx.shows hy.shows op cmp)

/-- C19. The same between a tiny optional and a `std::optional` (on either side). -/
theorem C19_with_std {x : Nat} {o : Option V} (hx : Views Γ x o w) (p : Option U) (op : RelOp)
    (cmp : RelOp → UserCmp G V U Bool) (cmp' : RelOp → UserCmp G U V Bool) :
    Prescribed (stdRel op o p) (cmp op) w (optRel (tinyOpt Γ x) (stdOpt p) op cmp w) ∧
    Prescribed (stdRel op p o) (cmp' op) w (optRel (stdOpt p) (tinyOpt Γ x) op cmp' w) :=
  ⟨prescribed_of (optRel_run hx.shows (stdOpt_shows p) op cmp), prescribed_of (optRel_run (stdOpt_shows p) hx.shows op cmp')⟩

/-- C19. `<=>` between tiny optionals. -/
theorem C19_spaceship {x y : Nat} {o p : Option V} (hx : Views Γ x o w) (hy : Views Γ y p w) (cmp : UserCmp G V V Cmp) :
    Prescribed (stdCmp o p) cmp w (optSpaceship (tinyOpt Γ x) (tinyOpt Γ y) cmp w) :=
  prescribed_of (optSpaceship_run hx.shows hy.shows cmp)

/-- C19. `<=>` between a tiny optional and a `std::optional`. -/
theorem C19_spaceship_std {x : Nat} {o : Option V} (hx : Views Γ x o w) (p : Option U) (cmp : UserCmp G V U Cmp)
    (cmp' : UserCmp G U V Cmp) :
    Prescribed (stdCmp o p) cmp w (optSpaceship (tinyOpt Γ x) (stdOpt p) cmp w) ∧
    Prescribed (stdCmp p o) cmp' w (optSpaceship (stdOpt p) (tinyOpt Γ x) cmp' w) :=
  ⟨prescribed_of (optSpaceship_run hx.shows (stdOpt_shows p) cmp), prescribed_of (optSpaceship_run (stdOpt_shows p) hx.shows cmp')⟩

private theorem noexceptIf_of {α : Type} {m : M V G α} {a : α} (h : m w = (.ok a, w)) : noexceptIf true m w = (.ok a, w) := by
  simp [noexceptIf, h]

private theorem views_has {x : Nat} {o : Option V} (h : Views Γ x o w) : hasValue Γ x w = (.ok o.isSome, w) := h.shows.1

/-- C19. Comparison with `nullopt` on either side, both with the operators of the header and with those the C++20 compiler
generates from `==` and `<=>`: `nullopt` behaves like an empty optional, and no user code runs. -/
theorem C19_nullopt {x : Nat} {o : Option V} (hx : Views Γ x o w) (op : RelOp) :
    ∃ b b', stdRel op o (none : Option V) = .const b ∧ stdRel op (none : Option V) o = .const b' ∧
      relNullopt Γ x op w = (.ok b, w) ∧ relNulloptRewritten Γ x op w = (.ok b, w) ∧
      nulloptRel Γ x op w = (.ok b', w) ∧ nulloptRelRewritten Γ x op w = (.ok b', w) := by
  have h := views_has hx
  have hn := notM_run h
  have hr : ∀ op, ∃ b, stdRel op o (none : Option V) = .const b ∧ relNullopt Γ x op w = (.ok b, w) := by
    intro op
    cases o <;> cases op <;>
      exact ⟨_, rfl, noexceptIf_of (by first | exact h | exact hn | rfl)⟩
  have hl : ∀ op, ∃ b, stdRel op (none : Option V) o = .const b ∧ nulloptRel Γ x op w = (.ok b, w) := by
    intro op
    cases o <;> cases op <;>
      exact ⟨_, rfl, noexceptIf_of (by first | exact h | exact hn | rfl)⟩
  have hs : spaceshipNullopt Γ x w = (.ok (boolCmp o.isSome false), w) :=
    noexceptIf_of (by rw [bind_ok h]; rfl)
  obtain ⟨b, hb, hb'⟩ := hr op
  obtain ⟨c, hc, hc'⟩ := hl op
  obtain ⟨e, he, he'⟩ := hr .eq
  have hne := notM_run he'
  refine ⟨b, c, hb, hc, hb', ?_, hc', ?_⟩
  · cases op <;> cases o <;> cases hb <;> cases he <;>
      simp only [relNulloptRewritten] <;>
      first
      | exact hb'
      | exact hne
      | (rw [bind_ok hs]; rfl)
  · cases op <;> cases o <;> cases hc <;> cases he <;>
      simp only [nulloptRelRewritten] <;>
      first
      | exact he'
      | exact hne
      | (rw [bind_ok hs]; rfl)

/-- C19. `optional <=> nullopt`. -/
theorem C19_spaceship_nullopt {x : Nat} {o : Option V} (hx : Views Γ x o w) :
    ∃ c, stdCmp o (none : Option V) = .const c ∧ spaceshipNullopt Γ x w = (.ok c, w) := by
  have h := views_has hx
  have hs : spaceshipNullopt Γ x w = (.ok (boolCmp o.isSome false), w) :=
    noexceptIf_of (by rw [bind_ok h]; rfl)
  cases o <;> exact ⟨_, rfl, hs⟩

private theorem condRel_run {x : Nat} {o : Option V} (hx : Views Γ x o w) (u : U) (d : R) (cmp : UserCmp G V U R) :
    condRel Γ x u d cmp w = match o with
      | none => (.ok d, w)
      | some v => userCall (cmp v u) w := by
  unfold condRel
  rw [bind_ok (views_has hx)]
  cases o with
  | none => rfl
  | some v => simp only [Option.isSome_some, if_true]; rw [bind_ok hx.2]

private theorem condRel'_run {x : Nat} {o : Option V} (hx : Views Γ x o w) (u : U) (d : R) (cmp : UserCmp G U V R) :
    condRel' Γ x u d cmp w = match o with
      | none => (.ok d, w)
      | some v => userCall (cmp u v) w := by
  unfold condRel'
  rw [bind_ok (views_has hx)]
  cases o with
  | none => rfl
  | some v => simp only [Option.isSome_some, if_true]; rw [bind_ok hx.2]

/-- C19. Comparison with a plain value on either side: it behaves like an optional containing it. -/
theorem C19_value {x : Nat} {o : Option V} (hx : Views Γ x o w) (u : U) (op : RelOp) (cmp : RelOp → UserCmp G V U Bool)
    (cmp' : RelOp → UserCmp G U V Bool) :
    Prescribed (stdRel op o (some u)) (cmp op) w (relValue Γ x u op cmp w) ∧
    Prescribed (stdRel op (some u) o) (cmp' op) w (valueRel Γ x u op cmp' w) := by
  constructor <;> apply prescribed_of <;> cases op <;> simp only [relValue, valueRel, condRel_run hx, condRel'_run hx] <;>
    cases o <;> rfl

/-- C19. `optional <=> value`. -/
theorem C19_spaceship_value {x : Nat} {o : Option V} (hx : Views Γ x o w) (u : U) (cmp : UserCmp G V U Cmp) :
    Prescribed (stdCmp o (some u)) cmp w (spaceshipValue Γ x u cmp w) := by
  apply prescribed_of
  simp only [spaceshipValue, condRel_run hx]
  cases o <;> rfl

/-- C19. `value <=> optional`, which the compiler rewrites: the result of the payload's comparison, with the operands exchanged, is
reversed. -/
theorem C19_value_spaceship {x : Nat} {o : Option V} (hx : Views Γ x o w) (u : U) (cmp : UserCmp G V U Cmp) :
    Prescribed (stdCmp (some u) o) (fun b a g => ((cmp a b g).1.map Cmp.flip, (cmp a b g).2)) w
      (valueSpaceshipRewritten Γ x u cmp w) := by
  apply prescribed_of
  change M.bind (spaceshipValue Γ x u cmp) _ w = _
  unfold M.bind
  simp only [spaceshipValue, condRel_run hx]
  cases o with
  | none => rfl
  | some a =>
    simp only [answer, stdCmp, userCall]
    rcases hc : cmp a u w.user with ⟨_ | _, g⟩ <;> simp [Except.map] <;> rfl

/-- C19. Every optional that exists in a reachable world has a content as used in the theorems above. -/
theorem C19_views (hΓ : EnvWF Γ) (hw : Reach Γ w) {x : Nat} (hx : ¬ Absent x w) : ∃ o, Views Γ x o w := by
  obtain ⟨vars, hs⟩ := hw.view hΓ
  cases h : vars x with
  | none => exact absurd (hs.absent h) hx
  | some o =>
    cases o with
    | none => exact ⟨none, hs.isEmpty h⟩
    | some v => exact ⟨some v, hs.holds h⟩

/-- A payload comparison that records its calls, throws on 7, and otherwise compares. -/
private def exCmp (_ : RelOp) : UserCmp (List String) (BitVec 8) (BitVec 8) Bool := fun a b g =>
  if a = 7#8 then (.error (.user 7), g ++ ["cmp!"]) else (.ok (a < b), g ++ ["cmp"])

/-- Optional 20 (sentinel) holds 5, 10 (bit pattern) holds 9, 0 (separate flag) holds 42, 21 is empty. -/
theorem exViews : Views exEnv 20 (some 5#8) exWorld ∧ Views exEnv 10 (some 9#8) exWorld ∧
    Views exEnv 0 (some 42#8) exWorld ∧ Views exEnv 21 none exWorld := ⟨⟨rfl, rfl⟩, ⟨rfl, rfl⟩, ⟨rfl, rfl⟩, rfl⟩

/-- `C19_between_tiny`, for optionals of different configurations and with an empty one. -/
example : (optRel (tinyOpt exEnv 20) (tinyOpt exEnv 10) .lt exCmp exWorld).1 = .ok true ∧
    optRel (tinyOpt exEnv 20) (tinyOpt exEnv 21) .lt exCmp exWorld = (.ok false, exWorld) :=
  ⟨(C19_between_tiny exViews.1 exViews.2.1 .lt exCmp).1 true rfl, C19_between_tiny exViews.1 exViews.2.2.2 .lt exCmp⟩

/-- `C19_with_std`: the comparison runs once, an exception of it is passed on. -/
example : (optRel (tinyOpt exEnv 20) (stdOpt (some 6#8)) .lt exCmp exWorld).2.user = exWorld.user ++ ["cmp"] ∧
    (optRel (stdOpt (some 7#8)) (tinyOpt exEnv 20) .lt exCmp exWorld).1 = .throw (.user 7) :=
  ⟨congrArg World.user (C19_with_std exViews.1 (some 6#8) .lt exCmp exCmp).1.2.2,
    (C19_with_std exViews.1 (some 7#8) .lt exCmp exCmp).2.2.1 _ rfl⟩

/-- `C19_value`. -/
example : relValue exEnv 21 7#8 .lt exCmp exWorld = (.ok true, exWorld) ∧
    (valueRel exEnv 10 7#8 .lt exCmp exWorld).1 = .throw (.user 7) :=
  ⟨(C19_value exViews.2.2.2 7#8 .lt exCmp exCmp).1, (C19_value exViews.2.1 7#8 .lt exCmp exCmp).2.2.1 _ rfl⟩

/-- A three-way comparison. -/
private def exCmp3 : UserCmp (List String) (BitVec 8) (BitVec 8) Cmp := fun a b g =>
  (.ok (if a < b then .less else if a = b then .equal else .greater), g ++ ["<=>"])

/-- `C19_spaceship`, `C19_spaceship_std`, `C19_spaceship_value`, `C19_spaceship_nullopt`. -/
example : (optSpaceship (tinyOpt exEnv 0) (tinyOpt exEnv 10) exCmp3 exWorld).1 = .ok .greater ∧
    (optSpaceship (tinyOpt exEnv 0) (stdOpt (some 42#8)) exCmp3 exWorld).1 = .ok .equal ∧
    (spaceshipValue exEnv 20 6#8 exCmp3 exWorld).1 = .ok .less ∧
    ∃ c, spaceshipNullopt exEnv 20 exWorld = (.ok c, exWorld) :=
  ⟨(C19_spaceship exViews.2.2.1 exViews.2.1 exCmp3).1 _ rfl,
    (C19_spaceship_std exViews.2.2.1 (some 42#8) exCmp3 exCmp3).1.1 _ rfl,
    (C19_spaceship_value exViews.1 6#8 exCmp3).1 _ rfl, (C19_spaceship_nullopt exViews.1).imp fun _ h => h.2⟩

/-- `C19_nullopt`: `o < nullopt` and `nullopt < o` for `o` containing 5. -/
example : relNullopt exEnv 20 .lt exWorld = (.ok false, exWorld) ∧ nulloptRel exEnv 20 .lt exWorld = (.ok true, exWorld) := by
  obtain ⟨b, b', h1, h2, h3, _, h4, _⟩ := C19_nullopt exViews.1 .lt
  cases h1; cases h2
  exact ⟨h3, h4⟩

/-- `C19_views`. -/
example : ∃ o, Views exEnv 22 o exWorld := C19_views exEnv_wf ex_reach (Option.isSome_iff_ne_none.mp rfl)

/-- `C19_value_spaceship`: `6 <=> o` with `o` containing 5 and with `o` being empty. -/
example : (valueSpaceshipRewritten exEnv 20 6#8 exCmp3 exWorld).1 = .ok .greater ∧
    valueSpaceshipRewritten exEnv 21 6#8 exCmp3 exWorld = (.ok .greater, exWorld) :=
  ⟨(C19_value_spaceship exViews.1 6#8 exCmp3).1 _ rfl, C19_value_spaceship exViews.2.2.2 6#8 exCmp3⟩

/-! ### C20 -/

/-- `rel` and `cmp3` are the relational operators and `<=>` of a total order on the elements satisfying `dom`: there is one
total, transitive "less or equal" (`le`) from which all of them are derived; `a == b` means `a <= b` and `b <= a`. -/
structure TotalOrder {X : Type} (dom : X → Prop) (rel : RelOp → X → X → Bool → Prop) (cmp3 : X → X → Cmp → Prop)
    (le : X → X → Bool) : Prop where
  total : ∀ a b, dom a → dom b → le a b = true ∨ le b a = true
  trans : ∀ a b c, dom a → dom b → dom c → le a b = true → le b c = true → le a c = true
  isLe : ∀ a b, dom a → dom b → rel .le a b (le a b)
  isGe : ∀ a b, dom a → dom b → rel .ge a b (le b a)
  isEq : ∀ a b, dom a → dom b → rel .eq a b (le a b && le b a)
  isNe : ∀ a b, dom a → dom b → rel .ne a b (!(le a b && le b a))
  isLt : ∀ a b, dom a → dom b → rel .lt a b (!le b a)
  isGt : ∀ a b, dom a → dom b → rel .gt a b (!le a b)
  isCmp : ∀ a b, dom a → dom b → cmp3 a b (if le a b then (if le b a then .equal else .less) else .greater)

/-- C20. If the comparisons of the payload are those of a total order, the comparisons of all optionals existing in a
reachable world (of arbitrary configurations) are those of a total order, whose least element is the empty optional. -/
theorem C20_total_order (hΓ : EnvWF Γ) (hw : Reach Γ w) {cmp : RelOp → UserCmp G V V Bool} {cmp3 : UserCmp G V V Cmp}
    {le : V → V → Bool}
    (h : TotalOrder (fun _ => True) (fun op a b r => ∀ g, cmp op a b g = (.ok r, g)) (fun a b c => ∀ g, cmp3 a b g = (.ok c, g)) le) :
    ∃ ole, TotalOrder (fun x => ¬ Absent x w)
        (fun op x y r => optRel (tinyOpt Γ x) (tinyOpt Γ y) op cmp w = (.ok r, w))
        (fun x y c => optSpaceship (tinyOpt Γ x) (tinyOpt Γ y) cmp3 w = (.ok c, w)) ole ∧
      ∀ x y, IsEmpty Γ x w → ¬ Absent y w → ole x y = true ∧ (ole y x = true → IsEmpty Γ y w) := by
  obtain ⟨vars, hs⟩ := hw.view hΓ
  let ct : Nat → Option V := fun x => (vars x).getD none
  have hct : ∀ x, ¬ Absent x w → Views Γ x (ct x) w := by
    intro x hx
    cases hv : vars x with
    | none => exact absurd (hs.absent hv) hx
    | some o =>
      have : ct x = o := by simp [ct, hv]
      rw [this]
      cases o with
      | none => exact hs.isEmpty hv
      | some v => exact hs.holds hv
  let leo : Option V → Option V → Bool := fun
    | none, _ => true
    | some _, none => false
    | some a, some b => le a b
  have hrel : ∀ x y (hx : ¬ Absent x w) (hy : ¬ Absent y w) op,
      optRel (tinyOpt Γ x) (tinyOpt Γ y) op cmp w = answer (stdRel op (ct x) (ct y)) (cmp op) w :=
    fun x y hx hy op => optRel_run (hct x hx).shows (hct y hy).shows op cmp
  have hask : ∀ {op : RelOp} {a b : V} {r : Bool}, (∀ g, cmp op a b g = (.ok r, g)) → userCall (cmp op a b) w = (.ok r, w) := by
    intro op a b r hc
    simp [userCall, hc]
  refine ⟨fun x y => leo (ct x) (ct y), ?_, ?_⟩
  · have hT : True := trivial
    constructor
    · intro x y _ _
      show leo (ct x) (ct y) = true ∨ leo (ct y) (ct x) = true
      cases ct x <;> cases ct y <;> simp only [leo, true_or, or_true]
      exact h.total _ _ trivial trivial
    · intro x y z _ _ _
      show leo (ct x) (ct y) = true → leo (ct y) (ct z) = true → leo (ct x) (ct z) = true
      cases ct x <;> cases ct y <;> cases ct z <;> simp only [leo, implies_true, Bool.false_eq_true, false_implies]
      exact h.trans _ _ _ trivial trivial trivial
    · intro x y hx hy
      show optRel _ _ _ _ _ = (.ok (leo (ct x) (ct y)), w)
      rw [hrel x y hx hy]
      cases ct x <;> cases ct y <;> first | rfl | exact hask (h.isLe _ _ trivial trivial)
    · intro x y hx hy
      show optRel _ _ _ _ _ = (.ok (leo (ct y) (ct x)), w)
      rw [hrel x y hx hy]
      cases ct x <;> cases ct y <;> first | rfl | exact hask (h.isGe _ _ trivial trivial)
    · intro x y hx hy
      show optRel _ _ _ _ _ = (.ok (leo (ct x) (ct y) && leo (ct y) (ct x)), w)
      rw [hrel x y hx hy]
      cases ct x <;> cases ct y <;> first | rfl | exact hask (h.isEq _ _ trivial trivial)
    · intro x y hx hy
      show optRel _ _ _ _ _ = (.ok (!(leo (ct x) (ct y) && leo (ct y) (ct x))), w)
      rw [hrel x y hx hy]
      cases ct x <;> cases ct y <;> first | rfl | exact hask (h.isNe _ _ trivial trivial)
    · intro x y hx hy
      show optRel _ _ _ _ _ = (.ok (!leo (ct y) (ct x)), w)
      rw [hrel x y hx hy]
      cases ct x <;> cases ct y <;> first | rfl | exact hask (h.isLt _ _ trivial trivial)
    · intro x y hx hy
      show optRel _ _ _ _ _ = (.ok (!leo (ct x) (ct y)), w)
      rw [hrel x y hx hy]
      cases ct x <;> cases ct y <;> first | rfl | exact hask (h.isGt _ _ trivial trivial)
    · intro x y hx hy
      show optSpaceship _ _ _ _ = (.ok (if leo (ct x) (ct y) then (if leo (ct y) (ct x) then .equal else .less) else .greater), w)
      rw [optSpaceship_run (hct x hx).shows (hct y hy).shows cmp3]
      cases ct x <;> cases ct y <;> first | rfl | (simp only [answer, stdCmp, userCall, h.isCmp _ _ trivial trivial]; rfl)
  · intro x y hx hy
    have hvx : vars x = some none := hs.emp hx
    have hcx : ct x = none := by simp [ct, hvx]
    refine ⟨?_, ?_⟩
    · show leo (ct x) (ct y) = true
      rw [hcx]
    · show leo (ct y) (ct x) = true → _
      rw [hcx]
      intro hl
      have := hct y hy
      cases hcy : ct y with
      | none => rw [hcy] at this; exact this
      | some v => rw [hcy] at hl; simp [leo] at hl

/-- The comparisons of bytes (`unsigned char`). -/
private def byteRel : RelOp → UserCmp (List String) (BitVec 8) (BitVec 8) Bool := fun op a b g =>
  (.ok (match op with
    | .eq => a == b | .ne => a != b | .lt => decide (a.toNat < b.toNat) | .le => decide (a.toNat ≤ b.toNat)
    | .gt => decide (a.toNat > b.toNat) | .ge => decide (a.toNat ≥ b.toNat)), g)

private def byteCmp : UserCmp (List String) (BitVec 8) (BitVec 8) Cmp := fun a b g =>
  (.ok (if a.toNat < b.toNat then .less else if a = b then .equal else .greater), g)

/-- They are those of a total order. -/
private theorem byte_order : TotalOrder (fun _ => True) (fun op a b r => ∀ g, byteRel op a b g = (.ok r, g))
    (fun a b c => ∀ g, byteCmp a b g = (.ok c, g)) (fun a b => decide (a.toNat ≤ b.toNat)) := by
  constructor <;> intros <;> simp only [byteRel, byteCmp, Prod.mk.injEq, Except.ok.injEq, and_true, decide_eq_true_eq] at * <;>
    try omega
  · rename_i a b _ _ _
    rw [Bool.eq_iff_iff]; simp [← BitVec.toNat_inj]; omega
  · rename_i a b _ _ _
    rw [Bool.eq_iff_iff]; simp [← BitVec.toNat_inj]; omega
  · rename_i a b _ _ _
    rw [Bool.eq_iff_iff]; simp
  · rename_i a b _ _ _
    rw [Bool.eq_iff_iff]; simp
  · rename_i a b _ _ _
    by_cases h1 : a.toNat < b.toNat
    · simp [h1, Nat.le_of_lt h1]
    · by_cases h2 : a = b
      · subst h2; simp
      · have : a.toNat ≠ b.toNat := fun h => h2 (BitVec.eq_of_toNat_eq h)
        have h3 : ¬ a.toNat ≤ b.toNat := by omega
        simp [h1, h2, h3]

/-- `C20_total_order` for the optionals of the sample world: 21 is a least element, 20 is not below it. -/
example : ∃ ole : Nat → Nat → Bool, optRel (tinyOpt exEnv 20) (tinyOpt exEnv 10) .le byteRel exWorld = (.ok (ole 20 10), exWorld) ∧
    ole 21 20 = true ∧ ole 20 21 = false := by
  obtain ⟨ole, h1, h2⟩ := C20_total_order exEnv_wf ex_reach byte_order
  have h := h2 21 20 ex21 (Option.isSome_iff_ne_none.mp rfl)
  refine ⟨ole, h1.isLe 20 10 (Option.isSome_iff_ne_none.mp rfl) (Option.isSome_iff_ne_none.mp rfl), h.1, ?_⟩
  cases h3 : ole 20 21 with
  | false => rfl
  | true => exact absurd (h.2 h3) (by intro h; cases h)

/-! ### C21 -/

/-- C21. The hash of an optional is the hash of its payload (computed once) or 0. -/
theorem C21_hash {H : Type} [OfNat H 0] {x : Nat} {o : Option V} (hx : Views Γ x o w) (h : V → G → Except Exn H × G) :
    hashOf Γ x h w = match o with
      | none => (.ok 0, w)
      | some v => userCall (h v) w := by
  unfold hashOf
  rw [bind_ok (views_has hx)]
  cases o with
  | none => rfl
  | some v => simp only [Option.isSome_some, if_true]; rw [bind_ok hx.2]

/-- C21. If the payload's hash and equality are pure and equal payloads have equal hashes, then optionals that compare equal
have equal hashes, whatever their configurations. -/
theorem C21_hash_eq {H : Type} [OfNat H 0] (hΓ : EnvWF Γ) (hw : Reach Γ w) {x y : Nat} (hx : ¬ Absent x w) (hy : ¬ Absent y w)
    {eq : V → V → Bool} {hash : V → H} {cmp : RelOp → UserCmp G V V Bool} {h : V → G → Except Exn H × G}
    (hcmp : ∀ a b g, cmp .eq a b g = (.ok (eq a b), g)) (hhash : ∀ v g, h v g = (.ok (hash v), g))
    (hresp : ∀ a b, eq a b = true → hash a = hash b)
    (he : (optRel (tinyOpt Γ x) (tinyOpt Γ y) .eq cmp w).1 = .ok true) :
    ∃ k, hashOf Γ x h w = (.ok k, w) ∧ hashOf Γ y h w = (.ok k, w) := by
  obtain ⟨o, ho⟩ := C19_views hΓ hw hx
  obtain ⟨p, hp⟩ := C19_views hΓ hw hy
  rw [optRel_run ho.shows hp.shows] at he
  rw [C21_hash ho, C21_hash hp]
  cases o <;> cases p <;> simp [answer, stdRel, userCall, hcmp, hhash, pure_run] at he ⊢
  exact (hresp _ _ he).symm

/-- `C21_hash` for an engaged and an empty optional. -/
example : hashOf exEnv 20 (fun v g => (.ok (v.toNat * 31), g ++ ["hash"])) exWorld = (.ok 155, { exWorld with user := ["hash"] }) ∧
    hashOf exEnv 21 (fun v g => (.ok (v.toNat * 31), g ++ ["hash"])) exWorld = (.ok 0, exWorld) :=
  ⟨C21_hash exViews.1 _, C21_hash exViews.2.2.2 _⟩

/-- `C21_hash_eq`, with an equality that is coarser than identity: only the last bit counts. 20 holds 5, 10 holds 9. -/
example : ∃ k, hashOf exEnv 20 (fun v g => (.ok (v.toNat % 2), g)) exWorld = (.ok k, exWorld) ∧
    hashOf exEnv 10 (fun v g => (.ok (v.toNat % 2), g)) exWorld = (.ok k, exWorld) :=
  C21_hash_eq exEnv_wf ex_reach (Option.isSome_iff_ne_none.mp rfl) (Option.isSome_iff_ne_none.mp rfl)
    (eq := fun a b => a.toNat % 2 == b.toNat % 2) (hash := fun v => v.toNat % 2)
    (cmp := fun _ a b g => (.ok (a.toNat % 2 == b.toNat % 2), g)) (fun _ _ _ => rfl) (fun _ _ => rfl)
    (fun _ _ h => beq_iff_eq.1 h) rfl

end Verif.Props
