import Verif.Lemmas.OverloadCheck
import Verif.Props.Compare

/-!
# C51: comparison expressions resolve to the right operator
-/

namespace Verif.Props
open Verif Verif.Model Verif.Model.Overload Verif.Examples
open Verif.Spec (RelOp Cmp CmpOp OpTy Answer stdRel stdCmp IsTiny IsStd Considered compared role)

variable {m : Mode} {o : Oracle} {l r : OpTy}

/-- `three_way_comparable_with` is symmetric, as the standard's definition is. -/
def Oracle.Symm (o : Oracle) : Prop := ∀ s t, o.threeWay s t = o.threeWay t s

private theorem null_kind (l r : OpTy) : Null (kind l).rep (kind r).rep = Null l r := by
  unfold Null
  rw [role_kind l, role_kind r]

private theorem isImpl_kind (t : OpTy) : IsImpl (kind t).rep = IsImpl t := by
  cases t with
  | derived b n => simp only [kind]; cases kind b <;> rfl
  | _ => rfl

private theorem prefers_kind (m : Mode) (l r : OpTy) : prefersThree m (kind l).rep (kind r).rep = prefersThree m l r := by
  unfold prefersThree
  rw [← isTiny_kind, ← isStd_kind, ← isStd_kind, isImpl_kind, isImpl_kind]

private theorem claimed_kind {op : CmpOp} {b : Bool} {u : Use} (h : u.asClaimed m op (kind l).rep (kind r).rep b = true) :
    u.asClaimed m op l r b = true := by
  have hn : selectedName m op (kind l).rep (kind r).rep b = selectedName m op l r b := by
    unfold selectedName
    rw [null_kind, prefers_kind]
  unfold Use.asClaimed at h ⊢
  rwa [hn, null_kind, ← right_kind] at h

private theorem of_checked (hs : Oracle.Symm o) {op : CmpOp}
    (h : checked m op (kind l).rep (kind r).rep (o.threeWay (compared l) (compared r)) = true) :
    ∃ u, resolve m o op l r = .found u ∧ u.asClaimed m op l r (o.threeWay (compared l) (compared r)) = true := by
  unfold checked at h
  cases hw : winner m op (kind l).rep (kind r).rep (o.threeWay (compared l) (compared r)) with
  | none => rw [hw] at h; cases h
  | some u => rw [hw] at h; exact ⟨u, resolve_winner hs hw, claimed_kind h⟩

private theorem rel_found (hm : m.Real = true) (hs : Oracle.Symm o) (hc : Considered l r = true) (op : RelOp) :
    ∃ u, resolve m o (.rel op) l r = .found u ∧
      u.asClaimed m (.rel op) l r (o.threeWay (compared l) (compared r)) = true := by
  apply of_checked hs
  have h := checkRel_all op
  unfold checkRel at h
  rw [List.all_eq_true] at h
  have h := h m (mem_modes hm)
  rw [List.all_eq_true] at h
  have h := h _ (mem_pairs hc)
  rw [List.all_eq_true] at h
  exact h _ (by cases o.threeWay (compared l) (compared r) <;> decide)

private theorem three_found (hm : m.Real = true) (hs : Oracle.Symm o) (hc : Considered l r = true) (h20 : m.cpp20 = true)
    (hg : missing m l r = false) (ht : o.threeWay (compared l) (compared r) = true ∨ Null l r = true) :
    ∃ u, resolve m o .three l r = .found u ∧
      u.asClaimed m .three l r (o.threeWay (compared l) (compared r)) = true := by
  apply of_checked hs
  have hg' : missing m (kind l).rep (kind r).rep = false := by
    unfold missing at hg ⊢
    rwa [← isStd_kind, isImpl_kind]
  cases hb : o.threeWay (compared l) (compared r) with
  | true =>
    have h := checkThree_ok
    unfold checkThree at h
    rw [List.all_eq_true] at h
    have h := h m (mem_modes hm)
    rw [List.all_eq_true] at h
    have h := h _ (mem_pairs hc)
    simpa [h20, hg'] using h
  | false =>
    have hn : Null l r = true := ht.resolve_left (by simp [hb])
    have h := checkThreeNull_ok
    unfold checkThreeNull at h
    rw [List.all_eq_true] at h
    have h := h m (mem_modes hm)
    rw [List.all_eq_true] at h
    have h := h _ (mem_pairs hc)
    simpa [h20, null_kind, hn] using h

/-- C51 (selection). `== != < <= > >=` are never ambiguous and always find a function, namely one of the library that regards
both operands as what they are, whatever all the constraints say. -/
theorem C51_selects (hm : m.Real = true) (hs : Oracle.Symm o) (hc : Considered l r = true) (op : RelOp) :
    ∃ u, resolve m o (.rel op) l r = .found u ∧ u.cand.owner ≠ .std ∧ u.lp.role = role l ∧ u.rp.role = role r := by
  obtain ⟨u, h, hu⟩ := rel_found hm hs hc op
  simp only [Use.asClaimed, Use.right, Bool.and_eq_true, beq_iff_eq, bne_iff_ne] at hu
  exact ⟨u, h, hu.1.1.2, hu.1.1.1.1⟩

/-- C51 (selection, `<=>`). The same for `<=>`, if the payloads are three-way comparable or an operand is `nullopt`; except
for `std::optional <=> optional_inplace` and the like with a gcc that does not implement CWG 2445. -/
theorem C51_selects_three (hm : m.Real = true) (hs : Oracle.Symm o) (hc : Considered l r = true) (h20 : m.cpp20 = true)
    (hg : missing m l r = false) (ht : o.threeWay (compared l) (compared r) = true ∨ Null l r = true) :
    ∃ u, resolve m o .three l r = .found u ∧ u.cand.owner ≠ .std ∧ u.lp.role = role l ∧ u.rp.role = role r := by
  obtain ⟨u, h, hu⟩ := three_found hm hs hc h20 hg ht
  simp only [Use.asClaimed, Use.right, Bool.and_eq_true, beq_iff_eq, bne_iff_ne] at hu
  exact ⟨u, h, hu.1.1.2, hu.1.1.1.1⟩

/-- C51 (operator). In C++17, and for `==` and `!=` unless an operand is `nullopt`, the operator of the same name is called with
the operands in the written order. -/
theorem C51_same_operator (hm : m.Real = true) (hs : Oracle.Symm o) (hc : Considered l r = true) {op : RelOp}
    (h : m.cpp20 = false ∨ ((op = .eq ∨ op = .ne) ∧ Null l r = false)) :
    ∃ u, resolve m o (.rel op) l r = .found u ∧ u.cand.name = .rel op ∧ u.reversed = false := by
  obtain ⟨u, hf, hu⟩ := rel_found hm hs hc op
  simp only [Use.asClaimed, Bool.and_eq_true, beq_iff_eq, bne_iff_ne, Bool.or_eq_true, Bool.not_eq_true'] at hu
  obtain ⟨⟨⟨⟨_, hn⟩, _⟩, hr⟩, hw⟩ := hu
  have hname : u.cand.name = .rel op := by
    rw [hn]
    rcases h with h | ⟨rfl | rfl, h⟩
    · cases op <;> simp [selectedName, h]
    · rfl
    · simp [selectedName, h]
  refine ⟨u, hf, hname, ?_⟩
  rcases hr with (hr | hr) | ⟨hr1, hr2⟩
  · exact hr
  · rw [hname] at hr; cases hr
  · rcases h with h | h
    · -- no rewritten candidates in C++17
      have hmem : u ∈ uses m (.rel op) := by
        unfold resolve at hf
        dsimp only at hf
        split at hf
        · rename_i v hv
          injection hf with hf
          subst hf
          exact (List.mem_filter.1 (List.mem_of_find?_eq_some hv)).1
        · split at hf <;> cases hf
      have : ∀ l : List Cand, u ∈ l.map (fun c => (⟨c, false, false⟩ : Use)) → u.reversed = false := by
        intro l hl
        obtain ⟨c, _, rfl⟩ := List.mem_map.1 hl
        rfl
      cases op <;> simp only [uses, h, Bool.false_eq_true, if_false, List.append_nil] at hmem <;> exact this _ hmem
    · rw [h.2] at hr1; cases hr1

/-- C51 (operator). C++20 with ordering operators: `<=>` of the payloads is used instead of the operator that was written
exactly if the payloads are three-way comparable and `prefersThree`; otherwise the written one, in the written order. -/
theorem C51_ordering (hm : m.Real = true) (hs : Oracle.Symm o) (hc : Considered l r = true) {op : RelOp}
    (hop : op ≠ .eq ∧ op ≠ .ne) (hn : Null l r = false) (h20 : m.cpp20 = true) :
    ∃ u, resolve m o (.rel op) l r = .found u ∧
      ((prefersThree m l r = true ∧ o.threeWay (compared l) (compared r) = true ∧ u.cand.name = .three) ∨
       (¬ (prefersThree m l r = true ∧ o.threeWay (compared l) (compared r) = true) ∧ u.cand.name = .rel op ∧
         u.reversed = false)) := by
  obtain ⟨u, hf, hu⟩ := rel_found hm hs hc op
  simp only [Use.asClaimed, Bool.and_eq_true, beq_iff_eq, bne_iff_ne, Bool.or_eq_true, Bool.not_eq_true'] at hu
  obtain ⟨⟨⟨⟨_, hname⟩, _⟩, hr⟩, _⟩ := hu
  have hsel : selectedName m (.rel op) l r (o.threeWay (compared l) (compared r)) =
      if prefersThree m l r && o.threeWay (compared l) (compared r) then .three else .rel op := by
    cases op <;> simp_all [selectedName]
  rw [hsel] at hname
  refine ⟨u, hf, ?_⟩
  by_cases hp : (prefersThree m l r && o.threeWay (compared l) (compared r)) = true
  · rw [if_pos hp] at hname
    simp only [Bool.and_eq_true] at hp
    exact .inl ⟨hp.1, hp.2, hname⟩
  · rw [if_neg hp] at hname
    simp only [Bool.and_eq_true] at hp
    refine .inr ⟨hp, hname, ?_⟩
    rcases hr with (hr | hr) | hr
    · exact hr
    · rw [hname] at hr; cases hr
    · rw [hn] at hr; cases hr.1

/-! ### What the expression evaluates to -/

section meaning
variable {V G U : Type} {Γ : Env V G} {w : World V G} {os : Operands U}

/-- The operands are of these types. -/
def HasTypes (os : Operands U) (l r : OpTy) : Prop :=
  match os with
  | .tinyTiny _ _ => IsTiny l = true ∧ IsTiny r = true
  | .tinyStd _ _ => IsTiny l = true ∧ IsStd r = true
  | .stdTiny _ _ => IsStd l = true ∧ IsTiny r = true
  | .tinyNull _ => IsTiny l = true ∧ role r = .nullopt
  | .nullTiny _ => role l = .nullopt ∧ IsTiny r = true
  | .tinyVal _ _ => IsTiny l = true ∧ role r = .value
  | .valTiny _ _ => role l = .value ∧ IsTiny r = true

/-- The contents of the operands: `nullopt` counts as empty optional, a value as optional that contains it. -/
def Contents (Γ : Env V G) (w : World V G) (os : Operands U) (a b : Option (V ⊕ U)) : Prop :=
  match os with
  | .tinyTiny x y => ∃ p q, Views Γ x p w ∧ Views Γ y q w ∧ a = p.map .inl ∧ b = q.map .inl
  | .tinyStd x q => ∃ p, Views Γ x p w ∧ a = p.map .inl ∧ b = q.map .inr
  | .stdTiny p x => ∃ q, Views Γ x q w ∧ a = p.map .inr ∧ b = q.map .inl
  | .tinyNull x => ∃ p, Views Γ x p w ∧ a = p.map .inl ∧ b = none
  | .nullTiny x => ∃ q, Views Γ x q w ∧ a = none ∧ b = q.map .inl
  | .tinyVal x u => ∃ p, Views Γ x p w ∧ a = p.map .inl ∧ b = some (.inr u)
  | .valTiny u x => ∃ q, Views Γ x q w ∧ a = some (.inr u) ∧ b = q.map .inl

/-- A relational operator made from `<=>`. -/
def viaThree {A B : Type} (three : UserCmp G A B Cmp) (op : RelOp) : UserCmp G A B Bool := fun a b g =>
  match three a b g with
  | (.ok c, g') => (.ok (Cmp.rel op c), g')
  | (.error e, g') => (.error e, g')

/-- The reversed `<=>`. -/
def flipThree {A B : Type} (three : UserCmp G B A Cmp) : UserCmp G A B Cmp := fun a b g =>
  match three b a g with
  | (.ok c, g') => (.ok c.flip, g')
  | (.error e, g') => (.error e, g')

private theorem role_tiny {t : OpTy} (h : IsTiny t = true) : role t = .opt := by
  induction t with
  | derived b n ih => exact ih h
  | tiny => rfl
  | impl => rfl
  | _ => cases h

private theorem role_std {t : OpTy} (h : IsStd t = true) : role t = .opt := by
  cases t <;> first | rfl | cases h

private theorem roles_eq (h : HasTypes os l r) : os.roles = (role l, role r) := by
  cases os <;> simp only [HasTypes] at h <;> simp only [Operands.roles, Prod.mk.injEq]
  · exact ⟨(role_tiny h.1).symm, (role_tiny h.2).symm⟩
  · exact ⟨(role_tiny h.1).symm, (role_std h.2).symm⟩
  · exact ⟨(role_std h.1).symm, (role_tiny h.2).symm⟩
  · exact ⟨(role_tiny h.1).symm, h.2.symm⟩
  · exact ⟨h.1.symm, (role_tiny h.2).symm⟩
  · exact ⟨(role_tiny h.1).symm, h.2.symm⟩
  · exact ⟨h.1.symm, (role_tiny h.2).symm⟩

private theorem null_contents {a b : Option (V ⊕ U)} (h : Null l r = true) (hT : HasTypes os l r) (hC : Contents Γ w os a b) :
    a = none ∨ b = none := by
  have hro := roles_eq hT
  simp only [Null, Bool.or_eq_true, beq_iff_eq] at h
  have h : os.roles.1 = .nullopt ∨ os.roles.2 = .nullopt := by rw [hro]; exact h
  cases os <;> simp only [Operands.roles, reduceCtorEq, or_self] at h
  · obtain ⟨p, _, _, rfl⟩ := hC; exact .inr rfl
  · obtain ⟨p, _, rfl, _⟩ := hC; exact .inl rfl

private theorem Contents.swap {a b : Option (V ⊕ U)} (h : Contents Γ w os a b) : Contents Γ w os.swap b a := by
  cases os <;> simp only [Contents, Operands.swap] at h ⊢
  · obtain ⟨p, q, h1, h2, h3, h4⟩ := h; exact ⟨q, p, h2, h1, h4, h3⟩
  all_goals (obtain ⟨p, h1, h2, h3⟩ := h; exact ⟨p, h1, h3, h2⟩)

private theorem prescribed_map {A B A' B' : Type} {f : A → A'} {g : B → B'} {op : RelOp} {p : Option A} {q : Option B}
    {cmp : UserCmp G A' B' Bool} {out : Res Bool × World V G}
    (h : Prescribed (stdRel op p q) (fun a b => cmp (f a) (g b)) w out) :
    Prescribed (stdRel op (p.map f) (q.map g)) cmp w out := by
  cases p <;> cases q <;> exact h

private theorem prescribedCmp_map {A B A' B' : Type} {f : A → A'} {g : B → B'} {p : Option A} {q : Option B}
    {cmp : UserCmp G A' B' Cmp} {out : Res Cmp × World V G}
    (h : Prescribed (stdCmp p q) (fun a b => cmp (f a) (g b)) w out) :
    Prescribed (stdCmp (p.map f) (q.map g)) cmp w out := by
  cases p <;> cases q <;> exact h

/-- Every declared relational operator does what the standard prescribes. -/
private theorem applyRel_prescribed (c : PayloadCmp V G U) (op : RelOp) {a b : Option (V ⊕ U)} (h : Contents Γ w os a b) :
    Prescribed (stdRel op a b) (c.rel op) w (applyRel Γ c op os w) := by
  cases os with
  | tinyTiny x y =>
    obtain ⟨p, q, hx, hy, rfl, rfl⟩ := h
    exact prescribed_map (C19_between_tiny hx hy op fun op a b => c.rel op (.inl a) (.inl b))
  | tinyStd x q =>
    obtain ⟨p, hx, rfl, rfl⟩ := h
    exact prescribed_map (C19_with_std hx q op (fun op a b => c.rel op (.inl a) (.inr b)) (fun op a b => c.rel op (.inr a) (.inl b))).1
  | stdTiny q x =>
    obtain ⟨p, hx, rfl, rfl⟩ := h
    exact prescribed_map (C19_with_std hx q op (fun op a b => c.rel op (.inl a) (.inr b)) (fun op a b => c.rel op (.inr a) (.inl b))).2
  | tinyNull x =>
    obtain ⟨p, hx, rfl, rfl⟩ := h
    obtain ⟨b, b', h1, h2, h3, h4, h5, h6⟩ := C19_nullopt hx op
    have : stdRel op (p.map (Sum.inl : V → V ⊕ U)) (none : Option (V ⊕ U)) = .const b := by
      cases p <;> simp only [stdRel, Option.map] at h1 ⊢ <;> injection h1 with h1 <;> rw [h1]
    rw [this]
    exact h3
  | nullTiny x =>
    obtain ⟨p, hx, rfl, rfl⟩ := h
    obtain ⟨b, b', h1, h2, h3, h4, h5, h6⟩ := C19_nullopt hx op
    have : stdRel op (none : Option (V ⊕ U)) (p.map (Sum.inl : V → V ⊕ U)) = .const b' := by
      cases p <;> simp only [stdRel, Option.map] at h2 ⊢ <;> injection h2 with h2 <;> rw [h2]
    rw [this]
    exact h5
  | tinyVal x u =>
    obtain ⟨p, hx, rfl, rfl⟩ := h
    exact prescribed_map (q := some u)
      (C19_value hx u op (fun op a b => c.rel op (.inl a) (.inr b)) (fun op a b => c.rel op (.inr a) (.inl b))).1
  | valTiny u x =>
    obtain ⟨p, hx, rfl, rfl⟩ := h
    exact prescribed_map (p := some u)
      (C19_value hx u op (fun op a b => c.rel op (.inl a) (.inr b)) (fun op a b => c.rel op (.inr a) (.inl b))).2

private theorem applyThree_prescribed (c : PayloadCmp V G U) {a b : Option (V ⊕ U)} (h : Contents Γ w os a b)
    (hl : os.roles.1 = .opt) :
    ∃ prog, applyThree Γ c os = some prog ∧ Prescribed (stdCmp a b) c.three w (prog w) := by
  cases os with
  | tinyTiny x y =>
    obtain ⟨p, q, hx, hy, rfl, rfl⟩ := h
    exact ⟨_, rfl, prescribedCmp_map (C19_spaceship hx hy fun a b => c.three (.inl a) (.inl b))⟩
  | tinyStd x q =>
    obtain ⟨p, hx, rfl, rfl⟩ := h
    exact ⟨_, rfl, prescribedCmp_map (C19_spaceship_std hx q (fun a b => c.three (.inl a) (.inr b)) (fun a b => c.three (.inr a) (.inl b))).1⟩
  | stdTiny q x =>
    obtain ⟨p, hx, rfl, rfl⟩ := h
    exact ⟨_, rfl, prescribedCmp_map (C19_spaceship_std hx q (fun a b => c.three (.inl a) (.inr b)) (fun a b => c.three (.inr a) (.inl b))).2⟩
  | tinyNull x =>
    obtain ⟨p, hx, rfl, rfl⟩ := h
    obtain ⟨k, h1, h2⟩ := C19_spaceship_nullopt hx
    have : stdCmp (p.map (Sum.inl : V → V ⊕ U)) (none : Option (V ⊕ U)) = .const k := by
      cases p <;> simp only [stdCmp, Option.map] at h1 ⊢ <;> injection h1 with h1 <;> rw [h1]
    refine ⟨_, rfl, ?_⟩
    rw [this]
    exact h2
  | tinyVal x u =>
    obtain ⟨p, hx, rfl, rfl⟩ := h
    exact ⟨_, rfl, prescribedCmp_map (q := some u) (C19_spaceship_value hx u fun a b => c.three (.inl a) (.inr b))⟩
  | nullTiny x => cases hl
  | valTiny u x => cases hl

private theorem prescribed_viaThree {A B : Type} {a : Option A} {b : Option B} {three : UserCmp G A B Cmp} {prog : M V G Cmp}
    (h : Prescribed (stdCmp a b) three w (prog w)) (op : RelOp) :
    Prescribed (stdRel op a b) (viaThree three op) w ((do let k ← prog; pure (Cmp.rel op k) : M V G Bool) w) := by
  have hconst : ∀ k, prog w = (.ok k, w) → (do let k ← prog; pure (Cmp.rel op k) : M V G Bool) w = (.ok (Cmp.rel op k), w) :=
    fun k hk => by rw [bind_ok hk]; rfl
  cases a <;> cases b
  · have := hconst _ h; cases op <;> exact this
  · have := hconst _ h; cases op <;> exact this
  · have := hconst _ h; cases op <;> exact this
  · rename_i a b
    obtain ⟨h1, h2, h3⟩ := h
    show _ ∧ _ ∧ _
    rcases hp : prog w with ⟨k, w'⟩
    rw [hp] at h1 h2 h3
    simp only at h1 h2 h3
    subst h3
    rcases hc : three a b w.user with ⟨e | c, g'⟩
    · have := h2 e (by rw [hc])
      subst this
      rw [bind_throw hp]
      simp [viaThree, hc]
    · have := h1 c (by rw [hc])
      subst this
      rw [bind_ok hp]
      simp [viaThree, hc]
      exact ⟨rfl, rfl⟩

private theorem prescribed_flip {A B : Type} {a : Option A} {b : Option B} {three : UserCmp G B A Cmp} {prog : M V G Cmp}
    (h : Prescribed (stdCmp b a) three w (prog w)) :
    Prescribed (stdCmp a b) (flipThree three) w ((do let k ← prog; pure k.flip : M V G Cmp) w) := by
  have hconst : ∀ k, prog w = (.ok k, w) → (do let k ← prog; pure k.flip : M V G Cmp) w = (.ok k.flip, w) :=
    fun k hk => by rw [bind_ok hk]; rfl
  cases a <;> cases b
  · exact hconst _ h
  · exact hconst _ h
  · exact hconst _ h
  · rename_i a b
    obtain ⟨h1, h2, h3⟩ := h
    show _ ∧ _ ∧ _
    rcases hp : prog w with ⟨k, w'⟩
    rw [hp] at h1 h2 h3
    simp only at h1 h2 h3
    subst h3
    rcases hc : three b a w.user with ⟨e | c, g'⟩
    · have := h2 e (by rw [hc])
      subst this
      rw [bind_throw hp]
      simp [flipThree, hc]
    · have := h1 c (by rw [hc])
      subst this
      rw [bind_ok hp]
      simp [flipThree, hc]
      exact ⟨rfl, rfl⟩

private theorem swap_roles (os : Operands U) : os.swap.roles = (os.roles.2, os.roles.1) := by cases os <;> rfl

private theorem roles_opt (h : HasTypes os l r) : os.roles.1 = .opt ∨ os.roles.2 = .opt := by
  cases os <;> simp [Operands.roles]

private theorem mem_of_found {op : CmpOp} {u : Use} (hf : resolve m o op l r = .found u) : u ∈ uses m op := by
  unfold resolve at hf
  dsimp only at hf
  split at hf
  · rename_i v hv
    injection hf with hf
    subst hf
    exact (List.mem_filter.1 (List.mem_of_find?_eq_some hv)).1
  · split at hf <;> cases hf

/-- `<=>` of the library always has an optional as left parameter. -/
private theorem three_left {c : Cand} (h : c ∈ declared m .three) (ho : c.owner ≠ .std) (hn : c.name = .three) : c.l.role = .opt := by
  obtain ⟨c20, wa, _, _, _, _⟩ := m
  cases c20 <;> cases wa <;> simp [declared, spaceships, stdSpaceships] at h <;>
    (repeat' (first | (rcases h with rfl | h) | subst h)) <;> simp_all [Pat.role]

private theorem use_three {op : CmpOp} {u : Use} (hm : u ∈ uses m op) (hn : u.cand.name = .three) : u.cand ∈ declared m .three := by
  have hnm : ∀ op', u.cand ∈ declared m (.rel op') → False := by
    intro op' h
    have : ∀ c ∈ declared m (.rel op'), c.name = .rel op' := by
      intro c hc
      simp only [declared, List.mem_append, between, withNullopt, withValue, stdRels] at hc
      rcases hc with ((hc | hc) | hc) | hc
      · simp only [List.mem_cons, List.not_mem_nil, or_false] at hc
        rcases hc with rfl | rfl | rfl | rfl | rfl <;> rfl
      · split at hc
        · simp only [List.mem_cons, List.not_mem_nil, or_false] at hc
          rcases hc with rfl | rfl <;> rfl
        · split at hc
          · simp only [List.mem_cons, List.not_mem_nil, or_false] at hc
            subst hc; rfl
          · cases hc
      · simp only [List.mem_cons, List.not_mem_nil, or_false] at hc
        rcases hc with rfl | rfl <;> rfl
      · rcases hc with hc | hc
        · simp only [List.mem_cons, List.not_mem_nil, or_false] at hc
          rcases hc with rfl | rfl | rfl <;> rfl
        · split at hc
          · simp only [List.mem_cons, List.not_mem_nil, or_false] at hc
            rcases hc with rfl | rfl <;> rfl
          · split at hc
            · simp only [List.mem_cons, List.not_mem_nil, or_false] at hc
              subst hc; rfl
            · cases hc
    rw [this _ h] at hn
    cases hn
  have hmap : ∀ {l : List Cand} {a b : Bool}, u ∈ l.map (fun c => (⟨c, a, b⟩ : Use)) → u.cand ∈ l := by
    intro l a b h
    obtain ⟨c, hc, rfl⟩ := List.mem_map.1 h
    exact hc
  cases op with
  | three =>
    simp only [uses, List.mem_append] at hm
    rcases hm with hm | hm
    · exact hmap hm
    · split at hm
      · exact hmap hm
      · cases hm
  | rel op =>
    cases op
    case eq =>
      simp only [uses, List.mem_append] at hm
      rcases hm with hm | hm
      · exact (hnm _ (hmap hm)).elim
      · split at hm
        · exact (hnm _ (List.mem_filter.1 (hmap hm)).1).elim
        · cases hm
    case ne =>
      simp only [uses, List.mem_append] at hm
      rcases hm with hm | hm
      · exact (hnm _ (hmap hm)).elim
      · split at hm
        · rcases List.mem_append.1 hm with hm | hm
          · exact (hnm _ (List.mem_filter.1 (hmap hm)).1).elim
          · exact (hnm _ (List.mem_filter.1 (hmap hm)).1).elim
        · cases hm
    all_goals
      simp only [uses, List.mem_append] at hm
      rcases hm with hm | hm
      · exact (hnm _ (hmap hm)).elim
      · split at hm
        · rcases List.mem_append.1 hm with hm | hm
          · exact hmap hm
          · exact hmap hm
        · cases hm

/-- The call of the selected `<=>`. -/
private theorem three_call (c : PayloadCmp V G U) {a b : Option (V ⊕ U)} (hC : Contents Γ w os a b) {op : CmpOp} {u : Use}
    (hmem : u ∈ uses m op) (hn : u.cand.name = .three) (ho : u.cand.owner ≠ .std) (hroles : (u.lp.role, u.rp.role) = os.roles) :
    ∃ prog, applyThree Γ c (u.args os) = some prog ∧
      Prescribed (stdCmp a b) (if u.reversed then flipThree c.three else c.three) w
        ((do let k ← prog; pure (if u.reversed then k.flip else k) : M V G Cmp) w) := by
  have hl := three_left (use_three hmem hn) ho hn
  have h1 : u.lp.role = os.roles.1 := congrArg Prod.fst hroles
  have h2 : u.rp.role = os.roles.2 := congrArg Prod.snd hroles
  unfold Use.args
  cases hr : u.reversed with
  | false =>
    have : os.roles.1 = .opt := by rw [← h1]; simpa [Use.lp, hr] using hl
    obtain ⟨prog, hp, hpr⟩ := applyThree_prescribed c hC this
    refine ⟨prog, hp, ?_⟩
    simp only [Bool.false_eq_true, if_false]
    have : (prog >>= fun k => pure k : M V G Cmp) w = prog w := by
      rcases hpw : prog w with ⟨k | e | x, w'⟩
      · exact bind_ok hpw
      · exact bind_throw hpw
      · exact bind_abort hpw
    rw [this]
    exact hpr
  | true =>
    have : os.swap.roles.1 = .opt := by rw [swap_roles]; show os.roles.2 = _; rw [← h2]; simpa [Use.rp, hr] using hl
    obtain ⟨prog, hp, hpr⟩ := applyThree_prescribed c hC.swap this
    exact ⟨prog, hp, prescribed_flip hpr⟩

/-- C51 (meaning). Every comparison expression with one of the six relational operators can be evaluated and has the result
that is prescribed for `std::optional`, where the contents are compared by the operator of the payloads that was written, or
(only for ordering operators in C++20) by their `<=>`, possibly with the operands exchanged. -/
theorem C51_meaning (hm : m.Real = true) (hs : Oracle.Symm o) (hc : Considered l r = true) (hT : HasTypes os l r)
    (c : PayloadCmp V G U) (op : RelOp) {a b : Option (V ⊕ U)} (hC : Contents Γ w os a b) :
    ∃ prog cmp, relExpr m o Γ c op l r os = some prog ∧ Prescribed (stdRel op a b) cmp w (prog w) ∧
      (cmp = c.rel op ∨
       (m.cpp20 = true ∧ op ≠ .eq ∧ op ≠ .ne ∧ (cmp = viaThree c.three op ∨ cmp = viaThree (flipThree c.three) op))) := by
  obtain ⟨u, hf, hu⟩ := rel_found hm hs hc op
  have hmem := mem_of_found hf
  simp only [Use.asClaimed, Use.right, Bool.and_eq_true, beq_iff_eq, bne_iff_ne, Bool.or_eq_true, Bool.not_eq_true'] at hu
  obtain ⟨⟨⟨⟨⟨hr1, hr2⟩, hname⟩, ho⟩, hrev⟩, _⟩ := hu
  have hroles : (u.lp.role, u.rp.role) = os.roles := by rw [roles_eq hT, hr1, hr2]
  have hcall : relExpr m o Γ c op l r os = callRel Γ c op u os := by unfold relExpr; rw [hf]
  rw [hcall]
  unfold callRel
  rw [if_neg (fun h => h hroles)]
  cases hn : u.cand.name with
  | three =>
    simp only
    obtain ⟨prog, hp, hpr⟩ := three_call c hC hmem hn ho hroles
    rw [hp]
    refine ⟨_, viaThree (if u.reversed then flipThree c.three else c.three) op, rfl, ?_, .inr ⟨?_, ?_, ?_, ?_⟩⟩
    · have h := prescribed_viaThree hpr op
      have heq : ((do let k ← (do let k ← prog; pure (if u.reversed then k.flip else k) : M V G Cmp); pure (Cmp.rel op k) : M V G Bool) w) =
          ((do let k ← prog; pure (Cmp.rel op (if u.reversed then k.flip else k)) : M V G Bool) w) := by
        rcases hpw : prog w with ⟨k | e | x, w'⟩
        · rw [bind_ok hpw, bind_ok (show (do let k ← prog; pure (if u.reversed then k.flip else k) : M V G Cmp) w = (.ok (if u.reversed then k.flip else k), w') by
            rw [bind_ok hpw]; rfl)]
        · rw [bind_throw hpw, bind_throw (bind_throw hpw)]
        · rw [bind_abort hpw, bind_abort (bind_abort hpw)]
      rw [heq] at h
      exact h
    · rw [hn] at hname
      cases h20 : m.cpp20
      · cases op <;> simp [selectedName, h20] at hname
      · rfl
    · rintro rfl; rw [hn] at hname; cases hname
    · rintro rfl
      rw [hn] at hname
      simp only [selectedName] at hname
      split at hname <;> cases hname
    · cases u.reversed <;> simp
  | rel op' =>
    simp only
    rw [hn] at hname hrev
    by_cases heq : op' = op
    · subst heq
      rw [if_pos rfl]
      refine ⟨_, c.rel op', rfl, ?_, .inl rfl⟩
      unfold Use.args
      cases hr : u.reversed with
      | false => exact applyRel_prescribed c op' hC
      | true =>
        rw [hr] at hrev
        simp only [Bool.true_eq_false, reduceCtorEq, false_or, CmpOp.rel.injEq] at hrev
        obtain ⟨hnull, rfl⟩ := hrev
        have h := applyRel_prescribed c .eq hC.swap
        simp only [if_true]
        -- one of the operands is `nullopt`, so that no payloads are compared
        have hab := null_contents hnull hT hC
        cases a <;> cases b <;> simp at hab <;> exact h
    · rw [if_neg heq]
      have : op' = .eq ∧ op = .ne ∧ Null l r = true := by
        cases op <;> simp only [selectedName] at hname
        · exact absurd (CmpOp.rel.inj hname) heq
        · split at hname
          · rename_i h
            simp only [Bool.and_eq_true] at h
            exact ⟨CmpOp.rel.inj hname, rfl, h.1.1⟩
          · exact absurd (CmpOp.rel.inj hname) heq
        all_goals
          repeat' split at hname
          all_goals first | exact absurd (CmpOp.rel.inj hname) heq | cases hname
      obtain ⟨rfl, rfl, hnull⟩ := this
      simp only [and_self, if_true]
      refine ⟨_, c.rel .ne, rfl, ?_, .inl rfl⟩
      have hab := null_contents hnull hT hC
      have h : Prescribed (stdRel .eq a b) (c.rel .eq) w (applyRel Γ c .eq (u.args os) w) := by
        unfold Use.args
        cases u.reversed with
        | false => exact applyRel_prescribed c .eq hC
        | true =>
          have h := applyRel_prescribed c .eq hC.swap
          simp only [if_true]
          cases a <;> cases b <;> simp at hab <;> exact h
      cases a <;> cases b <;> simp at hab <;> exact notM_run h

/-- C51 (meaning, `<=>`). -/
theorem C51_meaning_three (hm : m.Real = true) (hs : Oracle.Symm o) (hc : Considered l r = true) (hT : HasTypes os l r)
    (h20 : m.cpp20 = true) (hg : missing m l r = false) (ht : o.threeWay (compared l) (compared r) = true ∨ Null l r = true)
    (c : PayloadCmp V G U) {a b : Option (V ⊕ U)} (hC : Contents Γ w os a b) :
    ∃ prog cmp, threeExpr m o Γ c l r os = some prog ∧ Prescribed (stdCmp a b) cmp w (prog w) ∧
      (cmp = c.three ∨ cmp = flipThree c.three) := by
  obtain ⟨u, hf, hu⟩ := three_found hm hs hc h20 hg ht
  have hmem := mem_of_found hf
  simp only [Use.asClaimed, Use.right, Bool.and_eq_true, beq_iff_eq, bne_iff_ne, Bool.or_eq_true, Bool.not_eq_true'] at hu
  obtain ⟨⟨⟨⟨⟨hr1, hr2⟩, hname⟩, ho⟩, hrev⟩, _⟩ := hu
  have hn : u.cand.name = .three := hname
  have hroles : (u.lp.role, u.rp.role) = os.roles := by rw [roles_eq hT, hr1, hr2]
  have hcall : threeExpr m o Γ c l r os = callThree Γ c u os := by unfold threeExpr; rw [hf]
  rw [hcall]
  unfold callThree
  rw [if_neg (fun h => h hroles), hn]
  simp only
  obtain ⟨prog, hp, hpr⟩ := three_call c hC hmem hn ho hroles
  rw [hp]
  exact ⟨_, _, rfl, hpr, by cases u.reversed <;> simp⟩

/-- The payload's operators are consistent with its `<=>`. -/
def PayloadCmp.Consistent (c : PayloadCmp V G U) : Prop :=
  ∀ op a b g, viaThree c.three op a b g = c.rel op a b g ∧ viaThree (flipThree c.three) op a b g = c.rel op a b g

/-- C51 (the part that holds). If the payload's `<=>` is consistent with its other operators, every comparison expression has
the result prescribed for `std::optional` by means of the written operator of the payloads. The full claim does not have this
hypothesis. -/
theorem C51_result_partial (hm : m.Real = true) (hs : Oracle.Symm o) (hc : Considered l r = true) (hT : HasTypes os l r)
    {c : PayloadCmp V G U} (hcons : PayloadCmp.Consistent c) (op : RelOp) {a b : Option (V ⊕ U)} (hC : Contents Γ w os a b) :
    ∃ prog, relExpr m o Γ c op l r os = some prog ∧ Prescribed (stdRel op a b) (c.rel op) w (prog w) := by
  obtain ⟨prog, cmp, h1, h2, h3⟩ := C51_meaning hm hs hc hT c op hC
  have : cmp = c.rel op := by
    rcases h3 with h | ⟨_, _, _, h | h⟩
    · exact h
    · rw [h]; funext a b g; exact (hcons op a b g).1
    · rw [h]; funext a b g; exact (hcons op a b g).2
  exact ⟨prog, h1, this ▸ h2⟩

end meaning

/-! ### The selection is no matter of the order of declarations -/

/-- C51: no two candidates beat each other. -/
theorem C51_better_asymm (m : Mode) (l r : OpTy) (u v : Use) (h : better m l r u v = true) : better m l r v u = false := by
  have hc : moreConstrained m u v = true → moreConstrained m v u = false := by
    simp only [moreConstrained]
    cases u.cand.cons <;> cases v.cand.cons <;> simp
  have hs : moreSpecialised m u v = true → moreSpecialised m v u = false := by
    simp only [moreSpecialised]
    revert hc
    cases atLeast m u v <;> cases atLeast m v u <;> cases moreConstrained m u v <;> cases moreConstrained m v u <;> simp
  unfold better at h ⊢
  generalize closer l v.lp u.lp = a at *
  generalize closer r v.rp u.rp = b at *
  generalize closer l u.lp v.lp = c at *
  generalize closer r u.rp v.rp = d at *
  generalize moreSpecialised m u v = e at *
  generalize moreSpecialised m v u = f at *
  generalize u.rewritten = x at *
  generalize v.rewritten = y at *
  generalize u.reversed = z at *
  generalize v.reversed = t at *
  revert a b c d e f x y z t
  decide

/-- C51: the selected candidate is viable, beats every other viable one, and is the only one with this property. -/
theorem C51_unique {op : CmpOp} {u : Use} (h : resolve m o op l r = .found u) :
    (u ∈ uses m op ∧ u.viable o l r = true) ∧
    ∀ v ∈ uses m op, v.viable o l r = true → v ≠ u → better m l r u v = true ∧ better m l r v u = false := by
  unfold resolve at h
  simp only at h
  split at h
  · rename_i u' hu
    cases h
    have h1 := List.find?_some hu
    have h2 := List.mem_of_find?_eq_some hu
    rw [List.mem_filter] at h2
    refine ⟨h2, fun v hv hvv hne => ?_⟩
    have h3 := List.all_eq_true.1 h1 v (List.mem_filter.2 ⟨hv, hvv⟩)
    have h4 : better m l r u v = true := by
      rcases Bool.or_eq_true _ _ ▸ h3 with h | h
      · exact absurd (beq_iff_eq.1 h).symm hne
      · exact h
    exact ⟨h4, C51_better_asymm m l r u v h4⟩
  · split at h <;> cases h

/-! ### Where the claim is false -/

/-- A compiler with all of the C++20 rules (clang, MSVC), and gcc 13 and 15. -/
def clang20 : Mode := ⟨true, false, true, true, true, true⟩
def gcc13 : Mode := ⟨true, true, false, true, true, false⟩
def gcc15 : Mode := ⟨true, true, true, true, true, true⟩
def cpp17 : Mode := ⟨false, false, false, false, false, false⟩

/-- All constraints are satisfied. -/
def allOk : Oracle := ⟨fun _ _ => true, fun _ _ _ => true⟩

/-- A payload whose `<` is not what its `<=>` says. -/
private def oddCmp : PayloadCmp (BitVec 8) (List String) (BitVec 8) :=
  ⟨fun _ _ _ g => (.ok false, g ++ ["<"]), fun _ _ g => (.ok .less, g ++ ["<=>"])⟩

/-- C51 is false for ordering operators in C++20: `tiny < tiny` calls `<=>` of the payloads instead of their `<`, and gives another
result if they are not consistent. (`std::optional` calls `<`.) -/
theorem C51_false : ∃ (m : Mode) (o : Oracle) (l r : OpTy) (c : PayloadCmp (BitVec 8) (List String) (BitVec 8))
    (a b : Option (BitVec 8 ⊕ BitVec 8)) (prog : M (BitVec 8) (List String) Bool),
    m.Real = true ∧ Oracle.Symm o ∧ Considered l r = true ∧
    HasTypes (.tinyTiny 20 22 : Operands (BitVec 8)) l r ∧ Contents exEnv exWorld (.tinyTiny 20 22) a b ∧
    relExpr m o exEnv c .lt l r (.tinyTiny 20 22) = some prog ∧
    ¬ Prescribed (stdRel .lt a b) (c.rel .lt) exWorld (prog exWorld) := by
  refine ⟨clang20, allOk, .tiny (.other 0) 0, .tiny (.other 0) 0, oddCmp, some (.inl 5#8), some (.inl 13#8), _, rfl,
    fun _ _ => rfl, rfl, ⟨rfl, rfl⟩, ⟨some 5#8, some 13#8, ex20, ex22, rfl, rfl⟩, rfl, ?_⟩
  intro h
  have := h.1 false rfl
  cases this

/-- C51 is false for gcc without CWG 2445: `std::optional <=> optional_inplace` (any tiny optional that is no
`tiny::optional`) selects the operator of `<optional>` that compares with a value. An empty `std::optional` is then less
than everything, also than an empty tiny optional. -/
theorem C51_false_gcc (p q : OpTy) (n : Nat) : gcc13.Real = true ∧ Considered (.std p) (.impl q n) = true ∧
    ∃ u, resolve gcc13 allOk .three (.std p) (.impl q n) = .found u ∧ u.cand.owner = .std ∧ u.rp.role = .value ∧
      u.reversed = false ∧ u.cand.name = .three ∧
      ∀ whole : Unit, stdCmp (none : Option Unit) (some whole) = .const .less ∧
        stdCmp (none : Option Unit) (none : Option Unit) = .const .equal :=
  ⟨rfl, rfl, _, rfl, rfl, rfl, rfl, rfl, fun _ => ⟨rfl, rfl⟩⟩

/-- Outside of `Considered`: a class derived from a tiny optional is regarded as value in the comparison with a
`std::optional`, in every mode; an empty one is then not equal to an empty `std::optional`. -/
theorem C51_false_derived (p q : OpTy) (n k : Nat) (m : Mode) (hm : m.Real = true) :
    (∃ u, resolve m allOk (.rel .eq) (.std p) (.derived (.tiny q n) k) = .found u ∧ u.cand.owner = .std ∧ u.rp.role = .value ∧
      u.cand.name = .rel .eq ∧ u.reversed = false) ∧
    (∃ u, resolve m allOk (.rel .eq) (.derived (.tiny q n) k) (.std p) = .found u ∧ u.cand.owner = .std ∧ u.lp.role = .value ∧
      u.cand.name = .rel .eq ∧ u.reversed = false) ∧
    ∀ whole : Unit, stdRel .eq (none : Option Unit) (some whole) = .const false ∧
      stdRel .eq (none : Option Unit) (none : Option Unit) = .const true := by
  refine ⟨?_, ?_, fun _ => ⟨rfl, rfl⟩⟩ <;>
  · obtain ⟨a, b, c, d, e, f⟩ := m
    cases a <;> cases b <;> cases c <;> (first | cases hm | skip) <;> cases d <;> cases e <;> cases f <;>
      exact ⟨_, rfl, rfl, rfl, rfl, rfl⟩

/-- Outside of `Considered`: comparing a `tiny::optional` with a class derived from `std::optional` is ambiguous. -/
theorem C51_ambiguous_derived (p q : OpTy) (n k : Nat) (m : Mode) (hm : m.Real = true) :
    resolve m allOk (.rel .eq) (.tiny q n) (.derived (.std p) k) = .ambiguous := by
  obtain ⟨a, b, c, d, e, f⟩ := m
  cases a <;> cases b <;> cases c <;> (first | cases hm | skip) <;> cases d <;> cases e <;> cases f <;> rfl

/-! ### The hypotheses can be met -/

example := C51_false_derived (.other 0) (.other 1) 0 7 gcc13 (by decide)
example := C51_ambiguous_derived (.other 0) (.other 1) 0 7 cpp17 (by decide)
example : clang20.Real = true ∧ gcc13.Real = true ∧ gcc15.Real = true ∧ cpp17.Real = true := by decide

/-- `optional<std::optional<int>>` with `std::optional<int>`, a class derived from `optional_inplace` with `nullopt`, nested
optionals. -/
example : Considered (.tiny (.std (.other 0)) 3) (.std (.other 0)) = true ∧
    Considered (.derived (.impl (.other 0) 1) 7) .nullopt = true ∧
    Considered (.std (.tiny (.other 0) 0)) (.tiny (.tiny (.other 0) 1) 2) = true := by decide

/-- An answer that is not constant. -/
example : Oracle.Symm ⟨fun s t => s = t, fun _ s _ => s = .nullopt⟩ := fun s t => by simp [eq_comm]

example : resolve clang20 allOk (.rel .lt) (.tiny (.other 0) 0) (.tiny (.other 0) 1) =
    .found ⟨⟨.impl, .three, .impl, .impl, .req, false⟩, true, false⟩ := rfl
example : resolve clang20 allOk (.rel .lt) (.tiny (.other 0) 0) (.std (.other 1)) =
    .found ⟨⟨.tiny, .rel .lt, .tiny, .std, .none, false⟩, false, false⟩ := rfl
example : resolve clang20 allOk (.rel .eq) .nullopt (.tiny (.other 0) 0) =
    .found ⟨⟨.impl, .rel .eq, .impl, .null, .none, false⟩, true, true⟩ := rfl
example : resolve gcc13 allOk (.rel .eq) .nullopt (.tiny (.other 0) 0) =
    .found ⟨⟨.impl, .rel .eq, .null, .impl, .none, false⟩, false, false⟩ := rfl

/-- Without the workaround, gcc 13 would compare `nullopt` as a value. -/
example : resolve { gcc13 with workaround := false } allOk (.rel .eq) .nullopt (.tiny (.other 0) 0) =
    .found ⟨⟨.impl, .rel .eq, .any, .impl, .none, true⟩, false, false⟩ := rfl

/-- A consistent payload. -/
private def sameCmp : PayloadCmp (BitVec 8) (List String) (BitVec 8) :=
  ⟨fun op a b g => (.ok (Cmp.rel op (if (a.elim id id) < (b.elim id id) then .less else if (b.elim id id) < (a.elim id id) then .greater
      else .equal)), g ++ ["cmp"]),
   fun a b g => (.ok (if (a.elim id id) < (b.elim id id) then .less else if (b.elim id id) < (a.elim id id) then .greater else .equal),
      g ++ ["cmp"])⟩

private theorem sameCmp_consistent : PayloadCmp.Consistent sameCmp := by
  intro op a b g
  refine ⟨rfl, ?_⟩
  generalize ha : a.elim id id = x
  generalize hb : b.elim id id = y
  simp only [sameCmp, viaThree, flipThree, ha, hb]
  by_cases h1 : x < y
  · have : ¬ y < x := fun h => by simp only [BitVec.lt_def] at h h1; omega
    simp [h1, this, Spec.Cmp.flip]
  · by_cases h2 : y < x <;> simp [h1, h2, Spec.Cmp.flip]

/-- The expression `o20 < o22` (5 and 13), and `std::optional(7) >= o21` (empty). -/
example : Contents exEnv exWorld (.tinyTiny 20 22 : Operands (BitVec 8)) (some (.inl 5#8)) (some (.inl 13#8)) ∧
    Contents exEnv exWorld (.stdTiny (some 7#8) 21) (some (.inr 7#8)) none :=
  ⟨⟨some 5#8, some 13#8, ex20, ex22, rfl, rfl⟩, ⟨none, ex21, rfl, rfl⟩⟩

private theorem exOracle_symm : Oracle.Symm ⟨fun s t => s = t, fun _ s _ => s = .nullopt⟩ := fun s t => by simp [eq_comm]

example := C51_selects (m := gcc13) (l := .std (.tiny (.other 0) 0)) (r := .tiny (.tiny (.other 0) 1) 2) (by decide) exOracle_symm (by decide) .ge

/-- `optional<int> <=> optional_sentinel_via_type<int>`. -/
example := C51_selects_three (m := clang20) (l := .tiny (.other 0) 0) (r := .tiny (.other 0) 1) (by decide) exOracle_symm (by decide) rfl rfl
  (.inl (by decide))

example := C51_same_operator (m := cpp17) (l := .nullopt) (r := .tiny (.other 0) 1) (op := .lt) (by decide) exOracle_symm (by decide) (.inl rfl)
example := C51_same_operator (m := gcc15) (l := .std (.other 0)) (r := .tiny (.other 0) 1) (op := .ne) (by decide) exOracle_symm (by decide)
  (.inr ⟨.inr rfl, rfl⟩)

example := C51_ordering (m := clang20) (l := .tiny (.other 0) 0) (r := .tiny (.other 0) 1) (op := .lt) (by decide) exOracle_symm (by decide)
  (by decide) rfl rfl

example := C51_meaning (m := gcc13) (o := allOk) (l := .tiny (.other 0) 0) (r := .tiny (.other 0) 1) (by decide) (fun _ _ => rfl) (by decide)
  (os := .tinyTiny 20 22) ⟨rfl, rfl⟩ oddCmp .lt (Γ := exEnv) (w := exWorld) ⟨some 5#8, some 13#8, ex20, ex22, rfl, rfl⟩

example := C51_meaning_three (m := clang20) (o := allOk) (l := .std (.other 0)) (r := .tiny (.other 0) 1) (by decide) (fun _ _ => rfl) (by decide)
  (os := .stdTiny (some 7#8) 21) ⟨rfl, rfl⟩ rfl rfl (.inl rfl) oddCmp (Γ := exEnv) (w := exWorld) ⟨none, ex21, rfl, rfl⟩

example := C51_result_partial (m := gcc13) (o := allOk) (l := .tiny (.other 0) 0) (r := .tiny (.other 0) 1) (by decide) (fun _ _ => rfl)
  (by decide) (os := .tinyTiny 20 22) ⟨rfl, rfl⟩ sameCmp_consistent .lt (Γ := exEnv) (w := exWorld) ⟨some 5#8, some 13#8, ex20, ex22, rfl, rfl⟩

example := C51_unique (m := clang20) (o := allOk) (l := .tiny (.other 0) 0) (r := .std (.other 1)) (op := .rel .lt)
  (u := ⟨⟨.tiny, .rel .lt, .tiny, .std, .none, false⟩, false, false⟩) rfl

example := C51_better_asymm clang20 (.tiny (.other 0) 0) (.std (.other 1)) ⟨⟨.tiny, .rel .lt, .tiny, .std, .none, false⟩, false, false⟩
  ⟨⟨.impl, .rel .lt, .impl, .any, .none, true⟩, false, false⟩ (by decide)

end Verif.Props
