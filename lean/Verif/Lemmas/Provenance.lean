import Verif.Spec.Provenance

/-!
# The invariant behind C85
-/

namespace Verif.Spec
variable {V G α β : Type} {P : Nat → V → Prop}

/-- `m` preserves `AllIn P`, and its results have the property `Q`. -/
def Pres (P : Nat → V → Prop) (m : SM V G α) (Q : α → Prop) : Prop :=
  ∀ w, AllIn P w → AllIn P (m w).2 ∧ ∀ a, (m w).1 = .ok a → Q a

theorem Pres.bind {m : SM V G α} {f : α → SM V G β} {Q : α → Prop} {R : β → Prop} (hm : Pres P m Q) (hf : ∀ a, Q a → Pres P (f a) R) :
    Pres P (m >>= f) R := by
  intro w hw
  obtain ⟨h1, h2⟩ := hm w hw
  show AllIn P (SM.bind m f w).2 ∧ ∀ a, (SM.bind m f w).1 = .ok a → R a
  unfold SM.bind
  revert h1 h2
  rcases m w with ⟨r, w'⟩
  intro h1 h2
  cases r with
  | ok a => exact hf a (h2 a rfl) w' h1
  | throw e => exact ⟨h1, nofun⟩
  | undef => exact ⟨h1, nofun⟩

theorem Pres.pure {a : α} {Q : α → Prop} (h : Q a) : Pres (G := G) P (SM.pure a) Q := fun _ hw => ⟨hw, fun b hb => by cases hb; exact h⟩

theorem Pres.weaken {m : SM V G α} {Q R : α → Prop} (h : Pres P m Q) (hq : ∀ a, Q a → R a) : Pres P m R :=
  fun w hw => ⟨(h w hw).1, fun a ha => hq a ((h w hw).2 a ha)⟩

theorem Pres.throw {e : Exn} {Q : α → Prop} : Pres (G := G) P (Spec.throw e) Q := fun _ hw => ⟨hw, nofun⟩

theorem Pres.user {f : G → Except Exn α × G} {Q : α → Prop} (h : ∀ g a, (f g).1 = .ok a → Q a) : Pres P (Spec.user (V := V) f) Q := by
  intro w hw
  have h := h w.user
  unfold Spec.user
  revert h
  rcases f w.user with ⟨r, g⟩
  intro h
  cases r with
  | ok a => exact ⟨hw, fun b hb => by cases hb; exact h a rfl⟩
  | error e => exact ⟨hw, nofun⟩

theorem AllIn.put {w : SWorld V G} (hw : AllIn P w) {x : Nat} {v : V} (h : P x v) (g : G) :
    AllIn P ⟨fun z => if z = x then some (some v) else w.vars z, g, w.trace ++ [(x, v)]⟩ := by
  refine ⟨fun z u hz => ?_, fun p hp => ?_⟩
  · by_cases hx : z = x
    · subst hx; simp at hz; exact hz ▸ h
    · simp [hx] at hz; exact hw.1 z u hz
  · rcases List.mem_append.1 hp with hp | hp
    · exact hw.2 p hp
    · simp at hp; subst hp; exact h

theorem AllIn.drop {w : SWorld V G} (hw : AllIn P w) {x : Nat} {o : Option (Option V)} (ho : ∀ v, o ≠ some (some v)) (g : G) :
    AllIn P ⟨fun z => if z = x then o else w.vars z, g, w.trace⟩ := by
  refine ⟨fun z u hz => ?_, hw.2⟩
  by_cases hx : z = x
  · simp [hx] at hz; exact absurd hz (ho u)
  · simp [hx] at hz; exact hw.1 z u hz

theorem Pres.put {x : Nat} {v : V} (h : P x v) : Pres (G := G) P (put x v) fun _ => True := fun _ hw => ⟨hw.put h _, fun _ _ => trivial⟩

theorem Pres.setEmpty {x : Nat} : Pres (G := G) P (setEmpty x) fun _ => True :=
  fun _ hw => ⟨hw.drop (o := some none) (by simp) _, fun _ _ => trivial⟩

theorem Pres.remove {x : Nat} : Pres (G := G) P (remove x) fun _ => True :=
  fun _ hw => ⟨hw.drop (o := none) (by simp) _, fun _ _ => trivial⟩

theorem Pres.get {x : Nat} : Pres (G := G) P (get x) fun o => ∀ v, o = some v → P x v := by
  intro w hw
  have := hw.1 x
  unfold Spec.get
  cases h : w.vars x with
  | none => exact ⟨hw, nofun⟩
  | some o => exact ⟨hw, fun a ha v hv => by cases ha; exact hw.1 x v (by rw [h, hv])⟩

theorem Pres.getVal {x : Nat} : Pres (G := G) P (getVal x) (P x) := by
  intro w hw
  unfold Spec.getVal
  split
  · rename_i v h; exact ⟨hw, fun a ha => by cases ha; exact hw.1 x v h⟩
  · exact ⟨hw, nofun⟩

theorem Pres.fresh {x : Nat} : Pres (G := G) P (fresh x) fun _ => True := by
  intro w hw
  unfold Spec.fresh
  split <;> exact ⟨hw, fun _ _ => trivial⟩

theorem Pres.check {e : Option Exn} : Pres (G := G) P (check e) fun _ => True := by
  cases e
  · exact Pres.pure trivial
  · exact Pres.throw

theorem Pres.destroyVal {o : Ops V G} {x : Nat} : Pres P (destroyVal o x) fun _ => True := by
  intro w hw
  unfold Spec.destroyVal
  split
  · exact ⟨hw.drop (o := some none) (by simp) _, fun _ _ => trivial⟩
  · exact ⟨hw, fun _ _ => trivial⟩

theorem Pres.argVal {o : Ops V G} {x : Nat} {a : Arg V G} (h : ArgKeeps P o x a) : Pres P (argVal o a) (P x) := by
  cases a with
  | ext nt c => exact Pres.user h
  | copyOf y => exact Pres.getVal.bind fun v hv => Pres.user fun g a ha => h.ctor v g a hv ha
  | moveOf y =>
    intro w hw
    cases hy : w.vars y with
    | none => simp only [Spec.argVal, hy]; exact ⟨hw, nofun⟩
    | some u =>
      cases u with
      | none => simp only [Spec.argVal, hy]; exact ⟨hw, nofun⟩
      | some v =>
        have hv := hw.1 y v hy
        have h1 := h.ctor v w.user
        have h2 := h.movedFrom v w.user hv
        rcases hm : o.moveCtor v w.user with ⟨r, v', g⟩
        rw [hm] at h1 h2
        simp only [Spec.argVal, hy, hm]
        cases r with
        | ok a => exact ⟨hw.put h2 g, fun b hb => by cases hb; exact h1 a hv rfl⟩
        | error e => exact ⟨hw.put h2 g, nofun⟩

theorem Pres.moveVal {o : Ops V G} {x : Nat} (h : ∀ v g, P x v → P x (o.moveCtor v g).2.1) :
    Pres P (Spec.argVal o (.moveOf x)) fun _ => True := by
  intro w hw
  cases hy : w.vars x with
  | none => simp only [Spec.argVal, hy]; exact ⟨hw, fun _ _ => trivial⟩
  | some u =>
    cases u with
    | none => simp only [Spec.argVal, hy]; exact ⟨hw, fun _ _ => trivial⟩
    | some v =>
      have h2 := h v w.user (hw.1 x v hy)
      rcases hm : o.moveCtor v w.user with ⟨r, v', g⟩
      rw [hm] at h2
      simp only [Spec.argVal, hy, hm]
      cases r <;> exact ⟨hw.put h2 g, fun _ _ => trivial⟩

theorem Pres.init {o : Ops V G} {x : Nat} {a : Arg V G} (h : ArgKeeps P o x a) : Pres P (init o x a) fun _ => True :=
  (Pres.argVal h).bind fun _ hv => Pres.put hv

theorem Pres.dtor {o : Ops V G} {x : Nat} : Pres P (dtor o x) fun _ => True := by
  refine Pres.get.bind fun a _ => ?_
  cases a
  · exact Pres.remove
  · exact Pres.destroyVal.bind fun _ _ => Pres.remove

theorem Pres.reset {o : Ops V G} {x : Nat} : Pres P (reset o x) fun _ => True := by
  refine Pres.get.bind fun a _ => ?_
  cases a
  · exact Pres.pure trivial
  · exact Pres.destroyVal

theorem Pres.ctorInPlace {o : Ops V G} {x : Nat} {a : Arg V G} (h : ArgKeeps P o x a) : Pres P (ctorInPlace o x a) fun _ => True :=
  Pres.fresh.bind fun _ _ => (Pres.argVal h).bind fun _ hv => Pres.put hv

theorem Pres.ctorCopy {o : Ops V G} {x y : Nat} (h : KeepsCopy o (P x) (P y)) : Pres P (ctorCopy o x y) fun _ => True := by
  refine Pres.fresh.bind fun _ _ => Pres.get.bind fun a _ => ?_
  cases a
  · exact Pres.setEmpty
  · exact (Pres.argVal (x := x) (by exact h)).bind fun _ hv => Pres.put hv

theorem Pres.ctorMove {o : Ops V G} {x y : Nat} (h : KeepsMove o (P x) (P y)) : Pres P (ctorMove o x y) fun _ => True := by
  refine Pres.fresh.bind fun _ _ => Pres.get.bind fun a _ => ?_
  cases a
  · exact Pres.setEmpty
  · exact (Pres.argVal (x := x) (by exact h)).bind fun _ hv => Pres.put hv

theorem Pres.payloadAssign {o : Ops V G} {x : Nat} {a : AArg V G} (h : AArgKeeps P o x a) : Pres P (payloadAssign o x a) fun _ => True := by
  cases a with
  | ext f nt c =>
    refine Pres.getVal.bind fun v hv => (Pres.user (Q := fun r => P x r.2) fun g a ha => ?_).bind fun r hr => (Pres.put hr).bind fun _ _ => Pres.check
    cases ha; exact h.1 v g hv
  | copyOf y =>
    refine Pres.getVal.bind fun v hv => Pres.getVal.bind fun s hs => (Pres.user (Q := fun r => P x r.2) fun g a ha => ?_).bind fun r hr =>
      (Pres.put hr).bind fun _ _ => Pres.check
    by_cases hxy : x = y
    · simp only [if_pos hxy] at ha
      cases ha; exact h.self v g hv
    · simp only [if_neg hxy] at ha
      cases ha; exact h.assign v s g hv hs
  | moveOf y =>
    refine Pres.getVal.bind fun v hv => Pres.getVal.bind fun s hs => ?_
    split
    · refine (Pres.user (Q := fun r => P x r.2) fun g a ha => ?_).bind fun r hr => (Pres.put hr).bind fun _ _ => Pres.check
      cases ha; exact h.self v g hv
    · refine (Pres.user (Q := fun r => P x r.2.1 ∧ P y r.2.2) fun g a ha => ?_).bind fun r hr =>
        (Pres.put hr.1).bind fun _ _ => (Pres.put hr.2).bind fun _ _ => Pres.check
      cases ha; exact h.assign v s g hv hs

theorem AArgKeeps.toArg {o : Ops V G} {x : Nat} {a : AArg V G} (h : AArgKeeps P o x a) : ArgKeeps P o x a.toArg := by
  cases a
  · exact h.2
  · exact h
  · exact h

theorem Pres.assignVal {o : Ops V G} {x : Nat} {a : AArg V G} (h : AArgKeeps P o x a) : Pres P (assignVal o x a) fun _ => True := by
  refine Pres.get.bind fun u _ => ?_
  cases u
  · exact Pres.init h.toArg
  · exact Pres.payloadAssign h

theorem Pres.assignCopy {o : Ops V G} {x y : Nat} (h : KeepsCopy o (P x) (P y)) : Pres P (assignCopy o x y) fun _ => True := by
  refine Pres.get.bind fun u _ => Pres.get.bind fun v _ => ?_
  cases u <;> cases v
  · exact Pres.pure trivial
  · exact Pres.init (by exact h)
  · exact Pres.destroyVal
  · exact Pres.payloadAssign (by exact h)

theorem Pres.assignMove {o : Ops V G} {x y : Nat} (h : KeepsMove o (P x) (P y)) : Pres P (assignMove o x y) fun _ => True := by
  refine Pres.get.bind fun u _ => Pres.get.bind fun v _ => ?_
  cases u <;> cases v
  · exact Pres.pure trivial
  · exact Pres.init (by exact h)
  · exact Pres.destroyVal
  · exact Pres.payloadAssign (by exact h)

theorem Pres.onThrow {m : SM V G α} {h : SM V G Unit} {Q : α → Prop} (hm : Pres P m Q) (hh : Pres P h fun _ => True) :
    Pres P (onThrow m h) Q := by
  intro w hw
  obtain ⟨h1, h2⟩ := hm w hw
  unfold Spec.onThrow
  revert h1 h2
  rcases m w with ⟨r, w'⟩
  intro h1 h2
  cases r with
  | ok a => exact ⟨h1, h2⟩
  | undef => exact ⟨h1, h2⟩
  | throw e =>
    have h3 := (hh w' h1).1
    revert h3
    dsimp only
    rcases h w' with ⟨r', w''⟩
    intro h3
    cases r' <;> exact ⟨h3, nofun⟩

theorem Pres.swap {o : Ops V G} {x y : Nat} (h : KeepsSwap o (P x) (P y)) : Pres P (swap o x y) fun _ => True := by
  refine Pres.get.bind fun u hu => Pres.get.bind fun v hv => ?_
  cases u <;> cases v
  · exact Pres.pure trivial
  · exact (Pres.init (by exact h.there)).bind fun _ _ => Pres.destroyVal
  · exact (Pres.init (by exact h.back)).bind fun _ _ => Pres.destroyVal
  · rename_i a b
    show Pres P (if x = y then _ else _) _
    split
    · refine (Pres.user (Q := fun r => P x r.2) fun g r hr => ?_).bind fun r hr => (Pres.put hr).bind fun _ _ => Pres.check
      cases hr; exact h.self a g (hu a rfl)
    · refine (Pres.user (Q := fun r => P x r.2.1 ∧ P y r.2.2) fun g r hr => ?_).bind fun r hr =>
        (Pres.put hr.1).bind fun _ _ => (Pres.put hr.2).bind fun _ _ => Pres.check
      cases hr; exact h.swap a b g (hu a rfl) (hv b rfl)

theorem Pres.specOp {ops : Nat → Ops V G} {op : Op V G} (h : OpKeeps ops P op) : Pres P (specOp ops op) fun _ => True := by
  have fin : ∀ {m : SM V G Unit} (b : Obs V), Pres P m (fun _ => True) → Pres P (m >>= fun _ => SM.pure b) fun _ => True :=
    fun b hm => hm.bind fun _ _ => Pres.pure trivial
  cases op with
  | ctorDefault x => exact fin _ (Pres.fresh.bind fun _ _ => Pres.setEmpty)
  | ctorInPlace x a => exact fin _ (Pres.ctorInPlace h)
  | ctorCopy x y => exact fin _ (Pres.ctorCopy h)
  | ctorMove x y => exact fin _ (Pres.ctorMove h)
  | dtor x => exact fin _ Pres.dtor
  | reset x => exact fin _ Pres.reset
  | assignNullopt x => exact fin _ Pres.reset
  | assignVal x a => exact fin _ (Pres.assignVal h)
  | assignScalar x tmp a =>
    exact fin _ ((Pres.ctorInPlace h.1).bind fun _ _ => ((Pres.assignMove h.2).onThrow Pres.dtor).bind fun _ _ => Pres.dtor)
  | assignCopy x y => exact fin _ (Pres.assignCopy h)
  | assignMove x y => exact fin _ (Pres.assignMove h)
  | emplace x a =>
    exact (Pres.reset.bind fun _ _ => (Pres.init h).bind fun _ _ => Pres.getVal).bind fun _ _ => Pres.pure trivial
  | swap x y => exact fin _ (Pres.swap h)
  | hasValue x =>
    refine Pres.bind (Q := fun _ => True) (Pres.get.bind fun a _ => ?_) fun _ _ => Pres.pure trivial
    cases a <;> exact Pres.pure trivial
  | deref x => exact Pres.getVal.bind fun _ _ => Pres.pure trivial
  | value x =>
    refine Pres.bind (Q := fun _ => True) (Pres.get.bind fun a _ => ?_) fun _ _ => Pres.pure trivial
    cases a
    · exact Pres.throw
    · exact Pres.pure trivial
  | valueOr rv x d =>
    refine Pres.bind (Q := fun _ => True) (Pres.get.bind fun a _ => ?_) fun _ _ => Pres.pure trivial
    cases a
    · exact Pres.user fun _ _ _ => trivial
    · cases rv with
      | false => exact Pres.getVal.bind fun _ _ => Pres.user fun _ _ _ => trivial
      | true => exact Pres.moveVal (h rfl)
  | modify x f =>
    refine fin _ (Pres.getVal.bind fun v hv => (Pres.user (Q := fun r => P x r.2) fun g a ha => ?_).bind fun r hr => (Pres.put hr).bind fun _ _ => Pres.check)
    cases ha; exact h v g hv
  | andThen x dst f =>
    refine fin _ (Pres.fresh.bind fun _ _ => Pres.get.bind fun a ha => ?_)
    cases a with
    | none => exact Pres.setEmpty
    | some v =>
      refine (Pres.user (Q := fun r => P x r.2 ∧ ∀ u, r.1 = .ok (some u) → P dst u) fun g a hr => ?_).bind fun r hr => (Pres.put hr.1).bind fun _ _ => ?_
      · cases hr; exact h v g (ha v rfl)
      · rcases r with ⟨r, v'⟩
        rcases r with e | (_ | u)
        · exact Pres.throw
        · exact Pres.setEmpty
        · exact Pres.put (hr.2 u rfl)
  | transform nt x dst f =>
    refine fin _ (Pres.fresh.bind fun _ _ => Pres.get.bind fun a ha => ?_)
    cases a with
    | none => exact Pres.setEmpty
    | some v =>
      refine (Pres.user (Q := fun r => P x r.2 ∧ ∀ u, r.1 = .ok u → P dst u) fun g a hr => ?_).bind fun r hr => (Pres.put hr.1).bind fun _ _ => ?_
      · cases hr; exact h v g (ha v rfl)
      · rcases r with ⟨r, v'⟩
        rcases r with e | u
        · exact Pres.throw
        · exact Pres.put (hr.2 u rfl)
  | orElse rv x dst f =>
    refine fin _ (Pres.fresh.bind fun _ _ => Pres.get.bind fun a ha => ?_)
    cases a with
    | none =>
      refine (Pres.user (Q := fun r => ∀ u, r = some u → P dst u) fun g a hr u hu => h.2 g u (by rw [hr, hu])).bind fun r hr => ?_
      cases r with
      | none => exact Pres.setEmpty
      | some u => exact Pres.put (hr u rfl)
    | some v =>
      refine (Pres.argVal (x := dst) (a := if rv then .moveOf x else .copyOf x) ?_).bind fun _ hv => Pres.put hv
      cases rv <;> exact h.1

theorem UserKeeps.opKeeps {ops : Nat → Ops V G} {D : V → Prop} (hc : ∀ x, KeepsCopy (ops x) D D) (hs : ∀ x, KeepsSwap (ops x) D D)
    {op : Op V G} (h : UserKeeps D op) : OpKeeps ops (fun _ => D) op := by
  have harg : ∀ x (a : Arg V G), (∀ nt c, a = .ext nt c → Makes D c) → ArgKeeps (fun _ => D) (ops x) x a := by
    intro x a ha
    cases a
    · exact ha _ _ rfl
    · exact hc x
    · exact (hs x).there
  cases op with
  | ctorInPlace x a => exact harg x a fun nt c e => by subst e; exact h
  | ctorCopy x y => exact hc x
  | ctorMove x y => exact (hs x).there
  | assignVal x a =>
    cases a
    · exact h
    · exact hc x
    · exact (hs x).there
  | assignScalar x tmp a => exact ⟨harg tmp a fun nt c e => by subst e; exact h, (hs x).there⟩
  | assignCopy x y => exact hc x
  | assignMove x y => exact (hs x).there
  | emplace x a => exact harg x a fun nt c e => by subst e; exact h
  | swap x y => exact hs x
  | valueOr rv x d => exact fun _ v g hv => (hs x).there.movedFrom v g hv
  | modify x f => exact h
  | andThen x dst f => exact h
  | transform nt x dst f => exact h
  | orElse rv x dst f =>
    refine ⟨?_, h⟩
    cases rv
    · exact hc x
    · exact (hs x).there
  | _ => exact trivial

theorem specRun_allIn {ops : Nat → Ops V G} {h : List (Op V G)} {rs : List (SRes (Obs V))} {w sw : SWorld V G}
    (hk : ∀ op ∈ h, OpKeeps ops P op) (hw : AllIn P w) (hr : specRun ops h w = some (rs, sw)) : AllIn P sw := by
  induction h generalizing w rs with
  | nil => cases hr; exact hw
  | cons op rest ih =>
    have h1 := (Pres.specOp (hk op (.head _)) w hw).1
    revert h1 hr
    unfold specRun
    rcases specOp ops op w with ⟨r, w'⟩
    intro hr h1
    have hk' := fun o ho => hk o (.tail _ ho)
    cases r with
    | undef => cases hr
    | _ =>
      dsimp only at hr
      cases h2 : specRun ops rest w' with
      | none => rw [h2] at hr; cases hr
      | some p =>
        rw [h2] at hr
        cases hr
        exact ih hk' h1 h2

end Verif.Spec
