import Verif.Lemmas.Provenance
import Verif.Spec.ProvenanceReentrant

/-!
# The invariant behind C85, for user code that calls the library
-/

namespace Verif.Spec
variable {V G α β : Type} {P : Nat → V → Prop} {ops : Nat → Ops V G}

theorem Pres.undef {Q : α → Prop} : Pres (G := G) P Spec.undef Q := fun _ hw => ⟨hw, nofun⟩

theorem Pres.any {m : SM V G α} {Q : α → Prop} (h : Pres P m Q) : Pres P m fun _ => True := h.weaken fun _ _ => trivial

theorem Pres.attempt {m : SM V G α} {Q : α → Prop} (h : Pres P m Q) : Pres P (Re.attempt m) fun r => ∀ a, r = .ok a → Q a := by
  intro w hw
  obtain ⟨h1, h2⟩ := h w hw
  unfold Re.attempt
  revert h1 h2
  rcases m w with ⟨r, w'⟩
  intro h1 h2
  cases r with
  | ok a => exact ⟨h1, fun b hb c hc => by cases hb; cases hc; exact h2 a rfl⟩
  | throw e => exact ⟨h1, fun b hb c hc => by cases hb; cases hc⟩
  | undef => exact ⟨h1, nofun⟩

theorem Pres.never {m : SM V G α} {Q : α → Prop} (h : Pres P m Q) (b : Bool) : Pres P (Re.never b m) Q := by
  intro w hw
  obtain ⟨h1, h2⟩ := h w hw
  unfold Re.never
  revert h1 h2
  rcases m w with ⟨r, w'⟩
  intro h1 h2
  cases r with
  | ok a => exact ⟨h1, h2⟩
  | throw e => cases b <;> exact ⟨h1, nofun⟩
  | undef => exact ⟨h1, nofun⟩

theorem Pres.require {b : Bool} : Pres (G := G) P (Re.require b) fun _ => True := by
  cases b
  · exact Pres.undef
  · exact Pres.pure trivial

theorem Pres.requireEmpty {x : Nat} : Pres (G := G) P (Re.requireEmpty x) fun _ => True := by
  refine Pres.get.bind fun a _ => ?_
  cases a
  · exact Pres.pure trivial
  · exact Pres.undef

theorem Pres.requireEngaged {x : Nat} : Pres (G := G) P (Re.requireEngaged x) fun _ => True := by
  refine Pres.get.bind fun a _ => ?_
  cases a
  · exact Pres.undef
  · exact Pres.pure trivial

theorem Pres.limit {b : Bool} {m : SM V G Unit} (h : Pres P m fun _ => True) : Pres P (if b then m else SM.pure ()) fun _ => True := by
  cases b
  · exact Pres.pure trivial
  · exact h

theorem Pres.reInit {x : Nat} {nt : Bool} {ctor : SM V G V} (h : Pres P ctor (P x)) : Pres P (Re.init x nt ctor) fun _ => True :=
  Pres.requireEmpty.bind fun _ _ => Pres.remove.bind fun _ _ => ((h.never nt).onThrow Pres.setEmpty).bind fun _ hv => Pres.put hv

theorem Pres.reDestroyVal {x : Nat} {dtor : V → SM V G Unit} (h : ∀ v, P x v → Pres P (dtor v) fun _ => True) :
    Pres P (Re.destroyVal x dtor) fun _ => True :=
  Pres.getVal.bind fun v hv => Pres.remove.bind fun _ _ => ((h v hv).never true).bind fun _ _ => Pres.setEmpty

theorem Pres.reConstruct {x : Nat} {nt : Bool} {ctor : SM V G V} (h : Pres P ctor (P x)) : Pres P (Re.construct x nt ctor) fun _ => True :=
  Pres.fresh.bind fun _ _ => (h.never nt).bind fun _ hv => Pres.put hv

theorem Pres.reTransfer {lim : Re.Limits} {x y : Nat} {nt : Bool} {ctor : SM V G V} (h : Pres P ctor (P x)) :
    Pres P (Re.transfer lim x y nt ctor) fun _ => True := by
  refine Pres.fresh.bind fun _ _ => Pres.get.bind fun a _ => ?_
  cases a
  · exact Pres.setEmpty
  · exact (h.never nt).bind fun _ hv => (Pres.put hv).bind fun _ _ => Pres.limit Pres.requireEngaged

theorem Pres.reReset {x : Nat} {dtor : V → SM V G Unit} (h : ∀ v, P x v → Pres P (dtor v) fun _ => True) :
    Pres P (Re.reset x dtor) fun _ => True := by
  refine Pres.get.bind fun a _ => ?_
  cases a
  · exact Pres.pure trivial
  · exact Pres.reDestroyVal h

theorem Pres.reDestroy {x : Nat} {dtor : V → SM V G Unit} (h : ∀ v, P x v → Pres P (dtor v) fun _ => True) :
    Pres P (Re.destroy x dtor) fun _ => True := by
  refine Pres.get.bind fun a _ => ?_
  cases a
  · exact Pres.remove
  · exact (Pres.reDestroyVal h).bind fun _ _ => Pres.remove

theorem Pres.reAssign {lim : Re.Limits} {x : Nat} {nt : Bool} {asg : SM V G Unit} {ctor : SM V G V} (ha : Pres P asg fun _ => True)
    (hc : Pres P ctor (P x)) : Pres P (Re.assign lim x nt asg ctor) fun _ => True := by
  refine Pres.get.bind fun a _ => ?_
  cases a
  · exact Pres.reInit hc
  · exact ha.bind fun _ _ => Pres.limit Pres.requireEngaged

theorem Pres.reAssignFrom {lim : Re.Limits} {x y : Nat} {ntA ntC : Bool} {asg : SM V G Unit} {ctor : SM V G V} {dtor : V → SM V G Unit}
    (ha : Pres P asg fun _ => True) (hc : Pres P ctor (P x)) (hd : ∀ v, P x v → Pres P (dtor v) fun _ => True) :
    Pres P (Re.assignFrom lim x y ntA ntC asg ctor dtor) fun _ => True := by
  have hs : Pres (G := G) P (Re.requireSame x y) fun _ => True := Pres.get.bind fun _ _ => Pres.get.bind fun _ _ => Pres.require
  refine Pres.get.bind fun a _ => ?_
  cases a
  · exact (Pres.reReset hd).bind fun _ _ => Pres.limit hs
  · exact (Pres.reAssign (ha.never ntA) hc).bind fun _ _ => Pres.limit hs

theorem Pres.reEmplace {x : Nat} {nt : Bool} {ctor : SM V G V} {dtor : V → SM V G Unit}
    (hc : Pres P ctor (P x)) (hd : ∀ v, P x v → Pres P (dtor v) fun _ => True) : Pres P (Re.emplace x nt dtor ctor) (P x) :=
  (Pres.reReset hd).bind fun _ _ => (Pres.reInit hc).bind fun _ _ => Pres.getVal

theorem Pres.reSwap {x y : Nat} {ntS ntC : Bool} {swp : SM V G Unit} {ctor : Nat → Nat → SM V G V} {dtor : Nat → V → SM V G Unit}
    (hs : Pres P swp fun _ => True) (hx : Pres P (ctor y x) (P y)) (hy : Pres P (ctor x y) (P x))
    (hdx : ∀ v, P x v → Pres P (dtor x v) fun _ => True) (hdy : ∀ v, P y v → Pres P (dtor y v) fun _ => True) :
    Pres P (Re.swap x y ntS ntC swp ctor dtor) fun _ => True := by
  refine Pres.get.bind fun a _ => Pres.get.bind fun b _ => ?_
  cases a <;> cases b
  · exact Pres.pure trivial
  · exact (Pres.reInit hy).bind fun _ _ => Pres.reDestroyVal hdy
  · exact (Pres.reInit hx).bind fun _ _ => Pres.reDestroyVal hdx
  · exact hs.never ntS

theorem Pres.reValueOr {x : Nat} {ctor conv : SM V G V} {S : V → Prop} (h1 : Pres P ctor S) (h2 : Pres P conv S) :
    Pres P (Re.valueOr x ctor conv) S := by
  refine Pres.get.bind fun a _ => ?_
  cases a
  · exact h2
  · exact h1

theorem Pres.reResult {lim : Re.Limits} {B : List Nat} {dst : Nat} {o : Ops V G} {ctor : Nat → SM V G V} {T : Nat → Prop}
    (hc : ∀ y, T y → Pres P (ctor y) (P dst)) {r : Returned} (hr : r.To T) : Pres P (Re.result lim B dst o ctor r) fun _ => True := by
  cases r with
  | object => exact Pres.get.bind fun _ _ => Pres.pure trivial
  | lref y => exact Pres.require.bind fun _ _ => Pres.reTransfer (hc y hr)
  | rref y => exact Pres.require.bind fun _ _ => Pres.reTransfer (hc y hr)

theorem Pres.reAndThen {lim : Re.Limits} {B : List Nat} {x dst : Nat} {o : Ops V G} {f : SM V G Returned} {ctor : Nat → SM V G V}
    {T : Nat → Prop} (hf : Pres P f (Returned.To T)) (hc : ∀ y, T y → Pres P (ctor y) (P dst)) :
    Pres P (Re.andThen lim B x dst o f ctor) fun _ => True := by
  refine Pres.fresh.bind fun _ _ => Pres.get.bind fun a _ => ?_
  cases a
  · exact Pres.setEmpty
  · exact hf.bind fun _ hr => Pres.reResult hc hr

theorem Pres.reTransform {lim : Re.Limits} {nt : Bool} {x dst : Nat} {f : SM V G V} (hf : Pres P f (P dst)) :
    Pres P (Re.transform lim nt x dst f) fun _ => True := by
  refine Pres.fresh.bind fun _ _ => Pres.get.bind fun a _ => ?_
  cases a
  · exact Pres.setEmpty
  · exact (hf.never _).bind fun _ hv => Pres.put hv

theorem Pres.reOrElse {lim : Re.Limits} {B : List Nat} {rv : Bool} {x dst : Nat} {o : Ops V G} {f : SM V G Returned} {ctor : Nat → SM V G V}
    {T : Nat → Prop} (hx : T x) (hf : Pres P f (Returned.To T)) (hc : ∀ y, T y → Pres P (ctor y) (P dst)) :
    Pres P (Re.orElse lim B rv x dst o f ctor) fun _ => True := by
  refine Pres.fresh.bind fun _ _ => Pres.get.bind fun a _ => ?_
  cases a
  · exact hf.bind fun _ hr => Pres.require.bind fun _ _ => Pres.reResult hc hr
  · exact Pres.reResult hc (by cases rv <;> exact hx)

theorem Comparison.answer_ask {A B R : Type} {q : Comparison R} {a : Option A} {b : Option B} {u : A} {v : B} (h : q.answer a b = .ask u v) :
    a = some u ∧ b = some v := by
  cases q with
  | rel op => cases op <;> cases a <;> cases b <;> simp_all [Verif.Comparison.answer, stdRel]
  | spaceship => cases a <;> cases b <;> simp_all [Verif.Comparison.answer, stdCmp]

theorem Inspection.answer_inr {A R : Type} {q : Inspection R} {a : Option A} {v : A} (h : q.answer a = .inr v) : a = some v := by
  cases q with
  | withStd flipped op has =>
    cases flipped <;> cases op <;> cases has <;> cases a <;> simp_all [Verif.Inspection.answer, Re.sided, stdRel]
  | spaceshipStd flipped has => cases flipped <;> cases has <;> cases a <;> simp_all [Verif.Inspection.answer, Re.sided, stdCmp]
  | withValue flipped op => cases flipped <;> cases op <;> cases a <;> simp_all [Verif.Inspection.answer, Re.sided, stdRel]
  | spaceshipValue => cases a <;> simp_all [Verif.Inspection.answer, Re.sided, stdCmp]
  | hash => cases a <;> simp_all [Verif.Inspection.answer]

theorem Pres.reCompare {R : Type} {q : Comparison R} {x y : Nat} {cmp : V → V → SM V G R}
    (h : ∀ a b, P x a → P y b → Pres P (cmp a b) fun _ => True) : Pres P (Re.compare q x y cmp) fun _ => True := by
  refine Pres.get.bind fun a ha => Pres.get.bind fun b hb => ?_
  cases hq : q.answer a b with
  | const r => exact Pres.pure trivial
  | ask u v =>
    obtain ⟨h1, h2⟩ := Comparison.answer_ask hq
    exact h u v (ha u h1) (hb v h2)

theorem Pres.reInspect {R : Type} {q : Inspection R} {x : Nat} {f : V → SM V G R}
    (h : ∀ a, P x a → Pres P (f a) fun _ => True) : Pres P (Re.inspect q x f) fun _ => True := by
  refine Pres.get.bind fun a ha => ?_
  cases hq : q.answer a with
  | inl r => exact Pres.pure trivial
  | inr v => exact h v (ha v (Inspection.answer_inr hq))

/-- Calls whose user code uses no optionals; what they return. -/
theorem Pres.specOp_result {op : Op V G} (h : OpKeeps ops P op) : Pres P (Spec.specOp ops op) fun b => ResultIn ops P op (.ok b) := by
  cases op with
  | deref x => exact Pres.getVal.bind fun _ hv => Pres.pure fun u hu => by cases hu; exact hv
  | value x =>
    refine Pres.bind (Q := P x) (Pres.get.bind fun a ha => ?_) fun _ hv => Pres.pure fun u hu => by cases hu; exact hv
    cases a
    · exact Pres.throw
    · exact Pres.pure (ha _ rfl)
  | emplace x a =>
    exact (Pres.reset.bind fun _ _ => (Pres.init h).bind fun _ _ => Pres.getVal).bind fun _ hv => Pres.pure fun u hu => by cases hu; exact hv
  | valueOr rv x d =>
    refine Pres.bind (Q := fun v => (∃ g, (d g).1 = .ok v) ∨
      ∃ u g, P x u ∧ (if rv then ((ops x).moveCtor u g).1 else ((ops x).copyCtor u g).1) = .ok v) (Pres.get.bind fun a ha => ?_)
      fun _ hv => Pres.pure fun u hu => by cases hu; exact hv
    cases a with
    | none => exact Pres.user fun g v hv => .inl ⟨g, hv⟩
    | some u =>
      cases rv with
      | false => exact Pres.getVal.bind fun u hu => Pres.user fun g v hv => .inr ⟨u, g, hu, hv⟩
      | true =>
        intro w hw
        refine ⟨(Pres.moveVal (h rfl) w hw).1, fun v hv => .inr ?_⟩
        cases hy : w.vars x with
        | none => simp [Spec.argVal, hy] at hv
        | some o =>
          cases o with
          | none => simp [Spec.argVal, hy] at hv
          | some u =>
            refine ⟨u, w.user, hw.1 x u hy, ?_⟩
            rcases hm : (ops x).moveCtor u w.user with ⟨r, v', g⟩
            simp only [Spec.argVal, if_true, hy, hm] at hv
            cases r with
            | ok a => cases hv; rfl
            | error e => cases hv
  | _ => exact (Pres.specOp h).weaken fun _ _ => trivial

theorem ResultIn.of {op : Op V G} {r : Except Exn (Obs V)} (h : ∀ b, r = .ok b → ResultIn ops P op (.ok b)) : ResultIn ops P op r := by
  cases r with
  | ok b => exact h b rfl
  | error e => cases op <;> first | exact trivial | exact nofun

theorem Pres.specProg {lim : Re.Limits} {α : Type} (p : Prog V G α) : ∀ {B : List Nat} {Q : α → Prop}, p.Keeps ops P Q →
    Pres P (specProg ops lim B p) Q := by
  induction p with
  | ret r =>
    intro B Q h
    cases r with
    | ok a => exact Pres.pure (h a rfl)
    | error e => exact Pres.throw
  | user f k ih => exact fun h w hw => ih w.user (h w.user) _ hw
  | call op k ih => exact fun h => Pres.require.bind fun _ _ => (((Pres.specOp_result h.1).never _).attempt).bind fun r hr => ih r (h.2 r (.of hr))
  | construct x nt ctor k ihc ih => exact fun h => Pres.require.bind fun _ _ => (Pres.reConstruct (ihc h.1)).attempt.bind fun r _ => ih r (h.2 r)
  | transfer rv x y ctor k ihc ih => exact fun h => Pres.require.bind fun _ _ => (Pres.reTransfer (ihc h.1)).attempt.bind fun r _ => ih r (h.2 r)
  | destroy x dtor k ihd ih =>
    exact fun h => Pres.require.bind fun _ _ => (Pres.reDestroy fun v hv => ihd v (h.1 v hv)).attempt.bind fun r _ => ih r (h.2 r)
  | reset x dtor k ihd ih =>
    exact fun h => Pres.require.bind fun _ _ => (Pres.reReset fun v hv => ihd v (h.1 v hv)).attempt.bind fun r _ => ih r (h.2 r)
  | assign x nt asg ctor k iha ihc ih =>
    exact fun h => Pres.require.bind fun _ _ => (Pres.reAssign (iha h.1) (ihc h.2.1)).attempt.bind fun r _ => ih r (h.2.2 r)
  | assignFrom rv x y asg ctor dtor k iha ihc ihd ih =>
    exact fun h => Pres.require.bind fun _ _ =>
      (Pres.reAssignFrom (iha h.1) (ihc h.2.1) fun v hv => ihd v (h.2.2.1 v hv)).attempt.bind fun r _ => ih r (h.2.2.2 r)
  | emplace x nt dtor ctor k ihd ihc ih =>
    exact fun h => Pres.require.bind fun _ _ => (Pres.reEmplace (ihc h.2.1) fun v hv => ihd v (h.1 v hv)).attempt.bind fun r hr => ih r (h.2.2 r hr)
  | swap x y swp ctor dtor k ihs ihc ihd ih =>
    exact fun h => Pres.require.bind fun _ _ => (Pres.reSwap (ihs h.1) (ihc x h.2.1) (ihc y h.2.2.1)
      (fun v hv => ihd v (h.2.2.2.1 v (.inl hv))) fun v hv => ihd v (h.2.2.2.1 v (.inr hv))).attempt.bind fun r _ => ih r (h.2.2.2.2 r)
  | valueOr x ctor conv k ihc ihd ih =>
    exact fun ⟨S, h1, h2, h3⟩ => Pres.require.bind fun _ _ => (Pres.reValueOr (ihc h1) (ihd h2)).attempt.bind fun r hr => ih r (h3 r hr)
  | andThen x dst f ctor k ihf ihc ih =>
    exact fun ⟨T, h1, h2, h3⟩ => Pres.require.bind fun _ _ =>
      (Pres.reAndThen (ihf h1) fun y hy => ihc y (h2 y hy)).attempt.bind fun r _ => ih r (h3 r)
  | transform nt x dst f k ihf ih => exact fun h => Pres.require.bind fun _ _ => (Pres.reTransform (ihf h.1)).attempt.bind fun r _ => ih r (h.2 r)
  | orElse rv x dst f ctor k ihf ihc ih =>
    exact fun ⟨T, h0, h1, h2, h3⟩ => Pres.require.bind fun _ _ =>
      (Pres.reOrElse h0 (ihf h1) fun y hy => ihc y (h2 y hy)).attempt.bind fun r _ => ih r (h3 r)
  | compare q x y cmp k ihc ih =>
    exact fun h => Pres.require.bind fun _ _ => (Pres.reCompare fun a b ha hb => ihc a b (h.1 a b ha hb)).attempt.bind fun r _ => ih r (h.2 r)
  | inspect q x f k ihf ih =>
    exact fun h => Pres.require.bind fun _ _ => (Pres.reInspect fun a ha => ihf a (h.1 a ha)).attempt.bind fun r _ => ih r (h.2 r)

end Verif.Spec
