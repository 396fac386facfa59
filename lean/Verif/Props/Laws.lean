import Verif.Lemmas.Laws
import Verif.Examples

/-!
# C87: laws of the monadic operations

`x` exists, `t` and `d` are new. `t` is the optional in the middle of a chain, which the fused chain does not have. Callables may have
effects (the user state) and may throw.
-/

namespace Verif.Props
open Verif Verif.Model Verif.Spec Verif.Examples
variable {V G : Type} {Γ : Env V G} {w : World V G} {x t d : Nat}

/-- C87. `x.and_then(f).and_then(g)` is `x.and_then([](auto const& v) { return f(v).and_then(g); })`. -/
theorem C87_and_then_assoc (hΓ : EnvWF Γ) (hw : Reach Γ w) (hx : ¬ Absent x w) (ht : Absent t w) (hd : Absent d w) (htd : t ≠ d)
    {f g : V → G → Except Exn (Option V) × G} (hf : ∀ v s u, (f v s).1 = .ok (some u) → (Γ t).cfg.Storable u)
    (hg : ∀ v s u, (g v s).1 = .ok (some u) → (Γ d).cfg.Storable u) :
    SameExcept Γ [t] (block Γ [.andThen x t (reads f), .andThen t d (reads g)] w) (block Γ [.andThen x d (reads (kleisli f g))] w) := by
  obtain ⟨vars, hs⟩ := hw.view hΓ
  have ht' : vars t = none := hs.abs ht
  have hd' : vars d = none := hs.abs hd
  have hxd : x ≠ d := by rintro rfl; exact hx hd
  have hxt : x ≠ t := by rintro rfl; exact hx ht
  rcases hv : vars x with _ | (_ | v)
  · exact absurd (hs.absent hv) hx
  · refine hw.sameExcept hΓ hs ?_ ?_ ?_ ?_ ?_ ?_ <;> law [hv, ht', hd', htd, htd.symm, hxd, hxt, hxd.symm, hxt.symm]
  · have hst := hw.holds_storable hΓ (hs.holds hv)
    rcases hfv : f v w.user with ⟨_ | (_ | u), s⟩
    · refine hw.sameExcept hΓ hs ?_ ?_ ?_ ?_ ?_ ?_ <;> law [hv, ht', hd', htd, htd.symm, hxd, hxt, hxd.symm, hxt.symm, kleisli, hfv, hst]
    · refine hw.sameExcept hΓ hs ?_ ?_ ?_ ?_ ?_ ?_ <;> law [hv, ht', hd', htd, htd.symm, hxd, hxt, hxd.symm, hxt.symm, kleisli, hfv, hst]
    · have hu := hf v w.user u (by rw [hfv])
      rcases hgu : g u s with ⟨_ | (_ | a), s'⟩
      · refine hw.sameExcept hΓ hs ?_ ?_ ?_ ?_ ?_ ?_ <;>
          law [hv, ht', hd', htd, htd.symm, hxd, hxt, hxd.symm, hxt.symm, kleisli, hfv, hgu, hst, hu]
      · refine hw.sameExcept hΓ hs ?_ ?_ ?_ ?_ ?_ ?_ <;>
          law [hv, ht', hd', htd, htd.symm, hxd, hxt, hxd.symm, hxt.symm, kleisli, hfv, hgu, hst, hu]
      · have ha := hg u s a (by rw [hgu])
        refine hw.sameExcept hΓ hs ?_ ?_ ?_ ?_ ?_ ?_ <;>
          law [hv, ht', hd', htd, htd.symm, hxd, hxt, hxd.symm, hxt.symm, kleisli, hfv, hgu, hst, hu, ha]

/-- C87. `x.transform(f).transform(g)` is `x.transform([](auto const& v) { return g(f(v)); })`, as long as no callable throws where
`transform` does not let exceptions pass (C17). -/
theorem C87_transform_compose (hΓ : EnvWF Γ) (hw : Reach Γ w) (hx : ¬ Absent x w) (ht : Absent t w) (hd : Absent d w) (htd : t ≠ d)
    {f g : V → G → Except Exn V × G} {n₁ n₂ n₃ : Bool} (hf : ∀ v s u, (f v s).1 = .ok u → (Γ t).cfg.Storable u)
    (hg : ∀ v s u, (g v s).1 = .ok u → (Γ d).cfg.Storable u) (h₁ : NoThrow n₁ f) (h₂ : NoThrow n₂ g) (h₃ : NoThrow n₃ (compose f g)) :
    SameExcept Γ [t] (block Γ [.transform n₁ x t (reads f), .transform n₂ t d (reads g)] w)
      (block Γ [.transform n₃ x d (reads (compose f g))] w) := by
  obtain ⟨vars, hs⟩ := hw.view hΓ
  have ht' : vars t = none := hs.abs ht
  have hd' : vars d = none := hs.abs hd
  have hxd : x ≠ d := by rintro rfl; exact hx hd
  have hxt : x ≠ t := by rintro rfl; exact hx ht
  rcases hv : vars x with _ | (_ | v)
  · exact absurd (hs.absent hv) hx
  · refine hw.sameExcept hΓ hs ?_ ?_ ?_ ?_ ?_ ?_ <;> law [hv, ht', hd', htd, htd.symm, hxd, hxt, hxd.symm, hxt.symm]
  · have hst := hw.holds_storable hΓ (hs.holds hv)
    rcases hfv : f v w.user with ⟨e | u, s⟩
    · have hn₁ : n₁ = false := Bool.eq_false_iff.2 fun h => h₁ h v w.user e (by rw [hfv])
      have hn₃ : n₃ = false := Bool.eq_false_iff.2 fun h => h₃ h v w.user e (by rw [compose, hfv])
      refine hw.sameExcept hΓ hs ?_ ?_ ?_ ?_ ?_ ?_ <;>
        law [hv, ht', hd', htd, htd.symm, hxd, hxt, hxd.symm, hxt.symm, compose, hfv, hst, hn₁, hn₃]
    · have hu := hf v w.user u (by rw [hfv])
      rcases hgu : g u s with ⟨e | a, s'⟩
      · have hn₂ : n₂ = false := Bool.eq_false_iff.2 fun h => h₂ h u s e (by rw [hgu])
        have hn₃ : n₃ = false := Bool.eq_false_iff.2 fun h => h₃ h v w.user e (by rw [compose, hfv]; simp [hgu])
        refine hw.sameExcept hΓ hs ?_ ?_ ?_ ?_ ?_ ?_ <;>
          law [hv, ht', hd', htd, htd.symm, hxd, hxt, hxd.symm, hxt.symm, compose, hfv, hgu, hst, hu, hn₂, hn₃]
      · have ha := hg u s a (by rw [hgu])
        refine hw.sameExcept hΓ hs ?_ ?_ ?_ ?_ ?_ ?_ <;>
          law [hv, ht', hd', htd, htd.symm, hxd, hxt, hxd.symm, hxt.symm, compose, hfv, hgu, hst, hu, ha]

/-- C87. `x.transform(f)` is `x.and_then([](auto const& v) { return make(f(v)); })`. -/
theorem C87_transform_is_and_then (hΓ : EnvWF Γ) (hw : Reach Γ w) (hx : ¬ Absent x w) (hd : Absent d w)
    {f : V → G → Except Exn V × G} {n : Bool} (hf : ∀ v s u, (f v s).1 = .ok u → (Γ d).cfg.Storable u) (hn : NoThrow n f) :
    SameExcept Γ [] (block Γ [.transform n x d (reads f)] w) (block Γ [.andThen x d (reads (wrap f))] w) := by
  obtain ⟨vars, hs⟩ := hw.view hΓ
  have hd' : vars d = none := hs.abs hd
  have hxd : x ≠ d := by rintro rfl; exact hx hd
  rcases hv : vars x with _ | (_ | v)
  · exact absurd (hs.absent hv) hx
  · refine hw.sameExcept hΓ hs ?_ ?_ ?_ ?_ ?_ ?_ <;> law [hv, hd', hxd, hxd.symm]
  · have hst := hw.holds_storable hΓ (hs.holds hv)
    rcases hfv : f v w.user with ⟨e | u, s⟩
    · have hn₁ : n = false := Bool.eq_false_iff.2 fun h => hn h v w.user e (by rw [hfv])
      refine hw.sameExcept hΓ hs ?_ ?_ ?_ ?_ ?_ ?_ <;> law [hv, hd', hxd, hxd.symm, wrap, hfv, hst, hn₁]
    · have hu := hf v w.user u (by rw [hfv])
      refine hw.sameExcept hΓ hs ?_ ?_ ?_ ?_ ?_ ?_ <;> law [hv, hd', hxd, hxd.symm, wrap, hfv, hst, hu]

/-- C87. `x.and_then(make)`, `x.transform(identity)` and `x.or_else(f)` with an `f` that returns an empty optional are copies of `x`. -/
theorem C87_identity (hΓ : EnvWF Γ) (hw : Reach Γ w) (hx : ¬ Absent x w) (hd : Absent d w) (hT : Γ x = Γ d) (hp : Plain (Γ x)) (n : Bool) :
    SameExcept Γ [] (block Γ [.andThen x d (reads fun v s => (.ok (some v), s))] w) (block Γ [.ctorCopy d x] w) ∧
    SameExcept Γ [] (block Γ [.transform n x d (reads fun v s => (.ok v, s))] w) (block Γ [.ctorCopy d x] w) ∧
    SameExcept Γ [] (block Γ [.orElse false x d fun s => (.ok none, s)] w) (block Γ [.ctorCopy d x] w) := by
  obtain ⟨vars, hs⟩ := hw.view hΓ
  have hd' : vars d = none := hs.abs hd
  have hxd : x ≠ d := by rintro rfl; exact hx hd
  rcases hv : vars x with _ | (_ | v)
  · exact absurd (hs.absent hv) hx
  · refine ⟨?_, ?_, ?_⟩ <;> refine hw.sameExcept hΓ hs ?_ ?_ ?_ ?_ ?_ ?_ <;> law [hv, hd', hxd, hxd.symm, hT]
  · have hst := hw.holds_storable hΓ (hs.holds hv)
    have hst' := hT ▸ hst
    have hc := hp.copy v w.user
    have hc' := hT ▸ hc
    refine ⟨?_, ?_, ?_⟩ <;> refine hw.sameExcept hΓ hs ?_ ?_ ?_ ?_ ?_ ?_ <;> law [hv, hd', hxd, hxd.symm, hT, hc', hst'] <;>
      (intro z; by_cases h : z = x <;> simp [h, hv])

/-- C87. An optional made from `v`, and then `f`: that is `f(v)`. -/
theorem C87_left_identity (hΓ : EnvWF Γ) (hw : Reach Γ w) (hx : Absent x w) (hd : Absent d w) (hxd : x ≠ d) {nt : Bool} {v : V}
    (hst : (Γ x).cfg.Storable v) {f : V → G → Except Exn (Option V) × G} (hf : ∀ v s u, (f v s).1 = .ok (some u) → (Γ d).cfg.Storable u) :
    ∃ w', block Γ [.ctorInPlace x (.ext nt fun s => (.ok v, s)), .andThen x d (reads f)] w =
        ((match (f v w.user).1 with | .ok _ => .ok () | .error e => .throw e), w') ∧ w'.user = (f v w.user).2 ∧ Holds Γ x v w' ∧
      match (f v w.user).1 with
      | .ok none => IsEmpty Γ d w'
      | .ok (some u) => Holds Γ d u w'
      | .error _ => Absent d w' := by
  obtain ⟨vars, hs⟩ := hw.view hΓ
  have hd' : vars d = none := hs.abs hd
  have hx' : vars x = none := hs.abs hx
  have hu : ∀ u, (f v w.user).1 = .ok (some u) → (Γ d).cfg.Storable u := hf v w.user
  rcases hfv : f v w.user with ⟨e | (_ | u), s⟩
  · obtain ⟨w', h1, _, h3⟩ := hw.block hΓ hs (h := [.ctorInPlace x (.ext nt fun s => (.ok v, s)), .andThen x d (reads f)])
      (by law [hx', hd', hxd, hxd.symm, hfv, hst]) (by law [hx', hd', hxd, hxd.symm, hfv, hst])
    refine ⟨w', h1.trans ?_, h3.1.trans ?_, h3.holds ?_, h3.absent ?_⟩ <;> law [hx', hd', hxd, hxd.symm, hfv, SResToRes]
  · obtain ⟨w', h1, _, h3⟩ := hw.block hΓ hs (h := [.ctorInPlace x (.ext nt fun s => (.ok v, s)), .andThen x d (reads f)])
      (by law [hx', hd', hxd, hxd.symm, hfv, hst]) (by law [hx', hd', hxd, hxd.symm, hfv, hst])
    refine ⟨w', h1.trans ?_, h3.1.trans ?_, h3.holds ?_, h3.isEmpty ?_⟩ <;> law [hx', hd', hxd, hxd.symm, hfv, SResToRes]
  · have hu' := hu u (by rw [hfv])
    obtain ⟨w', h1, _, h3⟩ := hw.block hΓ hs (h := [.ctorInPlace x (.ext nt fun s => (.ok v, s)), .andThen x d (reads f)])
      (by law [hx', hd', hxd, hxd.symm, hfv, hst, hu']) (by law [hx', hd', hxd, hxd.symm, hfv, hst])
    refine ⟨w', h1.trans ?_, h3.1.trans ?_, h3.holds ?_, h3.holds ?_⟩ <;> law [hx', hd', hxd, hxd.symm, hfv, SResToRes]

/-- C87. `x.or_else(f).or_else(g)` is `x.or_else([] { return f().or_else(g); })`, for lvalues and rvalues `x`. -/
theorem C87_or_else_assoc (hΓ : EnvWF Γ) (hw : Reach Γ w) (hx : ¬ Absent x w) (ht : Absent t w) (hd : Absent d w) (htd : t ≠ d)
    (hT : Γ x = Γ t) (hT' : Γ x = Γ d) (hp : Plain (Γ x)) {f g : G → Except Exn (Option V) × G} (rv : Bool)
    (hf : ∀ s u, (f s).1 = .ok (some u) → (Γ x).cfg.Storable u) (hg : ∀ s u, (g s).1 = .ok (some u) → (Γ x).cfg.Storable u) :
    SameExcept Γ [t] (block Γ [.orElse rv x t f, .orElse true t d g] w) (block Γ [.orElse rv x d (orThen f g)] w) := by
  obtain ⟨vars, hs⟩ := hw.view hΓ
  have ht' : vars t = none := hs.abs ht
  have hd' : vars d = none := hs.abs hd
  have hxd : x ≠ d := by rintro rfl; exact hx hd
  have hxt : x ≠ t := by rintro rfl; exact hx ht
  rw [hT'] at hp hf hg
  have hT'' : Γ t = Γ d := hT.symm.trans hT'
  rcases hv : vars x with _ | (_ | v)
  · exact absurd (hs.absent hv) hx
  · rcases hfv : f w.user with ⟨e | (_ | u), s⟩
    · refine hw.sameExcept hΓ hs ?_ ?_ ?_ ?_ ?_ ?_ <;> law [hv, ht', hd', htd, htd.symm, hxd, hxt, hxd.symm, hxt.symm, orThen, hfv, hT', hT'']
    · rcases hgs : g s with ⟨e | (_ | a), s'⟩
      · refine hw.sameExcept hΓ hs ?_ ?_ ?_ ?_ ?_ ?_ <;>
          law [hv, ht', hd', htd, htd.symm, hxd, hxt, hxd.symm, hxt.symm, orThen, hfv, hgs, hT', hT'']
      · refine hw.sameExcept hΓ hs ?_ ?_ ?_ ?_ ?_ ?_ <;>
          law [hv, ht', hd', htd, htd.symm, hxd, hxt, hxd.symm, hxt.symm, orThen, hfv, hgs, hT', hT'']
      · have ha := hg s a (by rw [hgs])
        refine hw.sameExcept hΓ hs ?_ ?_ ?_ ?_ ?_ ?_ <;>
          law [hv, ht', hd', htd, htd.symm, hxd, hxt, hxd.symm, hxt.symm, orThen, hfv, hgs, hT', hT'', ha]
    · have hu := hf w.user u (by rw [hfv])
      obtain ⟨u', hm, hu'⟩ := hp.move u s
      have hu'' := hu' hu
      refine hw.sameExcept hΓ hs ?_ ?_ ?_ ?_ ?_ ?_ <;>
        law [hv, ht', hd', htd, htd.symm, hxd, hxt, hxd.symm, hxt.symm, orThen, hfv, hT', hT'', hu, hu'', hm]
  · have hst := hw.holds_storable hΓ (hs.holds hv)
    rw [hT'] at hst
    obtain ⟨v', hm, hv'⟩ := hp.move v w.user
    have hv'' := hv' hst
    have hc := hp.copy v w.user
    cases rv <;> refine hw.sameExcept hΓ hs ?_ ?_ ?_ ?_ ?_ ?_ <;>
      law [hv, ht', hd', htd, htd.symm, hxd, hxt, hxd.symm, hxt.symm, hT', hT'', hst, hv'', hm, hc]

/-- The condition on the type in the middle is needed: `f` returns 42, which is reserved there. The chain fails an assertion or, with
`NDEBUG`, yields an empty optional; the fused chain yields 43. -/
theorem C87_needed :
    let f : BitVec 8 → Unit → Except Exn (BitVec 8) × Unit := fun _ s => (.ok 42, s)
    let g : BitVec 8 → Unit → Except Exn (BitVec 8) × Unit := fun u s => (.ok (u + 1), s)
    let chain : List (Op (BitVec 8) Unit) := [.ctorInPlace 20 (lit 5#8), .transform true 20 26 (reads f), .transform true 26 25 (reads g), .hasValue 25]
    let fused : List (Op (BitVec 8) Unit) := [.ctorInPlace 20 (lit 5#8), .transform true 20 25 (reads (compose f g)), .hasValue 25]
    (run (env Unit scalarOps false) chain (.init ())).1 = [.ok .unit, .abort .assertFail] ∧
    (run (env Unit scalarOps true) chain (.init ())).1 = [.ok .unit, .ok .unit, .ok .unit, .ok (.bool false)] ∧
    (run (env Unit scalarOps false) fused (.init ())).1 = [.ok .unit, .ok .unit, .ok (.bool true)] ∧
    (run (env Unit scalarOps true) fused (.init ())).1 = [.ok .unit, .ok .unit, .ok (.bool true)] := by
  decide +kernel

/-! ### Instances -/

/-- Keeps the last bit, unless the value is zero. -/
private def lastBit (v : BitVec 8) (s : List String) : Except Exn (Option (BitVec 8)) × List String :=
  (.ok (if v = 0 then none else some (v &&& 1)), s ++ ["f"])
/-- Throws for odd numbers. -/
private def evenOnly (v : BitVec 8) (s : List String) : Except Exn (Option (BitVec 8)) × List String :=
  (if v.getLsbD 0 then .error (.user 7) else .ok (some v), s ++ ["g"])

private theorem lastBit_ne (v : BitVec 8) (s u) (h : (lastBit v s).1 = .ok (some u)) : u ≠ 42#8 := by
  rintro rfl
  simp only [lastBit] at h
  split at h
  · simp at h
  · simp only [Except.ok.injEq, Option.some.injEq] at h
    revert h; revert v; decide

/-- 5 is odd: `g` throws, on both sides, after `f` and `g` were called once. -/
example := C87_and_then_assoc (x := 20) (t := 26) (d := 5) (f := lastBit) (g := evenOnly) exEnv_wf ex_reach (by simp [Absent, exWorld]; decide) rfl rfl
  (by decide) (fun v s u h => ex_storable (lastBit_ne v s u h) 26 (by omega)) (fun _ _ _ _ => by simp [exEnv, env, Config.Storable, sepCfg])
example : (block exEnv [.andThen 20 5 (reads (kleisli lastBit evenOnly))] exWorld).1 = .throw (.user 7) := rfl

example := C87_transform_compose (x := 20) (t := 3) (d := 5) (n₁ := true) (n₂ := false) (n₃ := false) (f := fun v s => (.ok (v + 1), s ++ ["f"]))
  (g := fun v s => (if v.getLsbD 0 then .error (.user 7) else .ok v, s ++ ["g"])) exEnv_wf ex_reach (by simp [Absent, exWorld]; decide) rfl rfl (by decide)
  (fun _ _ _ _ => by simp [exEnv, env, Config.Storable, sepCfg]) (fun _ _ _ _ => by simp [exEnv, env, Config.Storable, sepCfg])
  (fun _ _ _ _ => by simp) nofun nofun

example := C87_transform_is_and_then (x := 20) (d := 5) (n := true) (f := fun v s => (.ok (v + 1), s ++ ["f"])) exEnv_wf ex_reach
  (by simp [Absent, exWorld]; decide) rfl (fun _ _ _ _ => by simp [exEnv, env, Config.Storable, sepCfg]) (fun _ _ _ _ => by simp)

private theorem scalar_plain (x : Nat) : Plain (env Unit scalarOps false x) :=
  ⟨fun _ _ => rfl, fun v _ => ⟨v, rfl, id⟩⟩

example := C87_identity (x := 20) (d := 26) (env_wf scalarOps_lawful false) exS_reach (by simp [Absent, exWorldS]; decide) rfl rfl (scalar_plain 20) true
example := C87_left_identity (x := 26) (d := 5) (v := 6#8) (nt := true) (f := evenOnly) exEnv_wf ex_reach rfl rfl (by decide)
  (ex_storable (by decide) 26 (by omega)) (fun _ _ _ _ => by simp [exEnv, env, Config.Storable, sepCfg])
example := C87_or_else_assoc (x := 21) (t := 26) (d := 27) (f := fun s => (.ok none, s)) (g := fun s => (.ok (some 3#8), s)) (env_wf scalarOps_lawful false)
  exS_reach (by simp [Absent, exWorldS]; decide) rfl rfl (by decide) rfl rfl (scalar_plain 21) false nofun
  (by rintro s u h; cases h; simp [env, Config.Storable, sentCfg, Config.loc])

end Verif.Props
