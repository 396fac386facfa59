import Verif.Model.Hash
import Verif.Props.Compare

/-!
# C55: `std::hash` is enabled exactly when it is for `std::optional`
-/

namespace Verif.Props
open Verif Verif.Model Verif.Examples
open Verif.Spec (OpTy IsTiny stdHash)

/-- [optional.hash]: `hash<optional<T>>` is enabled if and only if `hash<remove_const_t<T>>` is enabled. `en` says which types have an
enabled hash, `payload` is the payload type of an optional type. -/
def StdHashRule (payload : OpTy → Option HashArg) (en : HashArg → Bool) : Prop :=
  ∀ (o : OpTy) (p : HashArg), payload o = some p → en ⟨o, false, false⟩ = en ⟨p.ty, false, p.volatile⟩

/-- The unqualified tiny optional types. -/
def IsOptionalTy (t : HashArg) : Prop :=
  (∃ p v, t.ty = .tiny p v ∨ t.ty = .impl p v) ∧ t.const = false ∧ t.volatile = false

/-- C55. The hashes of tiny optionals follow the standard's rule, and the library does not touch the hash of any other type: neither of
qualified types nor of classes derived from optionals. -/
theorem C55_enabled (H : HashWorld) :
    StdHashRule (payloadOf H) (fun t => hashEnabled H t.ty t.const t.volatile) ∧
    ∀ t, ¬IsOptionalTy t → hashEnabled H t.ty t.const t.volatile = H.enabled t := by
  constructor
  · intro o p h
    cases o with
    | tiny q v => cases h; rfl
    | impl q v => cases h; rfl
    | _ => cases h
  · rintro ⟨ty, c, v⟩ h
    cases ty <;> cases c <;> cases v <;> first | rfl | skip
    · exact absurd ⟨⟨_, _, .inl rfl⟩, rfl, rfl⟩ h
    · exact absurd ⟨⟨_, _, .inr rfl⟩, rfl, rfl⟩ h

/-- C55. These two conditions leave no freedom: whatever satisfies them agrees with the library for all types, also for optionals
nested to any depth. -/
theorem C55_determined (H : HashWorld) (en : HashArg → Bool) (h1 : StdHashRule (payloadOf H) en)
    (h2 : ∀ t, ¬IsOptionalTy t → en t = H.enabled t) : ∀ t, en t = hashEnabled H t.ty t.const t.volatile := by
  rintro ⟨ty, c, v⟩
  have other : ∀ t : HashArg, ¬IsOptionalTy t → en t = hashEnabled H t.ty t.const t.volatile := fun t ht => by
    rw [h2 t ht, (C55_enabled H).2 t ht]
  induction ty generalizing c v with
  | tiny p w ih =>
    by_cases hq : c = false ∧ v = false
    · obtain ⟨rfl, rfl⟩ := hq
      rw [h1 _ _ rfl, ih]
      rfl
    · exact other _ fun h => hq h.2
  | impl p w ih =>
    by_cases hq : c = false ∧ v = false
    · obtain ⟨rfl, rfl⟩ := hq
      rw [h1 _ _ rfl, ih]
      rfl
    · exact other _ fun h => hq h.2
  | _ => exact other _ (by rintro ⟨⟨_, _, h | h⟩, -⟩ <;> cases h)

/-- C55. The two specializations never compete, and one is used exactly for the tiny optionals with an enabled hash. -/
theorem C55_one_specialization (H : HashWorld) (t : HashArg) :
    (hashMatches H t).length ≤ 1 ∧
    (hashMatches H t ≠ [] ↔ IsOptionalTy t ∧ hashEnabled H t.ty t.const t.volatile = true) := by
  obtain ⟨ty, c, v⟩ := t
  by_cases hq : c = false ∧ v = false
  · obtain ⟨rfl, rfl⟩ := hq
    cases ty with
    | tiny p w =>
      simp only [hashMatches, HashSpec.deduces, List.filter, payloadOf, HashArg.removeConst, IsOptionalTy, hashEnabled]
      cases hashEnabled H p false (H.quals (.tiny p w)).2 <;> simp
    | impl p w =>
      simp only [hashMatches, HashSpec.deduces, List.filter, payloadOf, HashArg.removeConst, IsOptionalTy, hashEnabled]
      cases hashEnabled H p false (H.quals (.impl p w)).2 <;> simp
    | _ => simp [hashMatches, HashSpec.deduces, IsOptionalTy]
  · have : hashMatches H ⟨ty, c, v⟩ = [] := by
      cases ty <;> cases c <;> cases v <;> first | rfl | exact absurd ⟨rfl, rfl⟩ hq
    rw [this]
    exact ⟨by simp, ⟨fun h => absurd rfl h, fun h => absurd h.1.2 hq⟩⟩

/-- `hash<int>` is enabled, `hash<const int>` is not; `optional<const int>` is `tiny (other 1) 1`. -/
def exHashes : HashWorld := { enabled := fun t => t == ⟨.other 1, false, false⟩, quals := fun t => (t == .tiny (.other 1) 1, false) }

example : hashEnabled exHashes (.tiny (.other 1) 1) false false = true ∧ hashEnabled exHashes (.tiny (.tiny (.other 1) 1) 0) false false = true ∧
    hashEnabled exHashes (.tiny (.other 2) 0) false false = false ∧ hashEnabled exHashes (.derived (.tiny (.other 1) 0) 0) false false = false := by
  decide
example := C55_determined exHashes (fun t => hashEnabled exHashes t.ty t.const t.volatile) (C55_enabled exHashes).1 (C55_enabled exHashes).2 ⟨.tiny (.other 1) 1, false, false⟩

/-- C55. Optionals with the same contents have the same hash, even if they are of different types (with different flags) in different
programs: that of the payload. The optionals are not changed. -/
theorem C55_same_hash {V G : Type} {Γ Δ : Env V G} {w u : World V G} {H : Type} [OfNat H 0] {x y : Nat} {o : Option V}
    (hx : Views Γ x o w) (hy : Views Δ y o u) {hash : V → H} {h : V → G → Except Exn H × G} (hh : ∀ v g, h v g = (.ok (hash v), g)) :
    hashOf Γ x h w = (.ok (stdHash 0 hash o), w) ∧ hashOf Δ y h u = (.ok (stdHash 0 hash o), u) := by
  rw [C21_hash hx, C21_hash hy]
  cases o with
  | none => exact ⟨rfl, rfl⟩
  | some v => simp [userCall, hh, stdHash]

/-- An optional with a separate flag (0) and one with a sentinel (20) that hold 5. -/
example : ∃ (Γ Δ : Env (BitVec 8) Unit) (w u : World (BitVec 8) Unit), Views Γ 0 (some 5#8) w ∧ Views Δ 20 (some 5#8) u ∧
    (Γ 0).cfg.decomp ≠ (Δ 20).cfg.decomp := by
  refine ⟨env Unit scalarOps false, env Unit scalarOps false, (run (env Unit scalarOps false) [.ctorInPlace 0 (lit 5#8)] (.init ())).2,
    (run (env Unit scalarOps false) [.ctorInPlace 20 (lit 5#8)] (.init ())).2, ⟨rfl, rfl⟩, ⟨rfl, rfl⟩, nofun⟩
example := C55_same_hash (Γ := env Unit scalarOps false) (Δ := env Unit scalarOps false) (x := 0) (y := 20) (o := some 5#8)
  (w := (run (env Unit scalarOps false) [.ctorInPlace 0 (lit 5#8)] (.init ())).2)
  (u := (run (env Unit scalarOps false) [.ctorInPlace 20 (lit 5#8)] (.init ())).2) (hash := fun v => v.toNat + 1)
  (h := fun v g => (.ok (v.toNat + 1), g)) ⟨rfl, rfl⟩ ⟨rfl, rfl⟩ fun _ _ => rfl

end Verif.Props
