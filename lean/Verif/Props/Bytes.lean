import Verif.Lemmas.FlagBytes
import Verif.Examples

/-! # C84: the bytes of an optional -/

namespace Verif.Props
open Verif Verif.Model
open Verif.Spec (Represented FlagByte emptyByte DataByte EmptyValue FlagTells BytesTell)

section
variable {V G G' : Type} {Γ : Env V G} {Γ' : Env V G'} {x y : Nat} {w : World V G} {w' : World V G'} {s t : Storage V}

/-- C84. At any time, whatever has been called (correctly or not), the bytes of every optional are those of the object in it. -/
theorem C84_represented (Γ : Env V G) (h : List (Op V G)) (g : G) (x : Nat) (s : Storage V) (hs : (run Γ h (.init g)).2.mem x = some s) :
    Represented (Γ x).cfg s :=
  represented_run Γ h (w := .init g) (fun _ _ e => nomatch e) x s hs

private theorem flag_data {c : Config V} (hc : c.WF) {j : Nat} (h : FlagByte c j) : DataByte c j := by
  have hin := hc.inside
  unfold FlagByte at h
  unfold DataByte
  cases hm : c.manip with
  | separate => rw [hm] at h; exact .inr ⟨rfl, h⟩
  | memcpy sent => rw [hm] at h; have := hc.sentinelFits sent hm; dsimp only at h; exact .inl (by omega)
  | assign e eq => rw [hm] at h; dsimp only at h; exact .inl (by omega)
  | custom p e => rw [hm] at h; dsimp only at h; exact .inl (by omega)

private theorem emp_bytes {c : Config V} (hr : Represented c s) (h : Emp c s) (j : Nat) (hj : FlagByte c j) : s.bytes j = emptyByte c j := by
  have h2 := h.2
  unfold FlagByte at hj
  unfold emptyByte
  cases hm : c.manip with
  | separate => rw [hm] at hj h2; subst hj; exact h2.2
  | memcpy sent =>
    rw [hm] at hj h2
    dsimp only at hj h2 ⊢
    have := h2.2 (j - c.loc.off) (by omega)
    rw [show c.loc.off + (j - c.loc.off) = j by omega] at this
    rw [this, List.getElem?_eq_getElem]
  | assign e eq =>
    rw [hm] at hj h2
    dsimp only at hj h2 ⊢
    obtain ⟨id, hf⟩ := h2
    have := hr.flag _ hf e rfl (j - c.loc.off) (by omega)
    rwa [show c.loc.off + (j - c.loc.off) = j by omega] at this
  | custom p e =>
    rw [hm] at hj h2
    dsimp only at hj h2 ⊢
    obtain ⟨id, hf⟩ := h2
    have := hr.flag _ hf e rfl (j - c.loc.off) (by omega)
    rwa [show c.loc.off + (j - c.loc.off) = j by omega] at this

private theorem full_bytes {c : Config V} (hc : c.WF) (ht : FlagTells c) {v : V} (h : Full c s v) : ∃ j, FlagByte c j ∧ s.bytes j ≠ emptyByte c j := by
  obtain ⟨-, -, hb, h0, hst⟩ := h
  have hin := hc.inside
  unfold FlagByte emptyByte
  cases hm : c.manip with
  | separate => exact ⟨c.size, rfl, by rw [h0 hm]; simp⟩
  | memcpy sent =>
    have h1 := hc.sentinelFits sent hm
    unfold Config.Storable at hst
    rw [hm] at hst
    obtain ⟨i, hi, hne⟩ := hst.2
    refine ⟨c.loc.off + i, ⟨Nat.le_add_right _ _, by omega⟩, ?_⟩
    dsimp only
    rw [hb _ (by omega), Nat.add_sub_cancel_left, List.getElem?_eq_getElem hi]
    exact hne
  | assign e eq =>
    obtain ⟨i, hi, hne⟩ := ht e (.inl ⟨eq, hm⟩) v hst
    refine ⟨c.loc.off + i, ⟨Nat.le_add_right _ _, by omega⟩, ?_⟩
    dsimp only
    rw [hb _ (by omega), Nat.add_sub_cancel_left]
    exact hne
  | custom p e =>
    obtain ⟨i, hi, hne⟩ := ht e (.inr ⟨p, hm⟩) v hst
    refine ⟨c.loc.off + i, ⟨Nat.le_add_right _ _, by omega⟩, ?_⟩
    dsimp only
    rw [hb _ (by omega), Nat.add_sub_cancel_left]
    exact hne

/-- An existing optional is empty or holds a value. -/
private theorem either (hΓ : EnvWF Γ) (h : Reach Γ w) (hs : w.mem x = some s) :
    (IsEmpty Γ x w ∧ (∀ v, ¬ Holds Γ x v w) ∧ Emp (Γ x).cfg s) ∨ ∃ v, (∀ u, Holds Γ x u w ↔ u = v) ∧ ¬ IsEmpty Γ x w ∧ Full (Γ x).cfg s v := by
  obtain ⟨sw, hR, _⟩ := h.rel hΓ
  have hrel := hR.rel x
  rcases hx : sw.vars x with _ | (_ | v)
  · rw [hR.absent hx] at hs; cases hs
  · refine .inl ⟨(hR.isEmpty_iff hΓ).2 hx, fun v hv => ?_, ?_⟩
    · rw [hR.holds_iff hΓ, hx] at hv; cases hv
    · obtain ⟨s', hs', he⟩ := hR.emp hx
      rw [hs] at hs'; cases hs'; exact he
  · refine .inr ⟨v, fun u => ?_, fun he => ?_, ?_⟩
    · rw [hR.holds_iff hΓ, hx]; exact ⟨fun e => by cases e; rfl, fun e => by rw [e]⟩
    · rw [hR.isEmpty_iff hΓ, hx] at he; cases he
    · obtain ⟨s', hs', he⟩ := hR.full hx
      rw [hs] at hs'; cases hs'; exact he

/-- C84. An empty optional has the flag bytes of an empty one. -/
theorem C84_empty_bytes (hΓ : EnvWF Γ) (h : Reach Γ w) (hs : w.mem x = some s) (he : IsEmpty Γ x w) (j : Nat) (hj : FlagByte (Γ x).cfg j) :
    s.bytes j = emptyByte (Γ x).cfg j := by
  rcases either hΓ h hs with ⟨_, _, hE⟩ | ⟨v, _, hn, _⟩
  · exact emp_bytes (h.represented x s hs) hE j hj
  · exact absurd he hn

/-- C84. And only an empty optional has them, if no value that may be stored has the flag bytes of the value for "empty". -/
theorem C84_empty_iff (hΓ : EnvWF Γ) (h : Reach Γ w) (hs : w.mem x = some s) (ht : FlagTells (Γ x).cfg) :
    IsEmpty Γ x w ↔ ∀ j, FlagByte (Γ x).cfg j → s.bytes j = emptyByte (Γ x).cfg j := by
  refine ⟨C84_empty_bytes hΓ h hs, fun hb => ?_⟩
  rcases either hΓ h hs with ⟨he, _⟩ | ⟨v, _, _, hF⟩
  · exact he
  · obtain ⟨j, hj, hne⟩ := full_bytes (hΓ.cfg x) ht hF
    exact absurd (hb j hj) hne

/-- C84. The payload bytes of an optional that holds `v` are those of `v`; a separate flag is `false`. -/
theorem C84_value_bytes (hΓ : EnvWF Γ) (h : Reach Γ w) (hs : w.mem x = some s) {v : V} (hv : Holds Γ x v w) :
    (∀ i, i < (Γ x).cfg.size → s.bytes i = (Γ x).cfg.repr v i) ∧ ((Γ x).cfg.manip = .separate → s.bytes (Γ x).cfg.size = some 0#8) := by
  rcases either hΓ h hs with ⟨_, hn, _⟩ | ⟨u, hu, _, hF⟩
  · exact absurd hv (hn v)
  · rw [(hu v).1 hv]
    exact ⟨hF.2.2.1, hF.2.2.2.1⟩

/-- C84. Optionals of one type with the same bytes, possibly in different programs or at different times, are both empty or hold the same
value. -/
theorem C84_same_bytes (hΓ : EnvWF Γ) (hΓ' : EnvWF Γ') (h : Reach Γ w) (h' : Reach Γ' w') (hc : (Γ' y).cfg = (Γ x).cfg)
    (ht : FlagTells (Γ x).cfg) (hb : BytesTell (Γ x).cfg) (hs : w.mem x = some s) (hs' : w'.mem y = some t)
    (heq : ∀ j, DataByte (Γ x).cfg j → s.bytes j = t.bytes j) :
    (IsEmpty Γ x w ↔ IsEmpty Γ' y w') ∧ ∀ v, Holds Γ x v w ↔ Holds Γ' y v w' := by
  have hwf := hΓ.cfg x
  have he : IsEmpty Γ x w ↔ IsEmpty Γ' y w' := by
    rw [C84_empty_iff hΓ h hs ht, C84_empty_iff hΓ' h' hs' (by rw [hc]; exact ht), hc]
    exact forall_congr' fun j => ⟨fun k hj => (heq j (flag_data hwf hj)).symm.trans (k hj), fun k hj => (heq j (flag_data hwf hj)).trans (k hj)⟩
  refine ⟨he, fun v => ?_⟩
  rcases either hΓ h hs with ⟨h1, h2, _⟩ | ⟨u, hu, hn, hF⟩ <;> rcases either hΓ' h' hs' with ⟨h1', h2', _⟩ | ⟨u', hu', hn', hF'⟩
  · exact ⟨fun k => absurd k (h2 v), fun k => absurd k (h2' v)⟩
  · exact absurd (he.1 h1) hn'
  · exact absurd (he.2 h1') hn
  · rw [hc] at hF'
    have : u = u' := hb u u' hF.2.2.2.2 hF'.2.2.2.2 fun i hi => by
      rw [← hF.2.2.1 i hi, ← hF'.2.2.1 i hi]
      exact heq i (.inl hi)
    rw [hu, hu', this]

/-- C84. Optionals of one type with the same value have the same bytes. -/
theorem C84_same_value (hΓ : EnvWF Γ) (hΓ' : EnvWF Γ') (h : Reach Γ w) (h' : Reach Γ' w') (hc : (Γ' y).cfg = (Γ x).cfg)
    (hs : w.mem x = some s) (hs' : w'.mem y = some t) {v : V} (hv : Holds Γ x v w) (hv' : Holds Γ' y v w') (j : Nat)
    (hj : DataByte (Γ x).cfg j) : s.bytes j = t.bytes j := by
  obtain ⟨a, b⟩ := C84_value_bytes hΓ h hs hv
  obtain ⟨a', b'⟩ := C84_value_bytes hΓ' h' hs' hv'
  rw [hc] at a' b'
  rcases hj with hj | ⟨hm, rfl⟩
  · rw [a j hj, a' j hj]
  · rw [b hm, b' hm]

/-- C84. Empty optionals of one type have the same flag bytes. -/
theorem C84_both_empty (hΓ : EnvWF Γ) (hΓ' : EnvWF Γ') (h : Reach Γ w) (h' : Reach Γ' w') (hc : (Γ' y).cfg = (Γ x).cfg)
    (hs : w.mem x = some s) (hs' : w'.mem y = some t) (hv : IsEmpty Γ x w) (hv' : IsEmpty Γ' y w') (j : Nat)
    (hj : FlagByte (Γ x).cfg j) : s.bytes j = t.bytes j := by
  rw [C84_empty_bytes hΓ h hs hv j hj, C84_empty_bytes hΓ' h' hs' hv' j (by rw [hc]; exact hj), hc]

end

/-! ### Concrete cases -/

section
open Verif.Examples

private theorem sent_tells : FlagTells (exEnv 20).cfg := by
  rintro e (⟨eq, he⟩ | ⟨p, he⟩) v hv
  · cases he
    refine ⟨0, Nat.zero_lt_one, ?_⟩
    simpa [Config.Storable, env, sentCfg, Config.loc, byteRepr] using hv
  · cases he

private theorem sent_bytes : BytesTell (exEnv 20).cfg := fun u v _ _ h => by
  simpa [env, sentCfg, byteRepr] using h 0 Nat.zero_lt_one

/-- 20 holds 5 in two programs; the hypotheses of `C84_same_value`, `C84_same_bytes`, `C84_value_bytes` can be met. -/
private theorem same (j : Nat) (hj : DataByte (exEnv 20).cfg j) : (exWorld.mem 20).map (·.bytes j) = (exWorldS.mem 20).map (·.bytes j) := by
  obtain ⟨s, hs⟩ : ∃ s, exWorld.mem 20 = some s := ⟨_, rfl⟩
  obtain ⟨t, ht⟩ : ∃ t, exWorldS.mem 20 = some t := ⟨_, rfl⟩
  rw [hs, ht]
  exact congrArg some (C84_same_value exEnv_wf (env_wf scalarOps_lawful false) ex_reach exS_reach rfl hs ht (v := 5#8) ex20 ⟨rfl, rfl⟩ j hj)

example : IsEmpty exEnv 20 exWorld ↔ IsEmpty (env Unit scalarOps false) 20 exWorldS :=
  (C84_same_bytes exEnv_wf (env_wf scalarOps_lawful false) ex_reach exS_reach rfl sent_tells sent_bytes rfl rfl fun j hj =>
    Option.some.inj (same j hj)).1

/-- Optional 21 is empty: its byte is 42. -/
example := C84_empty_bytes exEnv_wf ex_reach rfl ex21 0 ⟨Nat.le_refl _, Nat.zero_lt_one⟩
example : (exWorld.mem 21).map (·.bytes 0) = some (some 42#8) := rfl
example := C84_both_empty exEnv_wf (env_wf scalarOps_lawful false) (x := 21) (y := 21) ex_reach exS_reach rfl rfl rfl ex21 rfl 0
  ⟨Nat.le_refl _, Nat.zero_lt_one⟩

/-- Optional 20 is not: its byte is another one. -/
example : ¬ ∀ j, FlagByte (exEnv 20).cfg j → (fun j => if j = 0 then some 5#8 else none) j = emptyByte (exEnv 20).cfg j := by
  intro h
  have := h 0 ⟨Nat.le_refl _, Nat.zero_lt_one⟩
  revert this
  decide

/-- `C84_empty_iff` for it. -/
example := C84_empty_iff exEnv_wf ex_reach (x := 20) rfl sent_tells

/-- The other bytes of an empty optional say nothing: after `emplace` and `reset`, the payload byte next to a separate flag is
indeterminate. -/
example : ((run exEnv [.ctorInPlace 0 (lit 5#8), .reset 0] (.init [])).2.mem 0).map (fun s => (s.bytes 0, s.bytes 1)) = some (none, some 1#8) := rfl

/-- It is necessary that the flag bytes tell: a type whose bytes are always the same (its value is stored elsewhere), with sentinel 42. -/
private def mute : Env (BitVec 8) Unit := fun _ => ⟨⟨1, fun _ _ => some 0#8, .inplace, .assign 42#8 (· == ·), false⟩, scalarOps⟩

example : IsEmpty mute 0 (run mute [.ctorDefault 0] (.init ())).2 ∧ Holds mute 0 5#8 (run mute [.ctorInPlace 0 (lit 5#8)] (.init ())).2 ∧
    ((run mute [.ctorDefault 0] (.init ())).2.mem 0).map (·.bytes 0) = ((run mute [.ctorInPlace 0 (lit 5#8)] (.init ())).2.mem 0).map (·.bytes 0) :=
  ⟨rfl, ⟨rfl, rfl⟩, rfl⟩

end
end Verif.Props
