import Verif.Lemmas.Bits
import Verif.Props.Construct
import Verif.Props.Refinement
import Verif.Props.Reserved

/-!
# C22-C25: exploited bit patterns
-/

namespace Verif.Props
open Verif Verif.Model Verif.Spec
variable {G : Type}

/-! ### C22 -/

/-- C22, `double`. Exactly one of the 2^64 patterns is reserved, all others can be stored. -/
theorem C22_double_reserved (nd : Bool) (v : BitVec 64) :
    ((doubleCfg nd).Reserved v ↔ v = 0x7ff8fedcba987654) ∧ ((doubleCfg nd).Storable v ↔ v ≠ 0x7ff8fedcba987654) :=
  ⟨patternCfg_reserved (by decide) _ _ _, patternCfg_storable (by decide) _ _ _⟩

/-- C22, `float`. -/
theorem C22_float_reserved (nd : Bool) (v : BitVec 32) :
    ((floatCfg nd).Reserved v ↔ v = 0x7fedcba9) ∧ ((floatCfg nd).Storable v ↔ v ≠ 0x7fedcba9) :=
  ⟨patternCfg_reserved (by decide) _ _ _, patternCfg_storable (by decide) _ _ _⟩

/-- C22. The reserved pattern is a quiet NaN with a payload that neither the default NaNs (payload 0, either sign) nor the
usual signalling NaNs have. So every number, infinity, default NaN and signalling NaN can be stored in
`optional<double>`. -/
theorem C22_double_ordinary (nd : Bool) (v : BitVec 64)
    (h : binary64.IsFinite v ∨ binary64.IsInf v ∨ (binary64.IsNaN v ∧ ¬ binary64.IsQuietNaN v) ∨ binary64.payload v = 0) :
    (doubleCfg nd).Storable v := by
  rw [(C22_double_reserved nd v).2]
  rintro rfl
  revert h
  decide

/-- C22, `float`. -/
theorem C22_float_ordinary (nd : Bool) (v : BitVec 32)
    (h : binary32.IsFinite v ∨ binary32.IsInf v ∨ (binary32.IsNaN v ∧ ¬ binary32.IsQuietNaN v) ∨ binary32.payload v = 0) :
    (floatCfg nd).Storable v := by
  rw [(C22_float_reserved nd v).2]
  rintro rfl
  revert h
  decide

/-- The reserved patterns are quiet NaNs. 1.0, -0.0, the smallest subnormal, infinity, the default NaNs of x86 and of
`numeric_limits`, and the signalling NaN of `numeric_limits` are covered by `C22_double_ordinary`. -/
theorem C22_sentinels_quiet : binary64.IsQuietNaN sentinelDouble ∧ binary32.IsQuietNaN sentinelFloat := by decide

example : binary64.IsFinite 0x3ff0000000000000#64 ∧ binary64.IsFinite 0x8000000000000000#64 ∧
    binary64.IsFinite 0x0000000000000001#64 ∧ binary64.IsInf 0x7ff0000000000000#64 ∧
    binary64.payload 0x7ff8000000000000#64 = 0 ∧ binary64.payload 0xfff8000000000000#64 = 0 ∧
    (binary64.IsNaN 0x7ff4000000000000#64 ∧ ¬ binary64.IsQuietNaN 0x7ff4000000000000#64) := by decide

/-- 1.0, minus infinity, the default NaN and a signalling NaN, for both types. -/
example (nd : Bool) : (doubleCfg nd).Storable 0x3ff0000000000000#64 ∧ (doubleCfg nd).Storable 0xfff0000000000000#64 ∧
    (doubleCfg nd).Storable 0x7ff8000000000000#64 ∧ (doubleCfg nd).Storable 0x7ff4000000000000#64 ∧
    (floatCfg nd).Storable 0x3f800000#32 ∧ (floatCfg nd).Storable 0xff800000#32 ∧
    (floatCfg nd).Storable 0x7fc00000#32 ∧ (floatCfg nd).Storable 0x7fa00000#32 :=
  ⟨C22_double_ordinary nd _ (by decide), C22_double_ordinary nd _ (by decide), C22_double_ordinary nd _ (by decide),
    C22_double_ordinary nd _ (by decide), C22_float_ordinary nd _ (by decide), C22_float_ordinary nd _ (by decide),
    C22_float_ordinary nd _ (by decide), C22_float_ordinary nd _ (by decide)⟩

/-- C22. `is_empty` on memory holding any of the 2^64 (2^32) patterns. -/
theorem C22_is_empty (nd : Bool) :
    (∀ (v : BitVec 64) (st : Storage (BitVec 64)), (∀ i, i < 8 → st.bytes i = reprLE 8 v i) →
      (doubleCfg nd).isEmpty st = .ok (v == 0x7ff8fedcba987654)) ∧
    (∀ (v : BitVec 32) (st : Storage (BitVec 32)), (∀ i, i < 4 → st.bytes i = reprLE 4 v i) →
      (floatCfg nd).isEmpty st = .ok (v == 0x7fedcba9)) :=
  ⟨fun v _ h => patternCfg_isEmpty (by decide) _ v nd h, fun v _ h => patternCfg_isEmpty (by decide) _ v nd h⟩

/-- C22, layout. The payload has exactly as many bytes as its values have bits to fill (8 for `double` and pointers on x64, 4
for `float` and pointers on x86), all of them meaningful, stored in place; and the reserved pattern covers all of them. -/
theorem C22_sizes (nd : Bool) (s : BitVec 64) :
    (∀ c ∈ [doubleCfg nd, ptr64Cfg nd, doubleSentinelCfg s nd], 8 * c.size = 64 ∧ c.decomp = .inplace ∧
      ∀ (v : BitVec 64) i, (c.repr v i).isSome ↔ i < c.size) ∧
    (∀ c ∈ [floatCfg nd, ptr32Cfg nd], 8 * c.size = 32 ∧ c.decomp = .inplace ∧
      ∀ (v : BitVec 32) i, (c.repr v i).isSome ↔ i < c.size) ∧
    (∀ c ∈ [doubleCfg nd, ptr64Cfg nd], ∃ l, c.manip = .memcpy l ∧ l.length = c.size) ∧
    (∀ c ∈ [floatCfg nd, ptr32Cfg nd], ∃ l, c.manip = .memcpy l ∧ l.length = c.size) ∧
    (doubleSentinelCfg s nd).manip = .assign s (Spec.Fmt.eq Spec.binary64) := by
  refine ⟨?_, ?_, ?_, ?_, rfl⟩ <;>
    simp [doubleCfg, floatCfg, ptr64Cfg, ptr32Cfg, doubleSentinelCfg, patternCfg, reprLE, bytesLE]

/-- The configurations are well formed, so that all theorems about histories apply to them. -/
theorem C22_wf (nd : Bool) : (doubleCfg nd).WF ∧ (floatCfg nd).WF ∧ (ptr64Cfg nd).WF ∧ (ptr32Cfg nd).WF :=
  ⟨patternCfg_wf _ _ _, patternCfg_wf _ _ _, patternCfg_wf _ _ _, patternCfg_wf _ _ _⟩

/-- C22, round trip: in every reachable world, constructing an `optional<double>` from any other pattern yields an optional
that holds exactly this pattern. -/
theorem C22_double_round_trip {Γ : Env (BitVec 64) G} {w : World (BitVec 64) G} (hΓ : EnvWF Γ) (hw : Reach Γ w) {x : Nat} {nd}
    (hx : Absent x w) (hcfg : (Γ x).cfg = doubleCfg nd) (v : BitVec 64) (hv : v ≠ 0x7ff8fedcba987654) :
    ∃ w', execOp Γ (.ctorInPlace x (.ext true (fun g => (.ok v, g)))) w = (.ok .unit, w') ∧ Holds Γ x v w' := by
  obtain ⟨w', h1, _, h2, _⟩ := C05_ctor hΓ hw (c := fun g => (.ok v, g)) hx (nt := true) (fun _ g => ⟨v, rfl⟩) rfl
    (by rw [hcfg]; exact ((C22_double_reserved nd v).2).2 hv)
  exact ⟨w', h1, h2⟩

/-- `C22_double_round_trip` at the start of a program that uses `optional<double>`, for a quiet NaN that differs from the
reserved one in the last bit. -/
example : ∃ w', execOp (fun _ => ⟨doubleCfg false, Examples.scalarOps⟩)
      (.ctorInPlace 3 (.ext true (fun g => (.ok 0x7ff8fedcba987655, g)))) (.init ()) = (.ok .unit, w') ∧
    Holds (fun _ => ⟨doubleCfg false, Examples.scalarOps⟩) 3 0x7ff8fedcba987655 w' :=
  C22_double_round_trip (Γ := fun _ => ⟨doubleCfg false, Examples.scalarOps⟩) (w := .init ())
    ⟨fun _ => patternCfg_wf _ _ _, fun _ => Examples.scalarOps_lawful⟩
    ⟨_, .init ()⟩ rfl rfl _ (by decide)

/-! ### C23 -/

/-- C23. `true` and `false` can be stored in `optional<bool>`, the representation of neither is the reserved byte, and the
payload occupies the whole one-byte storage. -/
theorem C23_bool (nd : Bool) (b : Bool) :
    (boolCfg nd).Storable b ∧ ¬ (boolCfg nd).Reserved b ∧ (boolCfg nd).size = 1 ∧
    boolRepr b 0 ≠ some sentinelBool ∧ boolRepr b 0 = some (if b then 1 else 0) := by
  refine ⟨⟨fun i hi => ?_, 0, by simp [bytesLE], ?_⟩, fun h => ?_, rfl, ?_, rfl⟩
  · have : i = 0 := by simpa using hi
    subst this; exact ⟨_, rfl⟩
  · cases b <;> simp [boolCfg, Config.loc, boolRepr, bytesLE, sentinelBool] <;> decide
  · have := h 0 (by simp [bytesLE])
    cases b <;> simp [boolCfg, Config.loc, boolRepr, bytesLE, sentinelBool] at this <;> revert this <;> decide
  · cases b <;> decide

/-- C23. `is_empty` on memory holding any byte value: only 0xfe is empty. -/
theorem C23_is_empty (nd : Bool) (c : Byte) {st : Storage Bool} (hb : st.bytes 0 = some c) :
    (boolCfg nd).isEmpty st = .ok (c == 0xfe) := by
  show memcmpEq st.bytes 0 [BitVec.extractLsb' 0 8 sentinelBool] = _
  have : BitVec.extractLsb' 0 8 sentinelBool = 0xfe := by decide
  simp [memcmpEq, hb, this]

theorem boolCfg_wf (nd : Bool) : (boolCfg nd).WF where
  fits := .inr ⟨by simp [boolCfg], by simp [boolCfg]⟩
  inside := by simp [boolCfg, Config.loc]
  bytes := by simp [boolCfg, Config.loc]
  sentinelFits := by intro sent h; simp [boolCfg] at h; simp [boolCfg, Config.loc, ← h]
  assignRefl := by simp [boolCfg]
  customRefl := by simp [boolCfg]

/-- C23, drop-in: for `optional<bool>` no value is reserved, so *every* meaningful history behaves as with
`std::optional<bool>`. -/
theorem C23_drop_in {Γ : Env Bool G} {g : G} {h : List (Op Bool G)} {rs sw} (hΓ : EnvWF Γ)
    (hcfg : ∀ x, ∃ nd, (Γ x).cfg = boolCfg nd) (hop : ∀ op ∈ h, OpOK Γ op)
    (hr : specRun (fun x => (Γ x).ops) h (.init g) = some (rs, sw)) (hst : ∀ p ∈ h.zip rs, StepOK p.1 p.2) :
    (run Γ h (.init g)).1 = rs.map SResToRes ∧ Sees Γ (run Γ h (.init g)).2 sw :=
  C01_drop_in hΓ ⟨hop, hr, fun p _ => by
    obtain ⟨nd, hc⟩ := hcfg p.1
    rw [hc]; exact (C23_bool nd p.2).1, hst⟩

/-- `C23_drop_in`: assign `true` to an empty `optional<bool>` and read it; `C23_is_empty` on the byte of `true`. -/
example : (run (fun _ => ⟨boolCfg false, Examples.scalarOps⟩) [.ctorDefault 0,
      .assignVal 0 (.ext (fun _ g => (none, true, g)) true (fun g => (.ok true, g))), .deref 0] (.init ())).1 =
    [.ok .unit, .ok .unit, .ok (.val true)] ∧
    (boolCfg false).isEmpty ⟨fun i => boolRepr true i, none, none⟩ = .ok false :=
  ⟨(C23_drop_in (rs := [.ok .unit, .ok .unit, .ok (.val true)]) (sw := _)
    ⟨fun _ => boolCfg_wf _, fun _ => Examples.scalarOps_lawful⟩ (fun _ => ⟨false, rfl⟩) (by simp [OpOK, AArgLawful]) rfl
    (by intro p hp; simp at hp; rcases hp with rfl | rfl | rfl <;> trivial)).1, C23_is_empty false 1 rfl⟩

/-! ### C24 -/

/-- C24, x64. Exactly one pointer value is reserved; it is not canonical, and the highest non-canonical address, so it is
neither null nor any address the CPU can translate. -/
theorem C24_x64 (nd : Bool) (p : BitVec 64) :
    ((ptr64Cfg nd).Reserved p ↔ p = 0xffff7fffffffffff) ∧ ((ptr64Cfg nd).Storable p ↔ p ≠ 0xffff7fffffffffff) ∧
    (Canonical 48 p → (ptr64Cfg nd).Storable p) ∧ (ptr64Cfg nd).Storable 0 ∧ (¬ Canonical 48 p → p ≤ 0xffff7fffffffffff) := by
  have hs : sentinelPtr64 = 0xffff7fffffffffff := by decide
  have hst : (ptr64Cfg nd).Storable p ↔ p ≠ 0xffff7fffffffffff := by rw [← hs]; exact patternCfg_storable (by decide) _ _ _
  refine ⟨by rw [← hs]; exact patternCfg_reserved (by decide) _ _ _, hst, fun hc => hst.2 ?_, ?_, ?_⟩
  · rintro rfl
    revert hc
    decide
  · refine (patternCfg_storable (by decide) _ _ _).2 (by decide)
  · intro hn
    apply Classical.byContradiction
    intro hgt
    apply hn
    have hge : 0xffff800000000000 ≤ p.toNat := by
      have : ¬ p.toNat ≤ 0xffff7fffffffffff := hgt
      omega
    apply BitVec.eq_of_toInt_eq
    rw [BitVec.toInt_signExtend_of_le (by decide)]
    have h1 : p.toInt = p.toNat - 2 ^ 64 := by
      rw [BitVec.toInt_eq_toNat_cond, if_neg (by omega)]
      rfl
    have hlt := p.isLt
    have h2 : (p.setWidth 48).toNat = p.toNat - 0xffff000000000000 := by
      rw [BitVec.toNat_setWidth]; omega
    rw [h1, BitVec.toInt_eq_toNat_cond, h2, if_neg (by omega)]
    omega

/-- C24, x86. The reserved value is odd, not null and none of the pseudo handles -1 ... -6. -/
theorem C24_x86 (nd : Bool) (p : BitVec 32) :
    ((ptr32Cfg nd).Reserved p ↔ p = 0xfffffff7) ∧ ((ptr32Cfg nd).Storable p ↔ p ≠ 0xfffffff7) ∧
    (ptr32Cfg nd).Storable 0 ∧ (∀ k : Int, -6 ≤ k → k ≤ -1 → (ptr32Cfg nd).Storable (BitVec.ofInt 32 k)) ∧
    (p.toNat % 2 = 0 → (ptr32Cfg nd).Storable p) := by
  have hs : sentinelPtr32 = 0xfffffff7 := by decide
  have hst : ∀ p, (ptr32Cfg nd).Storable p ↔ p ≠ 0xfffffff7 := by
    intro p; rw [← hs]; exact patternCfg_storable (by decide) _ _ _
  refine ⟨by rw [← hs]; exact patternCfg_reserved (by decide) _ _ _, hst p, (hst 0).2 (by decide), ?_, ?_⟩
  · intro k h1 h2
    rw [hst]
    have : k = -6 ∨ k = -5 ∨ k = -4 ∨ k = -3 ∨ k = -2 ∨ k = -1 := by omega
    rcases this with rfl | rfl | rfl | rfl | rfl | rfl <;> decide
  · intro h
    rw [hst]
    rintro rfl
    revert h; decide

/-- C24. Pointers to 2-byte aligned objects can always be stored on x64. -/
theorem C24_x64_aligned (nd : Bool) (p : BitVec 64) (h : p.toNat % 2 = 0) : (ptr64Cfg nd).Storable p := by
  rw [(C24_x64 nd p).2.1]
  rintro rfl
  revert h; decide

/-- C24, a remark on 5-level paging: with 57 implemented address bits the reserved value *is* canonical, but lies in the
upper (kernel) half; no user-space address is affected. -/
theorem C24_five_level (nd : Bool) (p : BitVec 64) (h : p.toNat < 2 ^ 56) :
    Canonical 57 0xffff7fffffffffff ∧ (ptr64Cfg nd).Storable p := by
  refine ⟨by decide, ?_⟩
  rw [(C24_x64 nd p).2.1]
  rintro rfl
  revert h; decide

example : Canonical 48 0x00007fffffffffff#64 ∧ Canonical 48 0xffff800000000000#64 ∧ ¬ Canonical 48 0x0000800000000000#64 ∧
    ¬ Canonical 48 0xffff7fffffffffff#64 := by decide

/-- The address of an aligned object, and the highest address of user space with 5-level paging. -/
example (nd : Bool) : (ptr64Cfg nd).Storable 0x00007fffdeadbee0#64 ∧ (ptr64Cfg nd).Storable 0x00ffffffffffffff#64 :=
  ⟨C24_x64_aligned nd _ (by decide), (C24_five_level nd _ (by decide)).2⟩

/-! ### C25 -/

/-- C25. An operation whose result is the reserved `double` pattern has an operand that is a NaN carrying the payload of the
reserved pattern. -/
theorem C25_double_op {args : List (BitVec 64)} (h : binary64.Yields args sentinelDouble) :
    ∃ a ∈ args, binary64.IsNaN a ∧ binary64.payload a = binary64.payload sentinelDouble := by
  generalize hr : sentinelDouble = r at h
  cases h with
  | number r h => subst hr; exact absurd h (by decide)
  | indefinite r h hp => subst hr; exact absurd hp (by decide)
  | propagate a ha hn =>
    exact ⟨a, ha, hn, by rw [← payload_quiet binary64 a]⟩
  | sign a r ha h =>
    subst hr
    exact ⟨a, ha, (isNaN_of_agree binary64 h).1 (by decide), (payload_of_agree binary64 h).symm⟩

/-- C25, `float`. -/
theorem C25_float_op {args : List (BitVec 32)} (h : binary32.Yields args sentinelFloat) :
    ∃ a ∈ args, binary32.IsNaN a ∧ binary32.payload a = binary32.payload sentinelFloat := by
  generalize hr : sentinelFloat = r at h
  cases h with
  | number r h => subst hr; exact absurd h (by decide)
  | indefinite r h hp => subst hr; exact absurd hp (by decide)
  | propagate a ha hn =>
    exact ⟨a, ha, hn, by rw [← payload_quiet binary32 a]⟩
  | sign a r ha h =>
    subst hr
    exact ⟨a, ha, (isNaN_of_agree binary32 h).1 (by decide), (payload_of_agree binary32 h).symm⟩

/-- Values that are not NaNs with (the upper part of) a reserved payload. -/
def Clean : FVal → Prop
  | .d v => binary64.IsNaN v → binary64.payload v ≠ binary64.payload sentinelDouble ∧
      (binary64.payload v).toNat / 2 ^ 29 ≠ (binary32.payload sentinelFloat).toNat
  | .f v => binary32.IsNaN v → binary32.payload v ≠ binary32.payload sentinelFloat

/-- C25. Clean inputs stay clean: no program manufactures the reserved patterns, after any number of arithmetic operations,
sign operations and conversions between `double` and `float`. -/
theorem C25_programs {init : FVal → Prop} (hi : ∀ v, init v → Clean v) {v : FVal} (h : Computes init v) :
    Clean v ∧ v ≠ .d sentinelDouble ∧ v ≠ .f sentinelFloat := by
  have key : Clean v := by
    induction h with
    | input v h => exact hi v h
    | opD args r _ hy ih =>
      intro hn
      cases hy with
      | number _ h => exact absurd hn h
      | indefinite _ _ hp => rw [hp]; exact ⟨by decide, by decide⟩
      | propagate a ha hna => rw [payload_quiet binary64 a]; exact ih a ha hna
      | sign a _ ha h => rw [payload_of_agree binary64 h]; exact ih a ha ((isNaN_of_agree binary64 h).1 hn)
    | opF args r _ hy ih =>
      intro hn
      cases hy with
      | number _ h => exact absurd hn h
      | indefinite _ _ hp => rw [hp]; decide
      | propagate a ha hna => rw [payload_quiet binary32 a]; exact ih a ha hna
      | sign a _ ha h => rw [payload_of_agree binary32 h]; exact ih a ha ((isNaN_of_agree binary32 h).1 hn)
    | numD r h => exact fun hn => absurd hn h
    | numF r h => exact fun hn => absurd hn h
    | narrow a r _ hna _ hp ih =>
      intro _ heq
      exact (ih hna).2 (by rw [← hp, heq])
    | widen a r _ hna _ hp ih =>
      intro _
      have hc := ih hna
      have hs : (binary64.payload sentinelDouble).toNat % 2 ^ 29 ≠ 0 := by decide
      constructor
      · intro heq
        rw [heq] at hp
        omega
      · intro heq
        apply hc
        apply BitVec.eq_of_toNat_eq
        omega
  refine ⟨key, ?_, ?_⟩
  · rintro rfl
    exact (key (by decide)).1 rfl
  · rintro rfl
    exact key (by decide) rfl

/-- C25, corollary: if all inputs are numbers, infinities or default NaNs (of either sign), no computed value is reserved, so
all of them can be stored in `optional<double>` / `optional<float>`. -/
theorem C25_default_inputs {init : FVal → Prop}
    (hd : ∀ v, init (.d v) → ¬ binary64.IsNaN v ∨ binary64.payload v = 0)
    (hf : ∀ v, init (.f v) → ¬ binary32.IsNaN v ∨ binary32.payload v = 0) (nd : Bool) :
    (∀ v, Computes init (.d v) → (doubleCfg nd).Storable v) ∧ (∀ v, Computes init (.f v) → (floatCfg nd).Storable v) := by
  have hi : ∀ v, init v → Clean v := by
    intro v h
    cases v with
    | d v =>
      intro hn
      rcases hd v h with h | h
      · exact absurd hn h
      · rw [h]; exact ⟨by decide, by decide⟩
    | f v =>
      intro hn
      rcases hf v h with h | h
      · exact absurd hn h
      · rw [h]; decide
  refine ⟨fun v h => ((C22_double_reserved nd v).2).2 ?_, fun v h => ((C22_float_reserved nd v).2).2 ?_⟩
  · intro hv
    exact (C25_programs hi h).2.1 (by rw [hv]; rfl)
  · intro hv
    exact (C25_programs hi h).2.2 (by rw [hv]; rfl)

/-- The default NaN results from 0/0, survives further operations and conversions; a NaN whose payload is that of the
reserved `float` does become reserved by a conversion, so `Clean` cannot be dropped. -/
example : binary64.Yields [0#64, 0#64] 0xfff8000000000000#64 ∧
    Computes (fun v => v = .d 0xfff8000000000000#64) (.f 0xffc00000#32) ∧
    Computes (fun v => v = .d 0x7ffdb97520000000#64) (.f sentinelFloat) ∧ ¬ Clean (.d 0x7ffdb97520000000#64) :=
  ⟨.indefinite _ (by decide) (by decide), .narrow _ _ (.input _ rfl) (by decide) (by decide) (by decide),
    .narrow _ _ (.input _ rfl) (by decide) (by decide) (by decide), fun h => (h (by decide)).2 (by decide)⟩

/-- `C25_double_op`, `C25_float_op`: the reserved patterns do result, by adding 1.0 to a signalling NaN with their payload. -/
example : (∃ a ∈ [0x7ff0fedcba987654#64, 0x3ff0000000000000#64], binary64.IsNaN a ∧
      binary64.payload a = binary64.payload sentinelDouble) ∧
    ∃ a ∈ [0x7fadcba9#32, 0x3f800000#32], binary32.IsNaN a ∧ binary32.payload a = binary32.payload sentinelFloat :=
  ⟨C25_double_op (Fmt.Yields.propagate (f := binary64) 0x7ff0fedcba987654#64 (by simp) (by decide)),
    C25_float_op (Fmt.Yields.propagate (f := binary32) 0x7fadcba9#32 (by simp) (by decide))⟩

/-- `C25_default_inputs`: inputs 0.0 and the default NaN; `C25_programs` for the conversion to `float`. -/
example : Clean (.f 0xffc00000#32) ∧ (floatCfg false).Storable 0xffc00000#32 :=
  have h : Computes (fun v => v = .d 0#64 ∨ v = .d 0xfff8000000000000#64) (.f 0xffc00000#32) :=
    .narrow _ _ (.opD [0#64, 0#64] _ (by intro a ha; simp at ha; subst ha; exact .input _ (.inl rfl))
      (.indefinite 0xfff8000000000000#64 (by decide) (by decide))) (by decide) (by decide) (by decide)
  ⟨(C25_programs (by rintro v (rfl | rfl) <;> intro hn <;> revert hn <;> decide) h).1,
    (C25_default_inputs (by rintro v (h | h) <;> cases h <;> decide) (by rintro v (h | h) <;> cases h) false).2 _ h⟩

/-! ### C35 for floating point sentinels -/

/-- C35, `optional<double, sentinel>`: default construction yields an empty optional iff the sentinel is not a NaN. -/
theorem C35_double {Γ : Env (BitVec 64) G} {w : World (BitVec 64) G} {x : Nat} {sv : BitVec 64} {nd}
    (hc : (Γ x).cfg = doubleSentinelCfg sv nd) (hx : Absent x w) :
    (∃ w', execOp Γ (.ctorDefault x) w = (.ok .unit, w') ∧ IsEmpty Γ x w') ↔ ¬ binary64.IsNaN sv := by
  have hm : (Γ x).cfg.manip = .assign sv (Fmt.eq binary64) := by rw [hc]; rfl
  have hself : Fmt.eq binary64 sv sv = decide (¬ binary64.IsNaN sv) := by simp [Fmt.eq]
  obtain ⟨w', h⟩ := C35_default (.inl hm) (by rw [hc]; simp [doubleSentinelCfg, Config.loc]) hx
  rw [hself] at h
  by_cases hn : binary64.IsNaN sv
  · simp only [hn, not_true_eq_false, decide_false, Bool.false_eq_true, if_false, iff_false, not_exists, not_and] at h ⊢
    intro w'' h1 h2
    by_cases hnd : (Γ x).cfg.ndebug
    · simp only [hnd, if_true] at h
      rw [h.1] at h1
      simp only [Prod.mk.injEq, true_and] at h1
      subst h1
      rw [IsEmpty, h.2.1] at h2
      simp at h2
    · simp only [hnd, Bool.false_eq_true, if_false] at h
      rw [h] at h1
      simp at h1
  · simp only [hn, not_false_eq_true, decide_true, if_true, iff_true] at h ⊢
    exact ⟨w', h⟩

/-- C35, C27: which values a floating point sentinel reserves. A non-NaN sentinel reserves itself; a zero reserves both
zeros, although only one was given; a NaN sentinel reserves nothing. -/
theorem C35_double_reserved (sv v : BitVec 64) (nd : Bool) :
    (doubleSentinelCfg sv nd).Reserved v ↔ ¬ binary64.IsNaN sv ∧ (v = sv ∨ (binary64.IsZero sv ∧ binary64.IsZero v)) := by
  show Fmt.eq binary64 v sv = true ↔ _
  simp only [Fmt.eq, decide_eq_true_eq]
  constructor
  · rintro ⟨h1, h2, h3 | h3⟩
    · exact ⟨h2, .inl h3⟩
    · exact ⟨h2, .inr ⟨h3.2, h3.1⟩⟩
  · rintro ⟨h1, rfl | ⟨h2, h3⟩⟩
    · exact ⟨h1, h1, .inl rfl⟩
    · refine ⟨fun hn => hn.2 h3.2, h1, .inr ⟨h3, h2⟩⟩

example : binary64.IsNaN 0x7ff8000000000000#64 ∧ ¬ binary64.IsNaN 0x4045000000000000#64 ∧
    (doubleSentinelCfg 0 true).Reserved 0x8000000000000000 ∧ binary64.IsZero 0x8000000000000000#64 := by
  refine ⟨by decide, by decide, ?_, by decide⟩
  rw [C35_double_reserved]
  decide

/-- `C35_double` at the start of a program, for the sentinels 42.0 and NaN. -/
example (sv : BitVec 64) : (∃ w', execOp (fun _ => ⟨doubleSentinelCfg sv true, Examples.scalarOps⟩) (.ctorDefault 3) (.init ()) =
      (.ok .unit, w') ∧ IsEmpty (fun _ => ⟨doubleSentinelCfg sv true, Examples.scalarOps⟩) 3 w') ↔ ¬ binary64.IsNaN sv :=
  C35_double (Γ := fun _ => ⟨doubleSentinelCfg sv true, Examples.scalarOps⟩) (w := .init ()) rfl rfl

end Verif.Props
