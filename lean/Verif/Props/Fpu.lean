import Verif.Props.Bits
import Verif.Props.Provenance
import Verif.Spec.Fpu

/-!
# C86: `optional<double>` and `optional<float>` with copies through x87 registers
-/

namespace Verif.Props
open Verif Verif.Model Verif.Spec
variable {W : Nat} {G : Type}

theorem quiet_eq {f : Fmt} {v s : BitVec W} (h : f.quiet v = s) : v = s ∨ v = s &&& ~~~ BitVec.twoPow W (f.m - 1) := by
  subst h
  by_cases hb : v.getLsbD (f.m - 1) = true
  · left
    apply BitVec.eq_of_getLsbD_eq
    intro i hi
    simp only [Fmt.quiet, BitVec.getLsbD_or, BitVec.getLsbD_twoPow]
    by_cases h : f.m - 1 = i
    · subst h; simp [hb]
    · simp [h]
  · right
    apply BitVec.eq_of_getLsbD_eq
    intro i hi
    simp only [Fmt.quiet, BitVec.getLsbD_and, BitVec.getLsbD_not, BitVec.getLsbD_or, BitVec.getLsbD_twoPow, hi, decide_true, Bool.true_and]
    by_cases h : f.m - 1 = i
    · subst h; simpa [hi] using hb
    · simp [h]

/-- The values without the payload of the NaN `s`. -/
def Without (f : Fmt) (s v : BitVec W) : Prop := f.IsNaN v → f.payload v ≠ f.payload s

theorem Without.copied {f : Fmt} {s v a : BitVec W} (h : Without f s v) (hc : f.Copied v a) : Without f s a := by
  rcases hc with rfl | ⟨hn, rfl⟩
  · exact h
  · intro _; rw [payload_quiet]; exact h hn

theorem copiesFloats_copy {f : Fmt} {o : Ops (BitVec W) G} (h : CopiesFloats f o) (s : BitVec W) : KeepsCopy o (Without f s) (Without f s) where
  ctor v g a hv ha := by
    obtain ⟨b, hb, hc⟩ := h.copyCtor v g
    rw [hb] at ha; cases ha; exact hv.copied hc
  assign d v g _ hv := hv.copied (h.copyAssign d v g).2
  self v g hv := hv.copied (h.selfCopyAssign v g).2

theorem copiesFloats_move {f : Fmt} {o : Ops (BitVec W) G} (h : CopiesFloats f o) (s : BitVec W) : KeepsMove o (Without f s) (Without f s) where
  ctor v g a hv ha := by
    obtain ⟨_, b, hb, hc⟩ := h.moveCtor v g
    rw [hb] at ha; cases ha; exact hv.copied hc
  movedFrom v g hv := by rw [(h.moveCtor v g).1]; exact hv
  assign d v g _ hv := by
    obtain ⟨_, h1, h2⟩ := h.moveAssign d v g
    exact ⟨hv.copied h1, by rw [h2]; exact hv⟩
  self v g hv := hv.copied (h.selfMoveAssign v g).2

theorem copiesFloats_swap {f : Fmt} {o : Ops (BitVec W) G} (h : CopiesFloats f o) (s : BitVec W) : KeepsSwap o (Without f s) (Without f s) where
  swap a b g ha hb := ⟨hb.copied (h.swap a b g).2.1, ha.copied (h.swap a b g).2.2⟩
  self v g hv := hv.copied (h.selfSwap v g).2
  there := copiesFloats_move h s
  back := copiesFloats_move h s

theorem quiet_quiet (f : Fmt) (v : BitVec W) : f.quiet (f.quiet v) = f.quiet v := by
  simp [Fmt.quiet, BitVec.or_assoc]

theorem quiet_of_bit {f : Fmt} {v : BitVec W} (h : v.getLsbD (f.m - 1) = true) : f.quiet v = v := by
  apply BitVec.eq_of_getLsbD_eq
  intro i hi
  simp only [Fmt.quiet, BitVec.getLsbD_or, BitVec.getLsbD_twoPow]
  by_cases h' : f.m - 1 = i
  · subst h'; simp [h]
  · simp [h']

theorem bit_quiet {f : Fmt} (hw : f.m - 1 < W) (v : BitVec W) : (f.quiet v).getLsbD (f.m - 1) = true := by
  simp [Fmt.quiet, hw]

/-- A pattern with the bit cleared. -/
theorem clear_facts {f : Fmt} (hm : 0 < f.m) (hw : f.m < W) {s : BitVec W} (hb : s.getLsbD (f.m - 1) = true) :
    let v := s &&& ~~~ BitVec.twoPow W (f.m - 1)
    f.quiet v = s ∧ f.exponent v = f.exponent s ∧ f.payload v = f.payload s ∧ v.getLsbD (f.m - 1) = false := by
  intro v
  have hq : f.quiet v = s := by
    apply BitVec.eq_of_getLsbD_eq
    intro i hi
    simp only [v, Fmt.quiet, BitVec.getLsbD_or, BitVec.getLsbD_and, BitVec.getLsbD_not, BitVec.getLsbD_twoPow, hi, decide_true, Bool.true_and]
    by_cases h' : f.m - 1 = i
    · subst h'; simp [hb, hi]
    · simp [h']
  refine ⟨hq, ?_, ?_, ?_⟩
  · rw [← hq, exponent_quiet f v hm]
  · rw [← hq, payload_quiet]
  · simp [v, show f.m - 1 < W by omega]

theorem mantissa_zero {f : Fmt} {v : BitVec W} (hm : 0 < f.m) :
    f.mantissa v = 0#f.m ↔ f.payload v = 0 ∧ v.getLsbD (f.m - 1) = false := by
  constructor
  · intro h
    have hi : ∀ i, i < f.m → v.getLsbD i = false := fun i hi => by
      have := congrArg (·.getLsbD i) h
      simpa [Fmt.mantissa, BitVec.getLsbD_extractLsb', hi] using this
    refine ⟨?_, hi _ (by omega)⟩
    apply BitVec.eq_of_getLsbD_eq
    intro i h'
    simp [Fmt.payload, BitVec.getLsbD_extractLsb', hi i (by omega)]
  · rintro ⟨h, hb⟩
    apply BitVec.eq_of_getLsbD_eq
    intro i hi
    by_cases h' : i = f.m - 1
    · subst h'; simp [Fmt.mantissa, BitVec.getLsbD_extractLsb', hb]
    · have := congrArg (·.getLsbD i) h
      simpa [Fmt.mantissa, Fmt.payload, BitVec.getLsbD_extractLsb', hi, show i < f.m - 1 by omega] using this

theorem choice {f : Fmt} (hm : 0 < f.m) (hw : f.m < W) (s : BitVec W) :
    ((∀ a, f.Copied s a → a = s) ∧ ∀ v, f.Copied v s → v = s) ↔ ¬ f.IsNaN s ∨ f.IsQuietNaN s ∧ f.payload s = 0 := by
  constructor
  · rintro ⟨h1, h2⟩
    by_cases hn : f.IsNaN s
    · right
      have hb : s.getLsbD (f.m - 1) = true := by
        rw [← h1 _ (.inr ⟨hn, rfl⟩)]; exact bit_quiet (by omega) s
      refine ⟨⟨hn, hb⟩, ?_⟩
      obtain ⟨c1, c2, c3, c4⟩ := clear_facts hm hw hb
      apply Classical.byContradiction
      intro hp
      have hv := h2 (s &&& ~~~ BitVec.twoPow W (f.m - 1)) (.inr ⟨⟨c2.trans hn.1, fun h => hp (c3 ▸ ((mantissa_zero hm).1 h).1)⟩, c1.symm⟩)
      rw [hv, hb] at c4
      cases c4
    · exact .inl hn
  · rintro (hn | ⟨⟨hn, hb⟩, hp⟩)
    · refine ⟨fun a h => h.elim id fun h => absurd h.1 hn, fun v h => h.elim Eq.symm fun h => absurd ?_ hn⟩
      refine ⟨by rw [h.2, exponent_quiet f v hm]; exact h.1.1, fun h0 => ?_⟩
      have := ((mantissa_zero hm).1 h0).2
      rw [h.2, bit_quiet (by omega) v] at this
      cases this
    · refine ⟨fun a h => h.elim id fun h => h.2.trans (quiet_of_bit hb), fun v h => h.elim Eq.symm fun h => ?_⟩
      have hbv : v.getLsbD (f.m - 1) = true := by
        cases hv : v.getLsbD (f.m - 1)
        · exact absurd ((mantissa_zero hm).2 ⟨by rw [← payload_quiet, ← h.2]; exact hp, hv⟩) h.1.2
        · rfl
      rw [h.2, quiet_of_bit hbv]

/-! ### Which values are affected -/

/-- C86. The values of which a copy is the reserved pattern: the reserved pattern itself, which cannot be stored anyway, and exactly one
signalling NaN. -/
theorem C86_exact (nd : Bool) :
    (∀ v : BitVec 64, (∃ a, binary64.Copied v a ∧ ¬ (doubleCfg nd).Storable a) ↔ v = 0x7ff8fedcba987654 ∨ v = 0x7ff0fedcba987654) ∧
    (∀ v : BitVec 32, (∃ a, binary32.Copied v a ∧ ¬ (floatCfg nd).Storable a) ↔ v = 0x7fedcba9 ∨ v = 0x7fadcba9) := by
  constructor
  · intro v
    constructor
    · rintro ⟨a, hc, ha⟩
      rw [(C22_double_reserved nd a).2, ne_eq, Classical.not_not] at ha
      subst ha
      rcases hc with rfl | ⟨_, h⟩
      · exact .inl rfl
      · exact quiet_eq h.symm
    · intro h
      refine ⟨0x7ff8fedcba987654, ?_, fun h => (C22_double_reserved nd _).2.1 h rfl⟩
      rcases h with rfl | rfl <;> decide
  · intro v
    constructor
    · rintro ⟨a, hc, ha⟩
      rw [(C22_float_reserved nd a).2, ne_eq, Classical.not_not] at ha
      subst ha
      rcases hc with rfl | ⟨_, h⟩
      · exact .inl rfl
      · exact quiet_eq h.symm
    · intro h
      refine ⟨0x7fedcba9, ?_, fun h => (C22_float_reserved nd _).2.1 h rfl⟩
      rcases h with rfl | rfl <;> decide

/-- C86. These two can be stored (C22), and are signalling NaNs that neither compilers nor `std::numeric_limits` make. -/
theorem C86_exotic (nd : Bool) :
    (doubleCfg nd).Storable 0x7ff0fedcba987654 ∧ (floatCfg nd).Storable 0x7fadcba9 ∧
    (binary64.IsNaN 0x7ff0fedcba987654#64 ∧ ¬ binary64.IsQuietNaN 0x7ff0fedcba987654#64) ∧
    (binary32.IsNaN 0x7fadcba9#32 ∧ ¬ binary32.IsQuietNaN 0x7fadcba9#32) ∧
    (∀ a, binary64.Copied 0x7ff4000000000000#64 a → (doubleCfg nd).Storable a) ∧
    (∀ a, binary32.Copied 0x7fa00000#32 a → (floatCfg nd).Storable a) := by
  refine ⟨(C22_double_reserved nd _).2.2 (by decide), (C22_float_reserved nd _).2.2 (by decide), by decide, by decide, ?_, ?_⟩
  · intro a ha
    apply Classical.byContradiction
    intro h
    exact absurd (((C86_exact nd).1 _).1 ⟨a, ha, h⟩) (by decide)
  · intro a ha
    apply Classical.byContradiction
    intro h
    exact absurd (((C86_exact nd).2 _).1 ⟨a, ha, h⟩) (by decide)

/-- C86. The sign of an empty optional survives a copy through a register, since it is a quiet NaN. -/
theorem C86_empty_kept (a : BitVec 64) (b : BitVec 32) :
    (binary64.Copied sentinelDouble a → a = sentinelDouble) ∧ (binary32.Copied sentinelFloat b → b = sentinelFloat) := by
  constructor
  · rintro (rfl | ⟨_, rfl⟩)
    · rfl
    · decide
  · rintro (rfl | ⟨_, rfl⟩)
    · rfl
    · decide

/-- C86. Another choice of the reserved pattern would not help: the patterns that are a copy of no other pattern and have no other copy are the
default NaNs, and what is not a NaN. -/
theorem C86_choice (s : BitVec 64) (t : BitVec 32) :
    (((∀ a, binary64.Copied s a → a = s) ∧ ∀ v, binary64.Copied v s → v = s) ↔
      ¬ binary64.IsNaN s ∨ binary64.IsQuietNaN s ∧ binary64.payload s = 0) ∧
    (((∀ a, binary32.Copied t a → a = t) ∧ ∀ v, binary32.Copied v t → v = t) ↔
      ¬ binary32.IsNaN t ∨ binary32.IsQuietNaN t ∧ binary32.payload t = 0) := by
  exact ⟨choice (by decide) (by decide) s, choice (by decide) (by decide) t⟩

/-! ### Programs -/

/-- C86. `optional<double>`, with copies made in any way: every history that has a meaning for `std::optional` has the results that it has there (with
copies made in the same way), if no user code makes a NaN with the payload of the reserved pattern. Missing for the full claim: such NaNs,
for which it is false (`C86_false`, `C86_exact`). -/
theorem C86_double_partial {Γ : Env (BitVec 64) G} {g : G} {h : List (Op (BitVec 64) G)} {rs sw} (hΓ : EnvWF Γ)
    (hc : ∀ x, ∃ nd, (Γ x).cfg = doubleCfg nd) (hf : ∀ x, CopiesFloats binary64 (Γ x).ops) (hop : ∀ op ∈ h, OpOK Γ op)
    (hu : ∀ op ∈ h, UserKeeps (Without binary64 sentinelDouble) op)
    (hr : specRun (fun x => (Γ x).ops) h (.init g) = some (rs, sw)) (hst : ∀ p ∈ h.zip rs, StepOK p.1 p.2) :
    (run Γ h (.init g)).1 = rs.map SResToRes ∧ Sees Γ (run Γ h (.init g)).2 sw := by
  refine C85_uniform hΓ (fun x v hv => ?_) (fun x => copiesFloats_copy (hf x) _) (fun x => copiesFloats_swap (hf x) _) hu hop hr hst
  obtain ⟨nd, hcfg⟩ := hc x
  rw [hcfg]
  refine (C22_double_reserved nd v).2.2 ?_
  rintro rfl
  exact hv (by decide) rfl

/-- C86, the same for `optional<float>`. -/
theorem C86_float_partial {Γ : Env (BitVec 32) G} {g : G} {h : List (Op (BitVec 32) G)} {rs sw} (hΓ : EnvWF Γ)
    (hc : ∀ x, ∃ nd, (Γ x).cfg = floatCfg nd) (hf : ∀ x, CopiesFloats binary32 (Γ x).ops) (hop : ∀ op ∈ h, OpOK Γ op)
    (hu : ∀ op ∈ h, UserKeeps (Without binary32 sentinelFloat) op)
    (hr : specRun (fun x => (Γ x).ops) h (.init g) = some (rs, sw)) (hst : ∀ p ∈ h.zip rs, StepOK p.1 p.2) :
    (run Γ h (.init g)).1 = rs.map SResToRes ∧ Sees Γ (run Γ h (.init g)).2 sw := by
  refine C85_uniform hΓ (fun x v hv => ?_) (fun x => copiesFloats_copy (hf x) _) (fun x => copiesFloats_swap (hf x) _) hu hop hr hst
  obtain ⟨nd, hcfg⟩ := hc x
  rw [hcfg]
  refine (C22_float_reserved nd v).2.2 ?_
  rintro rfl
  exact hv (by decide) rfl

/-- `double` with all copies made through registers. -/
def x87Ops : Ops (BitVec 64) G where
  copyCtor v g := (.ok (load v), g)
  moveCtor v g := (.ok (load v), v, g)
  copyAssign _ s g := (none, load s, g)
  moveAssign _ s g := (none, load s, s, g)
  selfCopyAssign v g := (none, load v, g)
  selfMoveAssign v g := (none, load v, g)
  swap a b g := (none, load b, load a, g)
  selfSwap v g := (none, load v, g)
  dtor _ g := g
  nothrowCopyCtor := true
  nothrowMoveCtor := true
  nothrowMoveAssign := true
  nothrowSwap := true
where
  /-- what `fld` and `fstp` make of a value -/
  load (v : BitVec 64) : BitVec 64 := if binary64.IsNaN v then binary64.quiet v else v

theorem x87_load (v : BitVec 64) : binary64.Copied v (x87Ops.load v) := by
  unfold x87Ops.load
  split
  · exact .inr ⟨‹_›, rfl⟩
  · exact .inl rfl

theorem x87Ops_copies : CopiesFloats binary64 (x87Ops : Ops (BitVec 64) G) where
  copyCtor v _ := ⟨_, rfl, x87_load v⟩
  moveCtor v _ := ⟨rfl, _, rfl, x87_load v⟩
  copyAssign _ s _ := ⟨rfl, x87_load s⟩
  moveAssign _ s _ := ⟨rfl, x87_load s, rfl⟩
  selfCopyAssign v _ := ⟨rfl, x87_load v⟩
  selfMoveAssign v _ := ⟨rfl, x87_load v⟩
  swap a b _ := ⟨rfl, x87_load b, x87_load a⟩
  selfSwap v _ := ⟨rfl, x87_load v⟩

/-- The claim is false: an optional with the one signalling NaN is copied. The copy of a `std::optional` has a value; the copy of a
`tiny::optional` is empty, or an assert fails. -/
theorem C86_false :
    let h : List (Op (BitVec 64) Unit) := [.ctorInPlace 0 (.ext true fun g => (.ok 0x7ff0fedcba987654, g)), .hasValue 0, .ctorCopy 1 0, .hasValue 1]
    (specRun (fun _ => x87Ops) h (.init ())).map (·.1) = some [.ok .unit, .ok (.bool true), .ok .unit, .ok (.bool true)] ∧
    (run (fun _ => ⟨doubleCfg true, x87Ops⟩) h (.init ())).1 = [.ok .unit, .ok (.bool true), .ok .unit, .ok (.bool false)] ∧
    (run (fun _ => ⟨doubleCfg false, x87Ops⟩) h (.init ())).1 = [.ok .unit, .ok (.bool true), .abort .assertFail] := by
  decide +kernel

/-- `C86_double_partial` for the signalling NaN of `std::numeric_limits`: the copy has a value, a quiet NaN. -/
example : (run (fun _ => ⟨doubleCfg false, x87Ops⟩) [.ctorInPlace 0 (.ext true fun g => (.ok 0x7ff4000000000000, g)), .ctorCopy 1 0, .deref 1]
    (.init ())).1 = [.ok .unit, .ok .unit, .ok (.val 0x7ffc000000000000)] := by
  refine (C86_double_partial (rs := [.ok .unit, .ok .unit, .ok (.val 0x7ffc000000000000)]) (sw := _) ⟨fun _ => patternCfg_wf _ _ _, fun _ => ?_⟩
    (fun _ => ⟨false, rfl⟩) (fun _ => x87Ops_copies) ?_ ?_ rfl ?_).1
  · exact ⟨fun _ v _ => ⟨_, rfl⟩, fun _ v _ => ⟨_, rfl⟩, fun _ _ _ _ => rfl, fun _ _ _ => rfl, fun _ _ _ _ => rfl, fun _ _ _ => rfl⟩
  · simp [OpOK, ArgLawful]
  · intro op hop
    simp only [List.mem_cons, List.not_mem_nil, or_false] at hop
    rcases hop with rfl | rfl | rfl
    · intro g a ha; cases ha; unfold Without; decide
    · trivial
    · trivial
  · intro p hp
    simp at hp
    rcases hp with rfl | rfl | rfl <;> trivial

end Verif.Props
