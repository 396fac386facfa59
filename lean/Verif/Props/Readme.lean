import Verif.Model.Readme
import Verif.Model.Select
import Verif.Lemmas.Bits
import Verif.Props.Refinement
import Verif.Props.Reserved

/-!
# C76: the examples of the README
-/

namespace Verif.Props
open Verif Verif.Model Verif.Spec Verif.Spec.Readme Verif.Model.Readme

/-- What the README says about an example: the manipulator fulfils its contract, exactly the allowed values can be stored, all others are taken
for the empty state, and no memory is wasted. -/
structure AsDocumented {V : Type} (c : Bool → Config V) (allowed : V → Prop) (payload : Extent) : Prop where
  wf : ∀ nd, (c nd).WF
  storable : ∀ nd v, (c nd).Storable v ↔ allowed v
  reserved : ∀ nd v, (c nd).Reserved v ↔ ¬ allowed v
  inPlace : ∀ nd, (c nd).decomp ≠ .separate
  size : ∀ nd, (c nd).size = payload.size
  asserts : ∀ nd, (c nd).ndebug = nd

/-- C76, `IndexPair`: all pairs but those with two negative indices. -/
theorem C76_index_pair : AsDocumented indexPairCfg IndexPair.Allowed (classExtent [int32, int32]) where
  wf nd :=
    { fits := .inr ⟨by simp [indexPairCfg], by simp [indexPairCfg]⟩
      inside := by simp [indexPairCfg, Config.loc]
      bytes := by intro v i _; simp [indexPairCfg, Config.loc]
      sentinelFits := by intro s h; simp [indexPairCfg] at h
      assignRefl := by intro s e h; simp [indexPairCfg] at h
      customRefl := by rintro p ev ⟨⟩; decide }
  storable nd v := by
    show indexPairIsEmpty v = false ↔ _
    simp [indexPairIsEmpty, IndexPair.Allowed, BitVec.slt]
  reserved nd v := by
    show indexPairIsEmpty v = true ↔ _
    simp [indexPairIsEmpty, IndexPair.Allowed, BitVec.slt]
  inPlace nd := by simp [indexPairCfg]
  size _ := rfl
  asserts _ := rfl

/-- C76, `Iterator` in `optional_inplace`: the valid iterators. -/
theorem C76_iterator : AsDocumented iteratorCfg Iterator.Allowed (classExtent [bool8, word64]) where
  wf nd :=
    { fits := .inr ⟨by simp [iteratorCfg], by simp [iteratorCfg]⟩
      inside := by simp [iteratorCfg, Config.loc]
      bytes := by intro v i _; simp [iteratorCfg, Config.loc]
      sentinelFits := by intro s h; simp [iteratorCfg] at h
      assignRefl := by intro s e h; simp [iteratorCfg] at h
      customRefl := by rintro p ev ⟨⟩; rfl }
  storable nd v := by
    show iteratorIsEmpty v = false ↔ _
    simp [iteratorIsEmpty, Iterator.Allowed]
  reserved nd v := by
    show iteratorIsEmpty v = true ↔ _
    simp [iteratorIsEmpty, Iterator.Allowed]
  inPlace nd := by simp [iteratorCfg]
  size _ := rfl
  asserts _ := rfl

/-- C76, `optional<int, -1>`. -/
theorem C76_index : AsDocumented indexCfg indexAllowed int32 where
  wf nd :=
    { fits := .inr ⟨by simp [indexCfg], by simp [indexCfg]⟩
      inside := by simp [indexCfg, Config.loc]
      bytes := by intro v i _; simp [indexCfg, Config.loc]
      sentinelFits := by intro s h; simp [indexCfg] at h
      assignRefl := by rintro s e ⟨⟩; rfl
      customRefl := by intro s e h; simp [indexCfg] at h }
  storable nd v := by
    show (v == (-1 : BitVec 32)) = false ↔ _
    rw [beq_eq_false_iff_ne]
    exact not_congr (BitVec.toInt_inj (x := v) (y := -1)).symm
  reserved nd v := by
    show (v == (-1 : BitVec 32)) = true ↔ _
    rw [beq_iff_eq, indexAllowed, ne_eq, Decidable.not_not]
    exact (BitVec.toInt_inj (x := v) (y := -1)).symm
  inPlace nd := by simp [indexCfg]
  size _ := rfl
  asserts _ := rfl

/-- C76, `MyEnum` via `sentinel_flag_manipulator`. -/
theorem C76_enum : AsDocumented enumCfg enumAllowed int32 where
  wf nd :=
    { fits := .inr ⟨by simp [enumCfg], by simp [enumCfg, sentinelFlagManipulator]⟩
      inside := by simp [enumCfg, Config.loc]
      bytes := by intro v i _; simp [enumCfg, Config.loc]
      sentinelFits := by intro s h; simp [enumCfg, sentinelFlagManipulator] at h
      assignRefl := by intro s e h; simp [enumCfg, sentinelFlagManipulator] at h
      customRefl := by rintro p ev ⟨⟩; rfl }
  storable nd v := by
    show (v == enumMax) = false ↔ _
    simp [enumAllowed]
  reserved nd v := by
    show (v == enumMax) = true ↔ _
    simp [enumAllowed]
  inPlace nd := by simp [enumCfg]
  size _ := rfl
  asserts _ := rfl

/-- C76, `optional<MyEnum, MyEnum::Max>`. -/
theorem C76_enum_sentinel : AsDocumented enumSentinelCfg enumAllowed int32 where
  wf nd :=
    { fits := .inr ⟨by simp [enumSentinelCfg], by simp [enumSentinelCfg]⟩
      inside := by simp [enumSentinelCfg, Config.loc]
      bytes := by intro v i _; simp [enumSentinelCfg, Config.loc]
      sentinelFits := by intro s h; simp [enumSentinelCfg] at h
      assignRefl := by rintro s e ⟨⟩; rfl
      customRefl := by intro s e h; simp [enumSentinelCfg] at h }
  storable nd v := by
    show (v == enumMax) = false ↔ _
    simp [enumAllowed]
  reserved nd v := by
    show (v == enumMax) = true ↔ _
    simp [enumAllowed]
  inPlace nd := by simp [enumSentinelCfg]
  size _ := rfl
  asserts _ := rfl

theorem micro_iff (t : BitVec 64) : microAllowed t ↔ t ≠ BitVec.intMin 64 := by
  constructor
  · rintro ⟨u, hu⟩ rfl
    have := BitVec.le_toInt u
    have h2 : (BitVec.intMin 64).toInt = -(2 : Int) ^ 63 := by decide
    omega
  · intro h
    refine ⟨BitVec.intMin 64, ?_⟩
    have h1 := BitVec.le_toInt t
    have h2 : (BitVec.intMin 64).toInt = -(2 : Int) ^ 63 := by decide
    have h3 : t.toInt ≠ (BitVec.intMin 64).toInt := fun e => h (BitVec.toInt_inj.mp e)
    omega

/-- C76, `std::chrono::microseconds` via `optional_sentinel_via_type`. -/
theorem C76_micro : AsDocumented microCfg microAllowed word64 where
  wf nd :=
    { fits := .inr ⟨by simp [microCfg], by simp [microCfg]⟩
      inside := by simp [microCfg, Config.loc]
      bytes := by intro v i _; simp [microCfg, Config.loc]
      sentinelFits := by intro s h; simp [microCfg] at h
      assignRefl := by rintro s e ⟨⟩; simp
      customRefl := by intro s e h; simp [microCfg] at h }
  storable nd v := by
    rw [micro_iff]
    show (v == BitVec.intMin 64) = false ↔ _
    rw [beq_eq_false_iff_ne]
  reserved nd v := by
    rw [micro_iff, ne_eq, Decidable.not_not]
    show (v == BitVec.intMin 64) = true ↔ _
    rw [beq_iff_eq]
  inPlace nd := by simp [microCfg]
  size _ := rfl
  asserts _ := rfl

/-! ### Flags in a member -/

theorem data_bytes (d : Data) (i : Nat) :
    (i < 4 → classRepr (dataMembers d) (0 + i) = reprLE 4 d.var1 i) ∧
    (i < 8 → classRepr (dataMembers d) (8 + i) = reprLE 8 d.var2 i) ∧
    (i < 8 → classRepr (dataMembers d) (16 + i) = reprLE 8 d.var3 i) := by
  have a1 : alignUp 0 4 = 0 := by decide
  have a2 : alignUp (0 + 4) 8 = 8 := by decide
  have a3 : alignUp (8 + 8) 8 = 16 := by decide
  refine ⟨fun h => ?_, fun h => ?_, fun h => ?_⟩ <;>
    simp only [classRepr, dataMembers, classReprFrom, int32, word64, a1, a2, a3]
  · rw [if_pos (by omega)]; simp
  · rw [if_neg (by omega), if_pos (by omega)]; simp
  · rw [if_neg (by omega), if_neg (by omega), if_pos (by omega)]; simp

theorem data_offsets : offsetOf dataExtents 0 = 0 ∧ offsetOf dataExtents 1 = 8 ∧ offsetOf dataExtents 2 = 16 ∧
    (classExtent dataExtents).size = 24 := by decide

/-- C76, `optional<Data, &Data::var1, -1>`. -/
theorem C76_data1 : AsDocumented data1Cfg Data.Allowed1 (classExtent dataExtents) where
  wf nd :=
    { fits := .inr ⟨by simp [data1Cfg], by simp [data1Cfg]⟩
      inside := by show offsetOf dataExtents 0 + 4 ≤ (classExtent dataExtents).size; decide
      bytes := fun v i hi => by
        show classRepr (dataMembers v) (offsetOf dataExtents 0 + i) = reprLE 4 v.var1 i
        rw [data_offsets.1]; exact (data_bytes v i).1 hi
      sentinelFits := by intro s h; simp [data1Cfg] at h
      assignRefl := by rintro s e ⟨⟩; rfl
      customRefl := by intro s e h; simp [data1Cfg] at h }
  storable nd v := by
    show (v.var1 == (-1 : BitVec 32)) = false ↔ _
    rw [beq_eq_false_iff_ne]
    exact not_congr (BitVec.toInt_inj (x := v.var1) (y := -1)).symm
  reserved nd v := by
    show (v.var1 == (-1 : BitVec 32)) = true ↔ _
    rw [beq_iff_eq, Data.Allowed1, ne_eq, Decidable.not_not]
    exact (BitVec.toInt_inj (x := v.var1) (y := -1)).symm
  inPlace nd := by simp [data1Cfg]
  size _ := rfl
  asserts _ := rfl

/-- A pattern in eight bytes of the payload at offset `off`. -/
theorem member_pattern {c : Config Data} {off : Nat} {f : Data → BitVec 64} {s : BitVec 64}
    (hm : c.manip = .memcpy (bytesLE 8 s)) (ho : c.loc.off = off) (hr : ∀ d i, i < 8 → c.repr d (off + i) = reprLE 8 (f d) i) (d : Data) :
    (c.Storable d ↔ f d ≠ s) ∧ (c.Reserved d ↔ f d = s) := by
  have h1 := patternCfg_storable (n := 8) (W := 64) (by decide) s (f d) true
  have h2 := patternCfg_reserved (n := 8) (W := 64) (by decide) s (f d) true
  rw [← h1, ← h2]
  have hlen : (bytesLE 8 s).length = 8 := by simp [bytesLE]
  have hp : (patternCfg 8 s true).manip = .memcpy (bytesLE 8 s) := rfl
  simp only [Config.Storable, Config.Reserved, hm, hp]
  have e : ∀ i, i < (bytesLE 8 s).length →
      c.repr d (c.loc.off + i) = (patternCfg 8 s true).repr (f d) ((patternCfg 8 s true).loc.off + i) := by
    intro i hi
    rw [ho, hr d i (by omega)]
    show _ = reprLE 8 (f d) (0 + i)
    rw [Nat.zero_add]
  constructor
  · constructor
    · rintro ⟨p, i, hi, q⟩
      exact ⟨fun j hj => by rw [← e j hj]; exact p j hj, i, hi, by rw [← e i hi]; exact q⟩
    · rintro ⟨p, i, hi, q⟩
      exact ⟨fun j hj => by rw [e j hj]; exact p j hj, i, hi, by rw [e i hi]; exact q⟩
  · constructor
    · intro p i hi; rw [← e i hi]; exact p i hi
    · intro p i hi; rw [e i hi]; exact p i hi

/-- C76, `optional<Data, &Data::var2>`: everything but one quiet NaN in that member, so all of what `optional<double>` can store (C22). -/
theorem C76_data2 : AsDocumented data2Cfg (fun d => (doubleCfg true).Storable d.var2) (classExtent dataExtents) := by
  have hr : ∀ nd d i, i < 8 → (data2Cfg nd).repr d (8 + i) = reprLE 8 d.var2 i := fun _ d i hi => (data_bytes d i).2.1 hi
  have ho : ∀ nd, (data2Cfg nd).loc.off = 8 := fun _ => data_offsets.2.1
  have hs : ∀ v, (doubleCfg true).Storable v ↔ v ≠ sentinelDouble := fun v => patternCfg_storable (by decide) _ _ _
  exact
  { wf := fun nd =>
      { fits := .inr ⟨by simp [data2Cfg], by simp [data2Cfg]⟩
        inside := by show offsetOf dataExtents 1 + 8 ≤ (classExtent dataExtents).size; decide
        bytes := fun v i hi => by rw [ho]; exact hr nd v i hi
        sentinelFits := by rintro s ⟨⟩; simp [bytesLE, data2Cfg, Config.loc]
        assignRefl := by intro s e h; simp [data2Cfg] at h
        customRefl := by intro s e h; simp [data2Cfg] at h }
    storable := fun nd v => by rw [hs]; exact (member_pattern rfl (ho nd) (hr nd) v).1
    reserved := fun nd v => by rw [hs, ne_eq, Decidable.not_not]; exact (member_pattern rfl (ho nd) (hr nd) v).2
    inPlace := fun nd => by simp [data2Cfg]
    size := fun _ => rfl
    asserts := fun _ => rfl }

/-- C76, `optional<Data, &Data::var3>`: everything that `optional<T*>` can store in that member (C24). -/
theorem C76_data3 : AsDocumented data3Cfg (fun d => (ptr64Cfg true).Storable d.var3) (classExtent dataExtents) := by
  have hr : ∀ nd d i, i < 8 → (data3Cfg nd).repr d (16 + i) = reprLE 8 d.var3 i := fun _ d i hi => (data_bytes d i).2.2 hi
  have ho : ∀ nd, (data3Cfg nd).loc.off = 16 := fun _ => data_offsets.2.2.1
  have hs : ∀ v, (ptr64Cfg true).Storable v ↔ v ≠ sentinelPtr64 := fun v => patternCfg_storable (by decide) _ _ _
  exact
  { wf := fun nd =>
      { fits := .inr ⟨by simp [data3Cfg], by simp [data3Cfg]⟩
        inside := by show offsetOf dataExtents 2 + 8 ≤ (classExtent dataExtents).size; decide
        bytes := fun v i hi => by rw [ho]; exact hr nd v i hi
        sentinelFits := by rintro s ⟨⟩; simp [bytesLE, data3Cfg, Config.loc]
        assignRefl := by intro s e h; simp [data3Cfg] at h
        customRefl := by intro s e h; simp [data3Cfg] at h }
    storable := fun nd v => by rw [hs]; exact (member_pattern rfl (ho nd) (hr nd) v).1
    reserved := fun nd v => by rw [hs, ne_eq, Decidable.not_not]; exact (member_pattern rfl (ho nd) (hr nd) v).2
    inPlace := fun nd => by simp [data3Cfg]
    size := fun _ => rfl
    asserts := fun _ => rfl }

/-! ### Programs -/

variable {V G : Type} {Γ : Env V G}

/-- C76. Every program with optionals of an example type that stores only values that the README allows behaves as with `std::optional`. -/
theorem C76_programs {c : Bool → Config V} {allowed : V → Prop} {e : Extent} (hd : AsDocumented c allowed e) {nd : Bool}
    (hc : ∀ x, (Γ x).cfg = c nd) (ho : ∀ x, (Γ x).ops.Lawful) {g : G} {h : List (Op V G)} {rs sw} (hop : ∀ op ∈ h, OpOK Γ op)
    (hr : specRun (fun x => (Γ x).ops) h (.init g) = some (rs, sw)) (ha : ∀ p ∈ sw.trace, allowed p.2)
    (hst : ∀ p ∈ h.zip rs, StepOK p.1 p.2) :
    (run Γ h (.init g)).1 = rs.map SResToRes ∧ Sees Γ (run Γ h (.init g)).2 sw :=
  C01_drop_in ⟨fun x => by rw [hc]; exact hd.wf nd, ho⟩
    ⟨hop, hr, fun p hp => by rw [hc]; exact (hd.storable nd p.2).mpr (ha p hp), hst⟩

/-- C76. "Attempting to store an invalid iterator is illegal and causes a debug assert" (README:636), for all examples: a value that is not
allowed is assigned to an empty optional. Without asserts, the optional stays empty. -/
theorem C76_reported {c : Bool → Config V} {allowed : V → Prop} {e : Extent} (hd : AsDocumented c allowed e) {nd : Bool}
    (hc : ∀ x, (Γ x).cfg = c nd) (ho : ∀ x, (Γ x).ops.Lawful) {w : World V G} (hw : Reach Γ w) {x : Nat} {f nt k} {v : V} {g' : G}
    (hx : IsEmpty Γ x w) (hk : k w.user = (.ok v, g')) (hv : ¬ allowed v) :
    if nd then (execOp Γ (.assignVal x (.ext f nt k)) w).1 = .ok .unit ∧ IsEmpty Γ x (execOp Γ (.assignVal x (.ext f nt k)) w).2
    else (execOp Γ (.assignVal x (.ext f nt k)) w).1 = .abort .assertFail := by
  have := C32_assign_empty (Γ := Γ) ⟨fun x => by rw [hc]; exact hd.wf nd, ho⟩ hw (f := f) (nt := nt) hx hk
    (by rw [hc]; exact (hd.reserved nd v).mpr hv)
  unfold StoredReserved at this
  rwa [hc, hd.asserts] at this

/-- C76. The same where the README says so: the optional already has a value, and the payload's assignment makes one that is not allowed. -/
theorem C76_reported_engaged {c : Bool → Config V} {allowed : V → Prop} {e : Extent} (hd : AsDocumented c allowed e) {nd : Bool}
    (hc : ∀ x, (Γ x).cfg = c nd) (ho : ∀ x, (Γ x).ops.Lawful) {w : World V G} (hw : Reach Γ w) {x : Nat} {f nt k} {u v : V} {g' : G}
    (hx : Holds Γ x u w) (hf : f u w.user = (none, v, g')) (hv : ¬ allowed v) :
    if nd then (execOp Γ (.assignVal x (.ext f nt k)) w).1 = .ok .unit ∧ IsEmpty Γ x (execOp Γ (.assignVal x (.ext f nt k)) w).2
    else (execOp Γ (.assignVal x (.ext f nt k)) w).1 = .abort .assertFail := by
  have := C32_assign_engaged (Γ := Γ) ⟨fun x => by rw [hc]; exact hd.wf nd, ho⟩ hw (nt := nt) (c := k) hx hf
    (by rw [hc]; exact (hd.reserved nd v).mpr hv)
  unfold StoredReserved at this
  rwa [hc, hd.asserts] at this

/-- C76. The same for the construction of an optional with a value. -/
theorem C76_reported_ctor {c : Bool → Config V} {allowed : V → Prop} {e : Extent} (hd : AsDocumented c allowed e) {nd : Bool}
    (hc : ∀ x, (Γ x).cfg = c nd) (ho : ∀ x, (Γ x).ops.Lawful) {w : World V G} (hw : Reach Γ w) {x : Nat} {nt k} {v : V} {g' : G}
    (hx : Absent x w) (hk : k w.user = (.ok v, g')) (hv : ¬ allowed v) :
    if nd then (execOp Γ (.ctorInPlace x (.ext nt k)) w).1 = .ok .unit ∧ IsEmpty Γ x (execOp Γ (.ctorInPlace x (.ext nt k)) w).2
    else (execOp Γ (.ctorInPlace x (.ext nt k)) w).1 = .abort .assertFail := by
  have := C32_ctor (Γ := Γ) ⟨fun x => by rw [hc]; exact hd.wf nd, ho⟩ hw (nt := nt) hx hk
    (by rw [hc]; exact (hd.reserved nd v).mpr hv)
  unfold StoredReserved at this
  rwa [hc, hd.asserts] at this

/-! ### Instances -/

/-- The example program of the README: `o; o = Iterator{5};`. -/
def iteratorEnv (nd : Bool) : Env Iterator Unit := fun _ => ⟨iteratorCfg nd, Examples.scalarOps⟩
def storeIterator (i : Iterator) : Op Iterator Unit := .assignVal 0 (.ext (fun _ g => (none, i, g)) true (fun g => (.ok i, g)))

example : (run (iteratorEnv false) [.ctorDefault 0, storeIterator (iteratorOf 5), .deref 0] (.init ())).1 =
    [.ok .unit, .ok .unit, .ok (.val (iteratorOf 5))] := by
  refine (C76_programs (Γ := iteratorEnv false) C76_iterator (nd := false) (fun _ => rfl) (fun _ => Examples.scalarOps_lawful)
    (h := [.ctorDefault 0, storeIterator (iteratorOf 5), .deref 0]) (sw := _) (rs := [.ok .unit, .ok .unit, .ok (.val (iteratorOf 5))])
    ?_ rfl ?_ ?_).1
  · simp [storeIterator, OpOK, AArgLawful]
  · simp [Iterator.Allowed, iteratorOf, SWorld.init]
  · simp [storeIterator, StepOK]

theorem iteratorEnv_wf (nd : Bool) : EnvWF (iteratorEnv nd) := ⟨fun _ => C76_iterator.wf nd, fun _ => Examples.scalarOps_lawful⟩

/-- The two states of `o` in the README. -/
def iteratorEmpty (nd : Bool) : World Iterator Unit := (run (iteratorEnv nd) [.ctorDefault 0] (.init ())).2
def iteratorStored (nd : Bool) : World Iterator Unit := (run (iteratorEnv nd) [.ctorDefault 0, storeIterator (iteratorOf 5)] (.init ())).2

theorem iteratorEmpty_reach (nd : Bool) : Reach (iteratorEnv nd) (iteratorEmpty nd) :=
  .of_legal (iteratorEnv_wf nd) ⟨by simp [OpOK], rfl, by simp [NoReserved, SWorld.init], by simp [StepOK]⟩

theorem iteratorStored_reach (nd : Bool) : Reach (iteratorEnv nd) (iteratorStored nd) :=
  .of_legal (iteratorEnv_wf nd)
    ⟨by simp [storeIterator, OpOK, AArgLawful], rfl, by
      simp only [NoReserved, SWorld.init, List.mem_cons, List.not_mem_nil, or_false, List.nil_append, forall_eq]
      exact (C76_iterator.storable nd _).mpr rfl, by simp [storeIterator, StepOK]⟩

/-- The line that the README has as a comment: `o = Iterator{};` after `o = iter;`, and for an empty `o`; construction with that value. -/
example := C76_reported_engaged (Γ := iteratorEnv false) C76_iterator (fun _ => rfl) (fun _ => Examples.scalarOps_lawful)
  (iteratorStored_reach false) (x := 0) (u := iteratorOf 5) (v := iteratorDefault) (f := fun _ g => (none, iteratorDefault, g)) (nt := true)
  (k := fun g => (.ok iteratorDefault, g)) ⟨rfl, rfl⟩ rfl (by simp [Iterator.Allowed, iteratorDefault])
example := C76_reported (Γ := iteratorEnv true) C76_iterator (fun _ => rfl) (fun _ => Examples.scalarOps_lawful) (iteratorEmpty_reach true) (x := 0)
  (v := iteratorDefault) (f := fun _ g => (none, iteratorDefault, g)) (nt := true) (k := fun g => (.ok iteratorDefault, g)) rfl rfl
  (by simp [Iterator.Allowed, iteratorDefault])
example := C76_reported_ctor (Γ := iteratorEnv false) C76_iterator (fun _ => rfl) (fun _ => Examples.scalarOps_lawful)
  (iteratorEmpty_reach false) (x := 1) (v := iteratorDefault) (nt := true) (k := fun g => (.ok iteratorDefault, g)) rfl rfl
  (by simp [Iterator.Allowed, iteratorDefault])

example : (⟨-5, 3⟩ : IndexPair).Allowed ∧ ¬ (⟨-5, -3⟩ : IndexPair).Allowed ∧ (⟨0, 0⟩ : IndexPair).Allowed := by
  unfold IndexPair.Allowed; decide
example : enumAllowed value1 ∧ enumAllowed value2 ∧ indexAllowed 0 ∧ microAllowed 0 :=
  ⟨by unfold enumAllowed; decide, by unfold enumAllowed; decide, by unfold indexAllowed; decide, (micro_iff _).mpr (by decide)⟩
example : (classExtent [int32, int32]).size = 8 ∧ (classExtent [bool8, word64]).size = 16 ∧ (classExtent dataExtents).size = 24 := by decide

end Verif.Props
