import Verif.Props.Readme
import Verif.Props.Integral
import Verif.Lemmas.Select

/-!
# C76: the types in the examples of the README select the configurations of `Model/Readme.lean`
-/

namespace Verif.Props
open Verif Verif.Model Verif.Spec Verif.Spec.Readme Verif.Model.Readme

variable {P : Model.Prog}

theorem Readme_archCheck (h : ReadmeProg P) : archCheck P = .ok () := by
  simp [Model.archCheck, h.arch]

theorem Readme_plain (h : ReadmeProg P) {k : Kind} (hk : k = intKind P ∨ k = microKind) : hasCustom P k.plain = .ok false := by
  obtain ⟨h1, h2⟩ := h.others k (by rcases hk with h | h <;> simp [h])
  have hu : unusedBitsKnown P k.plain = false := by
    rcases hk with rfl | rfl <;> simp [unusedBitsKnown, h.bits, Kind.plain, intKind, microKind]
  simp only [hasCustom, flagManipulator, h1, h2, hu]

theorem known_of_full {k : Kind} {i : Nat} (hk : P.full k.plain = some i) :
    flagManipulator P k.plain = .ok (.user i) ∧ hasCustom P k.plain = .ok true := by
  simp [hasCustom, flagManipulator, hk]

theorem Readme_double (h : ReadmeProg P) : flagManipulator P (Kind.flt 1).plain = .ok (.bits (bytesLE 8 sentinelDouble)) := by
  obtain ⟨h1, h2⟩ := h.others (.flt 1) (by simp)
  have hu : unusedBitsKnown P (Kind.flt 1).plain = true := by simp [unusedBitsKnown, h.bits, Kind.plain]
  simp only [flagManipulator, h1, h2, hu]
  simp only [Kind.plain, unusedBitsSentinel]

theorem Readme_pointer (h : ReadmeProg P) (m : Nat) : flagManipulator P (Kind.ptr m).plain = .ok (.bits (bytesLE 8 sentinelPtr64)) := by
  obtain ⟨h1, h2⟩ := h.others (.ptr m) (by simp)
  have hu : unusedBitsKnown P (Kind.ptr m).plain = true := by simp [unusedBitsKnown, h.bits, Kind.plain]
  simp only [flagManipulator, h1, h2, hu]
  simp only [Kind.plain, unusedBitsSentinel, h.arch]

theorem hasCustom_bits {t : QTy} {b : List Byte} (h : flagManipulator P t = .ok (.bits b)) : hasCustom P t = .ok true := by
  simp [hasCustom, h]

theorem minus_one (P : Model.Prog) : convertSentinel P.dm (intKind P) ⟨intKind P, -1⟩ = some (-1) := by
  have hv : (⟨P.dm.intRank, true, 0⟩ : IntTy).Has P.dm (-1) := by
    rw [hasS rfl]
    have := pow_pos' (P.dm.bits P.dm.intRank - 1)
    constructor <;> simp only [] <;> omega
  have h := C26_convert (dm := P.dm) ⟨P.dm.intRank, true, 0⟩ ⟨P.dm.intRank, true, 0⟩ hv
  cases hc : convertSentinel P.dm (.int ⟨P.dm.intRank, true, 0⟩) ⟨.int ⟨P.dm.intRank, true, 0⟩, -1⟩ with
  | none => exact absurd hv (h.2.mp hc)
  | some r => rw [intKind, hc, h.1 r hc]

/-- C76. What the compiler makes of the types of the examples. -/
theorem C76_selected (h : ReadmeProg P) (more : Nat) (v : Int) :
    compile P (.optional indexPairKind.plain (.useDefault 0) (.useDefault 0)) =
      .ok ⟨indexPairKind.plain, .inplace, .user indexPairManip⟩ ∧
    compile P (.inplace iteratorKind.plain iteratorManip) = .ok ⟨iteratorKind.plain, .inplace, .user iteratorManip⟩ ∧
    compile P (.optional (intKind P).plain (.const ⟨intKind P, -1⟩) (.useDefault 0)) =
      .ok ⟨(intKind P).plain, .inplace, .assign (intKind P) (-1)⟩ ∧
    compile P (.optional (enumKind P).plain (.useDefault 0) (.useDefault 0)) = .ok ⟨(enumKind P).plain, .inplace, .user enumManip⟩ ∧
    compile P (.optional (enumKind P).plain (.const ⟨enumKind P, 2⟩) (.useDefault 0)) =
      .ok ⟨(enumKind P).plain, .inplace, .assign (enumKind P) 2⟩ ∧
    compile P (.viaType microKind.plain (.value ⟨microKind, v⟩) (.useDefault 0)) =
      .ok ⟨microKind.plain, .inplace, .assign microKind v⟩ ∧
    compile P (.optional dataKind.plain (.memPtr (var1Ptr P)) (.const ⟨intKind P, -1⟩)) =
      .ok ⟨dataKind.plain, .viaMember (var1Ptr P), .assign (intKind P) (-1)⟩ ∧
    compile P (.optional dataKind.plain (.memPtr var2Ptr) (.useDefault 0)) =
      .ok ⟨dataKind.plain, .viaMember var2Ptr, .bits (bytesLE 8 sentinelDouble)⟩ ∧
    compile P (.optional dataKind.plain (.memPtr (var3Ptr more)) (.useDefault 0)) =
      .ok ⟨dataKind.plain, .viaMember (var3Ptr more), .bits (bytesLE 8 sentinelPtr64)⟩ := by
  have ha := Readme_archCheck h
  have he := known_of_full h.enum
  have hi := known_of_full h.indexPair
  have pi := Readme_plain h (.inl rfl)
  have pm := Readme_plain h (.inr rfl)
  have hd := Readme_double h
  have hp := Readme_pointer h more
  have hd' := hasCustom_bits hd
  have hp' := hasCustom_bits hp
  have hm := minus_one P
  have e1 : ∀ v, convertSentinel P.dm (enumKind P) ⟨enumKind P, v⟩ = some v := fun v => by
    simp [convertSentinel, implicitConv, enumKind]
  have e2 : ∀ v, convertSentinel P.dm microKind ⟨microKind, v⟩ = some v := fun v => by simp [convertSentinel, implicitConv, microKind]
  have k : ∀ k : Kind, k.plain.kind = k := fun _ => rfl
  have d1 : dataKind.plain = Kind.plain (.cls (var1Ptr P).cls) := rfl
  have d2 : dataKind.plain = Kind.plain (.cls var2Ptr.cls) := rfl
  have d3 : dataKind.plain = Kind.plain (.cls (var3Ptr more).cls) := rfl
  have v1 : (var1Ptr P).var = (intKind P).plain := rfl
  have v2 : var2Ptr.var = (Kind.flt 1).plain := rfl
  have v3 : (var3Ptr more).var = (Kind.ptr more).plain := rfl
  have n1 : (var1Ptr P).null = false := rfl
  have n2 : var2Ptr.null = false := rfl
  have n3 : (var3Ptr more).null = false := rfl
  refine ⟨?_, ?_, ?_, ?_, ?_, ?_, ?_, ?_, ?_⟩ <;>
    simp [compile, tinyOptional, optionalInplace, optionalSentinelViaType, fromConstants, NTTP.toSentinel, selectDecomposition, pick_default,
      pick_member, SentTy.isDefault, Specialisation.body, memberBody, instantiate, instantiateManip, checkMemPtr, ha, he, hi, pi, pm, hd, hp,
      hd', hp', hm, e1, e2, k, h.manips, h.eqs, h.payload, h.member, v1, v2, v3, n1, n2, n3, ← d1, ← d2, ← d3,
      Except.map, bind, Except.bind, pure, Except.pure]

/-- The type `e` of the program `P` compiles, and an optional of that type has the configuration `c` where `S` says what the types mean. -/
def Selects {V : Type} (P : Model.Prog) (S : Sem V) (e : Entry) (c : Bool → Config V) : Prop :=
  ∃ i, compile P e = .ok i ∧ ∀ nd, S.config i nd = c nd

/-- C76. `tiny::optional<IndexPair>` -/
theorem C76_index_pair_type (h : ReadmeProg P) {S : Sem IndexPair} (he : S.extent indexPairKind = classExtent [int32, int32])
    (hr : S.repr indexPairKind = fun p => classRepr (indexPairMembers p)) (hu : S.user indexPairManip = (indexPairIsEmpty, indexPairInit)) :
    Selects P S (.optional indexPairKind.plain (.useDefault 0) (.useDefault 0)) indexPairCfg :=
  ⟨_, (C76_selected h 0 0).1, fun nd => by
    simp only [Sem.config, Kind.plain, he, hr, Sem.decomp, Sem.manip, hu, indexPairCfg]⟩

/-- C76. `tiny::optional_inplace<Iterator, FlagManipulator>` -/
theorem C76_iterator_type (h : ReadmeProg P) {S : Sem Iterator} (he : S.extent iteratorKind = classExtent [bool8, word64])
    (hr : S.repr iteratorKind = fun i => classRepr [(bool8, boolRepr i.isValid), (word64, reprLE 8 i.index)])
    (hu : S.user iteratorManip = (iteratorIsEmpty, iteratorDefault)) :
    Selects P S (.inplace iteratorKind.plain iteratorManip) iteratorCfg :=
  ⟨_, (C76_selected h 0 0).2.1, fun nd => by
    simp only [Sem.config, Kind.plain, he, hr, Sem.decomp, Sem.manip, hu, iteratorCfg]⟩

/-- C76. `tiny::optional<int, -1>` -/
theorem C76_index_type (h : ReadmeProg P) {S : Sem (BitVec 32)} (he : S.extent (intKind P) = int32) (hr : S.repr (intKind P) = reprLE 4)
    (hc : S.const (intKind P) (-1) = -1) (hq : S.eq (intKind P) = (· == ·)) :
    Selects P S (.optional (intKind P).plain (.const ⟨intKind P, -1⟩) (.useDefault 0)) indexCfg :=
  ⟨_, (C76_selected h 0 0).2.2.1, fun nd => by
    simp only [Sem.config, Kind.plain, he, hr, Sem.decomp, Sem.manip, hc, hq, indexCfg, int32]⟩

/-- C76. `tiny::optional<MyEnum>` -/
theorem C76_enum_type (h : ReadmeProg P) {S : Sem (BitVec 32)} (he : S.extent (enumKind P) = int32) (hr : S.repr (enumKind P) = reprLE 4)
    (hu : Manip.custom (S.user enumManip).1 (S.user enumManip).2 = sentinelFlagManipulator enumMax (· == ·)) :
    Selects P S (.optional (enumKind P).plain (.useDefault 0) (.useDefault 0)) enumCfg :=
  ⟨_, (C76_selected h 0 0).2.2.2.1, fun nd => by
    simp only [Sem.config, Kind.plain, he, hr, Sem.decomp, Sem.manip, hu, enumCfg, int32]⟩

/-- C76. `tiny::optional<MyEnum, MyEnum::Max>` -/
theorem C76_enum_sentinel_type (h : ReadmeProg P) {S : Sem (BitVec 32)} (he : S.extent (enumKind P) = int32)
    (hr : S.repr (enumKind P) = reprLE 4) (hc : S.const (enumKind P) 2 = enumMax) (hq : S.eq (enumKind P) = (· == ·)) :
    Selects P S (.optional (enumKind P).plain (.const ⟨enumKind P, 2⟩) (.useDefault 0)) enumSentinelCfg :=
  ⟨_, (C76_selected h 0 0).2.2.2.2.1, fun nd => by
    simp only [Sem.config, Kind.plain, he, hr, Sem.decomp, Sem.manip, hc, hq, enumSentinelCfg, int32]⟩

/-- C76. `tiny::optional_sentinel_via_type<std::chrono::microseconds, MicroSecondsSentinel>`; `v` stands for `microseconds::min()`. -/
theorem C76_micro_type (h : ReadmeProg P) {S : Sem (BitVec 64)} {v : Int} (he : S.extent microKind = word64) (hr : S.repr microKind = reprLE 8)
    (hc : S.const microKind v = BitVec.intMin 64) (hq : S.eq microKind = (· == ·)) :
    Selects P S (.viaType microKind.plain (.value ⟨microKind, v⟩) (.useDefault 0)) microCfg :=
  ⟨_, (C76_selected h 0 v).2.2.2.2.2.1, fun nd => by
    simp only [Sem.config, Kind.plain, he, hr, Sem.decomp, Sem.manip, hc, hq, microCfg, word64]⟩

/-- What the members of `Data` are. The value of a member is represented by any `Data` with that member. -/
structure DataSem (P : Model.Prog) (more : Nat) (S : Sem Data) : Prop where
  members : S.members 3 = [(intKind P).plain, (Kind.flt 1).plain, (Kind.ptr more).plain]
  get : ∀ k, S.get 3 k = id
  intExtent : S.extent (intKind P) = int32
  doubleExtent : S.extent (.flt 1) = word64
  ptrExtent : S.extent (.ptr more) = word64
  intRepr : S.repr (intKind P) = fun d => reprLE 4 d.var1
  doubleRepr : S.repr (.flt 1) = fun d => reprLE 8 d.var2
  ptrRepr : S.repr (.ptr more) = fun d => reprLE 8 d.var3
  intEq : S.eq (intKind P) = fun a b => a.var1 == b.var1
  minusOne : S.const (intKind P) (-1) = ⟨-1, 0, 0⟩

theorem DataSem.layout {S : Sem Data} {more : Nat} (hs : DataSem P more S) (hl : S.Lawful P) :
    S.memberExtents 3 = dataExtents ∧ S.extent dataKind = classExtent dataExtents ∧
      S.repr dataKind = fun d => classRepr (dataMembers d) := by
  have h1 : S.memberExtents 3 = dataExtents := by
    simp [Sem.memberExtents, hs.members, Kind.plain, hs.intExtent, hs.doubleExtent, hs.ptrExtent, dataExtents]
  refine ⟨h1, by rw [dataKind, hl.clsExtent, h1], ?_⟩
  funext d
  rw [dataKind, hl.clsRepr]
  simp [hs.members, Kind.plain, hs.intExtent, hs.doubleExtent, hs.ptrExtent, hs.get, hs.intRepr, hs.doubleRepr, hs.ptrRepr, dataMembers]

/-- C76. `tiny::optional<Data, &Data::var1, -1>` -/
theorem C76_data1_type (h : ReadmeProg P) {S : Sem Data} {more : Nat} (hl : S.Lawful P) (hs : DataSem P more S) :
    Selects P S (.optional dataKind.plain (.memPtr (var1Ptr P)) (.const ⟨intKind P, -1⟩)) data1Cfg :=
  ⟨_, (C76_selected h more 0).2.2.2.2.2.2.1, fun nd => by
    obtain ⟨h1, h2, h3⟩ := hs.layout hl
    simp only [Sem.config, Kind.plain, h2, h3, Sem.decomp, Sem.manip, Sem.memberLoc, Sem.offset, var1Ptr, h1, hs.get, hs.intExtent, hs.intRepr,
      hs.intEq, hs.minusOne, data1Cfg, int32]⟩

/-- C76. `tiny::optional<Data, &Data::var2>` -/
theorem C76_data2_type (h : ReadmeProg P) {S : Sem Data} {more : Nat} (hl : S.Lawful P) (hs : DataSem P more S) :
    Selects P S (.optional dataKind.plain (.memPtr var2Ptr) (.useDefault 0)) data2Cfg :=
  ⟨_, (C76_selected h more 0).2.2.2.2.2.2.2.1, fun nd => by
    obtain ⟨h1, h2, h3⟩ := hs.layout hl
    simp only [Sem.config, Kind.plain, h2, h3, Sem.decomp, Sem.manip, Sem.memberLoc, Sem.offset, var2Ptr, h1, hs.get, hs.doubleExtent,
      hs.doubleRepr, data2Cfg, word64]⟩

/-- C76. `tiny::optional<Data, &Data::var3>` -/
theorem C76_data3_type (h : ReadmeProg P) {S : Sem Data} {more : Nat} (hl : S.Lawful P) (hs : DataSem P more S) :
    Selects P S (.optional dataKind.plain (.memPtr (var3Ptr more)) (.useDefault 0)) data3Cfg :=
  ⟨_, (C76_selected h more 0).2.2.2.2.2.2.2.2, fun nd => by
    obtain ⟨h1, h2, h3⟩ := hs.layout hl
    simp only [Sem.config, Kind.plain, h2, h3, Sem.decomp, Sem.manip, Sem.memberLoc, Sem.offset, var3Ptr, h1, hs.get, hs.ptrExtent,
      hs.ptrRepr, data3Cfg, word64]⟩

/-! ### Instances -/

/-- The program of the README on x64 Linux. -/
def readmeProg : Model.Prog where
  dm := lp64
  set := ⟨false, false, false, .x64⟩
  shortRank := 2
  longRank := 4
  llongRank := 5
  full t := if t = (Kind.cls 1).plain then some 1 else if t = (Kind.enumScoped 5 ⟨3, true, 0⟩).plain then some 2 else none
  partials _ := []
  manipNoexcept _ := true
  eqNoexcept _ := true
  payloadOK _ := true

theorem readmeProg_ok : ReadmeProg readmeProg where
  arch := rfl
  bits := rfl
  member := rfl
  indexPair := rfl
  enum := rfl
  others k hk := by
    refine ⟨?_, rfl⟩
    rcases hk with rfl | rfl | rfl | ⟨m, rfl⟩ <;> simp [readmeProg, Kind.plain, intKind, microKind]
  manips _ := rfl
  eqs _ := rfl
  payload _ := rfl

/-- The meaning of `Data` and its members; other types have one byte. -/
def dataSem : Sem Data where
  extent
    | .cls 3 => classExtent dataExtents
    | .cls _ => classExtent []
    | .int ⟨3, _, _⟩ => int32
    | .flt 0 => int32
    | .flt _ | .ptr _ => word64
    | _ => bool8
  repr
    | .cls 3 => fun d => classRepr (dataMembers d)
    | .cls _ => fun _ => classRepr []
    | .int _ => fun d => reprLE 4 d.var1
    | .flt _ => fun d => reprLE 8 d.var2
    | _ => fun d => reprLE 8 d.var3
  members
    | 3 => [(Kind.int ⟨3, true, 0⟩).plain, (Kind.flt 1).plain, (Kind.ptr 0).plain]
    | _ => []
  get _ _ := id
  eq _ a b := a.var1 == b.var1
  const _ v := ⟨BitVec.ofInt 32 v, 0, 0⟩
  user _ := (fun _ => true, ⟨0, 0, 0⟩)

theorem dataSem_ok : DataSem readmeProg 0 dataSem := ⟨rfl, fun _ => rfl, rfl, rfl, rfl, rfl, rfl, rfl, rfl, rfl⟩

theorem dataSem_lawful : dataSem.Lawful readmeProg where
  ok k := by
    unfold dataSem
    simp only []
    split <;> exact ⟨by decide, by decide, by decide⟩
  clsExtent c := by
    by_cases h : c = 3
    · subst h; rfl
    · simp [dataSem, Sem.memberExtents]
  clsRepr c v := by
    by_cases h : c = 3
    · subst h; rfl
    · simp [dataSem]
  bool := rfl
  float := rfl
  double := rfl
  ptr64 _ _ := rfl
  ptr32 h := by cases h

example := C76_selected readmeProg_ok
example := C76_data1_type readmeProg_ok dataSem_lawful dataSem_ok
example := C76_data2_type readmeProg_ok dataSem_lawful dataSem_ok
example := C76_data3_type readmeProg_ok dataSem_lawful dataSem_ok

/-- A meaning in which all types have the same size and representation, and all manipulators are the same. -/
def sameSem {V : Type} (e : Extent) (r : V → Nat → Option Byte) (eq : V → V → Bool) (const : Int → V) (isEmpty : V → Bool) (flag : V) : Sem V :=
  ⟨fun _ => e, fun _ => r, fun _ => [], fun _ _ => id, fun _ => eq, fun _ => const, fun _ => (isEmpty, flag)⟩

example := C76_index_pair_type readmeProg_ok (S := sameSem (classExtent [int32, int32]) (fun p => classRepr (indexPairMembers p)) (· == ·)
  (fun _ => ⟨0, 0⟩) indexPairIsEmpty indexPairInit) rfl rfl rfl
example := C76_iterator_type readmeProg_ok (S := sameSem (classExtent [bool8, word64])
  (fun i => classRepr [(bool8, boolRepr i.isValid), (word64, reprLE 8 i.index)]) (· == ·) (fun _ => iteratorDefault)
  iteratorIsEmpty iteratorDefault) rfl rfl rfl
example := C76_index_type readmeProg_ok (S := sameSem int32 (reprLE 4) (· == ·) (BitVec.ofInt 32) (fun _ => true) 0) rfl rfl rfl rfl
example := C76_enum_type readmeProg_ok (S := sameSem int32 (reprLE 4) (· == ·) (BitVec.ofInt 32) (· == enumMax) enumMax) rfl rfl rfl
example := C76_enum_sentinel_type readmeProg_ok (S := sameSem int32 (reprLE 4) (· == ·) (BitVec.ofInt 32) (fun _ => true) 0) rfl rfl rfl rfl
example := C76_micro_type readmeProg_ok (v := -2 ^ 63) (S := sameSem word64 (reprLE 8) (· == ·) (BitVec.ofInt 64) (fun _ => true) 0)
  rfl rfl (by decide) rfl

end Verif.Props
