import Verif.Spec.Documented
import Verif.Lemmas.Layout
import Verif.Lemmas.Integral
import Verif.Model.Instance

namespace Verif.Model
open Verif.Spec

variable {P : Model.Prog}

theorem unusedBitsKnown_iff (t : QTy) : unusedBitsKnown P t = true ↔ Builtin P t ∨ Extended P t := by
  obtain ⟨k, cv⟩ := t
  unfold unusedBitsKnown Builtin Extended
  cases hb : P.set.noBits with
  | true => simp
  | false =>
    cases k <;> simp
    case flt id =>
      match id with
      | 0 => simp
      | 1 => simp
      | 2 => simp
      | n + 3 => simp

theorem not_builtin_extended {t : QTy} (h1 : Builtin P t) (h2 : Extended P t) : False := by
  obtain ⟨_, h1⟩ := h1
  obtain ⟨_, id, h2⟩ := h2
  rcases h1 with h | h | h | ⟨i, h⟩ <;> rw [h] at h2 <;> simp at h2

/-- The `#error` check leaves an architecture with known pointer sentinels when bits are exploited. -/
theorem unusedBitsSentinel_builtin {t : QTy} (h : Builtin P t) (harch : archCheck P = .ok ()) :
    ∃ s, unusedBitsSentinel P t.kind = some s := by
  obtain ⟨hb, h⟩ := h
  rcases h with h | h | h | ⟨i, h⟩ <;> rw [h]
  · exact ⟨_, rfl⟩
  · exact ⟨_, rfl⟩
  · exact ⟨_, rfl⟩
  · unfold archCheck at harch
    unfold unusedBitsSentinel
    cases ha : P.set.arch with
    | x64 => exact ⟨_, rfl⟩
    | x86 => exact ⟨_, rfl⟩
    | other => simp [ha, hb] at harch

theorem unusedBitsSentinel_extended {t : QTy} (h : Extended P t) : unusedBitsSentinel P t.kind = none := by
  obtain ⟨_, id, h⟩ := h
  rw [h]
  rfl

theorem hasCustom_plain {t : QTy} (h : hasCustom P t = .ok false) : P.full t = none ∧ P.partials t = [] ∧
    unusedBitsKnown P t = false := by
  unfold hasCustom flagManipulator at h
  cases hf : P.full t with
  | some id => simp [hf] at h
  | none =>
    match hp : P.partials t, hk : unusedBitsKnown P t with
    | [], false => simp
    | [], true => cases hs : unusedBitsSentinel P t.kind <;> simp [hf, hp, hk, hs] at h
    | [id], false => simp [hf, hp, hk] at h
    | [id], true => simp [hf, hp, hk] at h
    | _ :: _ :: _, _ => simp [hf, hp] at h

theorem hasCustom_of_plain {t : QTy} (h1 : P.full t = none) (h2 : P.partials t = [])
    (h3 : unusedBitsKnown P t = false) : hasCustom P t = .ok false := by
  simp [hasCustom, flagManipulator, h1, h2, h3]

theorem hasCustom_true (harch : archCheck P = .ok ()) (t : QTy) (hx : ¬ Extended P t) : hasCustom P t = .ok true ↔ Knows P t := by
  unfold hasCustom flagManipulator Knows
  cases hf : P.full t with
  | some id => simp
  | none =>
    cases hk : unusedBitsKnown P t with
    | false =>
      have hn : ¬ (Builtin P t ∨ Extended P t) := by
        rw [← unusedBitsKnown_iff, hk]; simp
      have hn1 : ¬ Builtin P t := fun h => hn (.inl h)
      match hp : P.partials t with
      | [] => simp [hn1]
      | [id] => simp [hn1]
      | a :: b :: l => simp
    | true =>
      have hn : Builtin P t ∨ Extended P t := (unusedBitsKnown_iff t).mp hk
      match hp : P.partials t with
      | [] =>
        rcases hn with h | h
        · obtain ⟨s, hs⟩ := unusedBitsSentinel_builtin h harch
          simp [hs, h]
        · exact absurd h hx
      | [id] =>
        rcases hn with h | h
        · simp [h]
        · exact absurd h hx
      | a :: b :: l => simp

theorem hasCustom_false (t : QTy) (hx : ¬ Extended P t) : hasCustom P t = .ok false ↔ Plain P t := by
  unfold hasCustom flagManipulator Plain
  cases hf : P.full t with
  | some id => simp
  | none =>
    cases hk : unusedBitsKnown P t with
    | false =>
      have hn : ¬ (Builtin P t ∨ Extended P t) := by
        rw [← unusedBitsKnown_iff, hk]; simp
      have hn1 : ¬ Builtin P t := fun h => hn (.inl h)
      match hp : P.partials t with
      | [] => simp [hn1]
      | [id] => simp
      | a :: b :: l => simp
    | true =>
      have hn : Builtin P t ∨ Extended P t := (unusedBitsKnown_iff t).mp hk
      match hp : P.partials t with
      | [] =>
        rcases hn with h | h
        · cases hs : unusedBitsSentinel P t.kind <;> simp [h]
        · exact absurd h hx
      | [id] => simp
      | a :: b :: l => simp

end Verif.Model

namespace Verif.Model
open Verif.Spec

variable {P : Model.Prog}

/-- The specialisation picked when no member pointer is given. -/
theorem pick_default (t : QTy) (s : SentTy) :
    pick P ⟨t, s, .useDefault 0⟩ =
      (hasCustom P t).map fun h =>
        if s.isDefault then
          (if h then .noArgsAndHasCustomFlagManipulator else .noArgsAndBehavesAsStdOptional)
        else (if h then .sentinelForTypeWithCustomFlagManipulator else .sentinel) := by
  unfold pick
  simp only [Specialisation.all, matching, Specialisation.matches, Specialisation.shape, Specialisation.cond,
    memPtrCond, NTTP.isDefaultValue]
  cases hasCustom P t with
  | error e => cases s <;> rfl
  | ok h => cases s <;> cases h <;> rfl

/-- The specialisation picked for a member pointer. -/
theorem pick_member (t : QTy) (s : SentTy) (p : MemPtr) :
    pick P ⟨t, s, .memPtr p⟩ =
      (hasCustom P p.var).map fun h =>
        if s.isDefault then
          (if h then .memPtrWithCustomFlagManipulator else .memPtrWithoutCustomFlagManipulator)
        else (if h then .sentinelAndMemPtrWithCustomFlagManipulator else .sentinelAndMemPtr) := by
  unfold pick
  simp only [Specialisation.all, matching, Specialisation.matches, Specialisation.shape, Specialisation.cond,
    memPtrCond, NTTP.isDefaultValue]
  cases hasCustom P p.var with
  | error e => cases s <;> rfl
  | ok h => cases s <;> cases h <;> rfl

/-- Any other third argument. -/
theorem pick_other (t : QTy) (s : SentTy) (m : NTTP) (h1 : m.isDefaultValue = false) (h2 : ∀ p, m ≠ .memPtr p) :
    pick P ⟨t, s, m⟩ = .error .noSpecialisation := by
  unfold pick
  simp only [Specialisation.all, matching, Specialisation.matches, Specialisation.shape, Specialisation.cond, h1]
  cases m with
  | memPtr p => exact absurd rfl (h2 p)
  | useDefault v => cases s <;> rfl
  | const c => cases s <;> rfl

end Verif.Model

namespace Verif.Model
open Verif.Spec

variable {P : Model.Prog}

theorem hasCustom_error (harch : archCheck P = .ok ()) (t : QTy) (e : Err) :
    hasCustom P t = .error e ↔ P.full t = none ∧
      ((e = .unknownUnusedBits ∧ P.partials t = [] ∧ Extended P t) ∨
       (e = .ambiguousManipulator ∧
        (2 ≤ (P.partials t).length ∨ (P.partials t ≠ [] ∧ (Builtin P t ∨ Extended P t))))) := by
  unfold hasCustom flagManipulator
  cases hf : P.full t with
  | some id => simp
  | none =>
    cases hk : unusedBitsKnown P t with
    | false =>
      have hn : ¬ (Builtin P t ∨ Extended P t) := by
        rw [← unusedBitsKnown_iff, hk]; simp
      have hn2 : ¬ Extended P t := fun h => hn (.inr h)
      match hp : P.partials t with
      | [] => simp [hn2]
      | [id] => simp [hn]
      | a :: b :: l => simp [eq_comm]
    | true =>
      have hn : Builtin P t ∨ Extended P t := (unusedBitsKnown_iff t).mp hk
      match hp : P.partials t with
      | [] =>
        rcases hn with h | h
        · obtain ⟨s, hs⟩ := unusedBitsSentinel_builtin h harch
          have : ¬ Extended P t := fun he => not_builtin_extended h he
          simp [hs, this]
        · simp [unusedBitsSentinel_extended h, h, eq_comm]
      | [id] => simp [hn, eq_comm]
      | a :: b :: l => simp [eq_comm]

/-- Decomposition and manipulator of an accepted instantiation fit together. -/
def Inst.Matched {V : Type} (S : Sem V) (i : Inst) : Prop :=
  match i.decomp, i.manip with
  | .separate, .separate => True
  | .separate, _ => False
  | _, .separate => False
  | .inplace, .bits s => s.length ≤ (S.extent i.payload.kind).size
  | .inplace, _ => True
  | .viaMember p, .bits s => s.length ≤ (S.extent p.var.kind).size
  | .viaMember _, _ => True

theorem member_bytes {V : Type} {S : Sem V} (hS : S.Lawful P) {p : MemPtr} (h2 : (S.members p.cls)[p.idx]? = some p.var)
    (v : V) {j : Nat} (hj : j < (S.extent p.var.kind).size) :
    S.repr (.cls p.cls) v (S.offset p.cls p.idx + j) = S.repr p.var.kind (S.get p.cls p.idx v) j := by
  rw [hS.clsRepr]
  have hex : ((S.members p.cls).zipIdx.map fun m =>
      (S.extent m.1.kind, S.repr m.1.kind (S.get p.cls m.2 v))).map (·.1) = S.memberExtents p.cls := by
    apply List.ext_getElem?
    intro n
    simp only [Sem.memberExtents, List.getElem?_map, List.getElem?_zipIdx]
    cases (S.members p.cls)[n]? <;> rfl
  have := classRepr_member (ms := (S.members p.cls).zipIdx.map fun m =>
      (S.extent m.1.kind, S.repr m.1.kind (S.get p.cls m.2 v))) (k := p.idx) (i := j)
      (e := S.extent p.var.kind) (r := S.repr p.var.kind (S.get p.cls p.idx v))
      (by
        intro m hm
        obtain ⟨q, _, rfl⟩ := List.mem_map.mp hm
        exact (hS.ok _).align_pos)
      (by simp [List.getElem?_map, List.getElem?_zipIdx, h2]) hj
  rw [hex] at this
  exact this

theorem config_wf {V : Type} {S : Sem V} (hS : S.Lawful P) {i : Inst} {nd : Bool}
    (hm : i.Matched S)
    (hp : ∀ p, i.decomp = .viaMember p → i.payload.kind = .cls p.cls ∧ (S.members p.cls)[p.idx]? = some p.var)
    (hr : i.Reflexive S) : (S.config i nd).WF := by
  obtain ⟨t, d, m⟩ := i
  have hmem : ∀ p : MemPtr, (S.members p.cls)[p.idx]? = some p.var →
      (S.memberExtents p.cls)[p.idx]? = some (S.extent p.var.kind) := by
    intro p h
    simp [Sem.memberExtents, h]
  have hal : ∀ c, ∀ e ∈ S.memberExtents c, 0 < e.align := by
    intro c e he
    obtain ⟨q, _, rfl⟩ := List.mem_map.mp he
    exact (hS.ok _).align_pos
  constructor
  · cases d <;> cases m <;> simp [Sem.config, Sem.decomp, Sem.manip, Inst.Matched] at hm ⊢
  · cases d with
    | separate => simp [Sem.config, Sem.decomp, Config.loc]
    | inplace => simp [Sem.config, Sem.decomp, Config.loc]
    | viaMember p =>
      obtain ⟨h1, h2⟩ := hp p rfl
      show S.offset p.cls p.idx + (S.extent p.var.kind).size ≤ (S.extent t.kind).size
      have h1' : t.kind = .cls p.cls := h1
      rw [h1', hS.clsExtent]
      exact offsetOf_inside (hal _) (hmem p h2)
  · intro v j hj
    cases d with
    | separate => simp [Sem.config, Sem.decomp, Config.loc]
    | inplace => simp [Sem.config, Sem.decomp, Config.loc]
    | viaMember p =>
      obtain ⟨h1, h2⟩ := hp p rfl
      have h1' : t.kind = .cls p.cls := h1
      show S.repr t.kind v (S.offset p.cls p.idx + j) = S.repr p.var.kind (S.get p.cls p.idx v) j
      rw [h1']
      exact member_bytes hS h2 v hj
  · intro sent hs
    cases m <;> simp [Sem.config, Sem.manip] at hs
    subst hs
    cases d with
    | separate => simp [Inst.Matched] at hm
    | inplace => exact hm
    | viaMember p => exact hm
  · intro sv eq hs
    cases m <;> simp [Sem.config, Sem.manip] at hs
    obtain ⟨rfl, rfl⟩ := hs
    exact hr
  · intro q ev hs
    cases m <;> simp [Sem.config, Sem.manip] at hs
    obtain ⟨rfl, rfl⟩ := hs
    exact hr

end Verif.Model

namespace Verif.Model
open Verif.Spec

variable {P : Model.Prog}

/-- What `instantiate` checks and produces for the manipulator. -/
def ManipRel (P : Model.Prog) : ManipSel → ManipInst → Prop
  | .separate, m => m = .separate
  | .registered t, m => (∃ b, flagManipulator P t = .ok (.bits b) ∧ m = .bits b) ∨
      (∃ id, flagManipulator P t = .ok (.user id) ∧ m = .user id)
  | .assign t c, m => ∃ v, convertSentinel P.dm t.kind c = some v ∧ m = .assign t.kind v
  | .custom id, m => m = .user id

theorem ite_ok {α ε : Type} {b : Bool} {x y : α} {e : ε}
    (h : (if b = true then Except.ok x else Except.error e) = Except.ok y) : b = true ∧ x = y := by
  cases b
  · simp at h
  · simpa using h

theorem instantiateManip_ok {s : ManipSel} {m : ManipInst} (h : instantiateManip P s = .ok m) : ManipRel P s m := by
  cases s with
  | separate => simp [instantiateManip] at h; exact h.symm
  | registered t =>
    simp only [instantiateManip] at h
    cases hf : flagManipulator P t with
    | error e => simp [hf] at h
    | ok r =>
      cases r with
      | nothing => simp [hf] at h
      | bits b => simp [hf] at h; exact .inl ⟨b, hf, h.symm⟩
      | user id => simp only [hf] at h; exact .inr ⟨id, hf, (ite_ok h).2.symm⟩
  | assign t c =>
    simp only [instantiateManip] at h
    cases hc : convertSentinel P.dm t.kind c with
    | none => simp [hc] at h
    | some v => simp only [hc] at h; exact ⟨v, hc, (ite_ok h).2.symm⟩
  | custom id => exact (ite_ok h).2.symm

theorem instantiate_ok {s : Selected} {i : Inst} (h : instantiate P s = .ok i) :
    archCheck P = .ok () ∧ P.payloadOK s.payload = true ∧ i.payload = s.payload ∧ i.decomp = s.decomp ∧
    (∀ p, s.decomp = .viaMember p → p.null = false) ∧ ManipRel P s.manip i.manip := by
  obtain ⟨t, d, m⟩ := s
  unfold instantiate at h
  cases ha : archCheck P with
  | error e => simp [ha, bind, Except.bind] at h
  | ok u =>
    cases hd : checkMemPtr d with
    | error e => simp [ha, hd, bind, Except.bind] at h
    | ok u =>
      cases hm : instantiateManip P m with
      | error e => simp [ha, hd, hm, bind, Except.bind] at h
      | ok m' =>
        simp only [ha, hd, hm, bind, Except.bind, pure, Except.pure] at h
        obtain ⟨hp, rfl⟩ := ite_ok h
        refine ⟨rfl, hp, rfl, rfl, ?_, instantiateManip_ok hm⟩
        rintro p rfl
        cases hn : p.null with
        | false => rfl
        | true => simp [checkMemPtr, hn] at hd

/-- All possible outcomes of `SelectDecomposition`. -/
theorem selectDecomposition_ok {a : Args} {s : Selected} (h : selectDecomposition P a = .ok s) :
    s.payload = a.payload ∧
    ((s.decomp = .separate ∧ s.manip = .separate ∧
        ((a.sentinel = .useDefault ∧ a.memPtr = .useDefault 0 ∧ hasCustom P a.payload = .ok false) ∨
         (P.set.noMem = true ∧ ∃ p, a.memPtr = .memPtr p))) ∨
     (s.decomp = .inplace ∧ a.memPtr = .useDefault 0 ∧
        ((s.manip = .registered a.payload ∧ a.sentinel = .useDefault) ∨
         (∃ c, s.manip = .assign a.payload c ∧ a.sentinel = .value c))) ∨
     (∃ p, s.decomp = .viaMember p ∧ a.memPtr = .memPtr p ∧ P.set.noMem = false ∧
        a.payload = Kind.plain (.cls p.cls) ∧
        ((s.manip = .registered p.var ∧ a.sentinel = .useDefault) ∨
         (∃ c, s.manip = .assign p.var c ∧ a.sentinel = .value c)))) := by
  obtain ⟨t, sent, m⟩ := a
  unfold selectDecomposition at h
  by_cases hm : ∃ p, m = .memPtr p
  · obtain ⟨p, rfl⟩ := hm
    rw [pick_member] at h
    cases hc : hasCustom P p.var with
    | error e => simp [hc, Except.map, bind, Except.bind] at h
    | ok x =>
      by_cases ht : t = Kind.plain (.cls p.cls)
      · cases hn : P.set.noMem <;> cases sent <;> cases x <;>
          simp [hc, Except.map, bind, Except.bind, SentTy.isDefault, Specialisation.body, memberBody, ht, hn] at h <;>
          subst h <;> simp [ht]
      · cases hn : P.set.noMem <;> cases sent <;> cases x <;>
          simp [hc, Except.map, bind, Except.bind, SentTy.isDefault, Specialisation.body, memberBody, ht, hn] at h
  · cases hd : m.isDefaultValue with
    | true =>
      have hm0 : m = .useDefault 0 := by
        cases m with
        | useDefault v => cases v with
          | zero => rfl
          | succ v => simp [NTTP.isDefaultValue] at hd
        | memPtr p => simp [NTTP.isDefaultValue] at hd
        | const c => simp [NTTP.isDefaultValue] at hd
      subst hm0
      rw [pick_default] at h
      cases hc : hasCustom P t with
      | error e => simp [hc, Except.map, bind, Except.bind] at h
      | ok x =>
        cases sent <;> cases x <;>
          simp [hc, Except.map, bind, Except.bind, SentTy.isDefault, Specialisation.body] at h <;>
          subst h <;> simp
    | false =>
      rw [pick_other t sent m hd (fun p hp => hm ⟨p, hp⟩)] at h
      simp [bind, Except.bind] at h

theorem bytesLE_length {W : Nat} (n : Nat) (v : BitVec W) : (bytesLE n v).length = n := by simp [bytesLE]

theorem flagManipulator_bits {t : QTy} {b : List Byte} (h : flagManipulator P t = .ok (.bits b)) :
    P.full t = none ∧ P.partials t = [] ∧ unusedBitsKnown P t = true ∧ unusedBitsSentinel P t.kind = some b := by
  unfold flagManipulator at h
  cases hf : P.full t with
  | some id => simp [hf] at h
  | none =>
    match hp : P.partials t, hk : unusedBitsKnown P t with
    | [], false => simp [hf, hp, hk] at h
    | [], true =>
      cases hs : unusedBitsSentinel P t.kind with
      | none => simp [hf, hp, hk, hs] at h
      | some s => simp [hf, hp, hk, hs] at h; simp [h]
    | [id], false => simp [hf, hp, hk] at h
    | [id], true => simp [hf, hp, hk] at h
    | _ :: _ :: _, _ => simp [hf, hp] at h

theorem flagManipulator_bits_size {V : Type} {S : Sem V} (hS : S.Lawful P) {t : QTy} {b : List Byte}
    (h : flagManipulator P t = .ok (.bits b)) : b.length = (S.extent t.kind).size := by
  obtain ⟨_, _, _, hs⟩ := flagManipulator_bits h
  obtain ⟨k, cv⟩ := t
  unfold unusedBitsSentinel at hs
  split at hs
  · rename_i hk; simp at hk; subst hk; injection hs with hs; subst hs; rw [bytesLE_length]; exact hS.bool.symm
  · rename_i hk; simp at hk; subst hk; injection hs with hs; subst hs; rw [bytesLE_length]; exact hS.float.symm
  · rename_i hk; simp at hk; subst hk; injection hs with hs; subst hs; rw [bytesLE_length]; exact hS.double.symm
  · rename_i i hk
    simp at hk
    subst hk
    cases ha : P.set.arch with
    | x64 => simp [ha] at hs; subst hs; rw [bytesLE_length]; exact (hS.ptr64 ha i).symm
    | x86 => simp [ha] at hs; subst hs; rw [bytesLE_length]; exact (hS.ptr32 ha i).symm
    | other => simp [ha] at hs
  · simp at hs

end Verif.Model

namespace Verif.Model
open Verif.Spec

variable {P : Model.Prog}

theorem optionalSentinelViaType_ok {t : QTy} {s : SentTy} {m : NTTP} {i : Inst}
    (h : optionalSentinelViaType P t s m = .ok i) :
    ∃ sel, selectDecomposition P ⟨t, s, m⟩ = .ok sel ∧ instantiate P sel = .ok i := by
  unfold optionalSentinelViaType at h
  cases hs : selectDecomposition P ⟨t, s, m⟩ with
  | error e => simp [hs, bind, Except.bind] at h
  | ok sel => exact ⟨sel, rfl, by simpa [hs, bind, Except.bind] using h⟩

/-- `optional<t, a, b>` is an `optional_sentinel_via_type`. -/
theorem tinyOptional_eq (t : QTy) (a b : NTTP) : ∃ s m, tinyOptional P t a b = optionalSentinelViaType P t s m ∧
    (m = .useDefault 0 ∨ ∃ p, m = .memPtr p ∧ a = .memPtr p) := by
  cases a with
  | useDefault u => exact ⟨_, _, rfl, .inl rfl⟩
  | const c => exact ⟨_, _, rfl, .inl rfl⟩
  | memPtr p => exact ⟨_, _, rfl, .inr ⟨p, rfl, rfl⟩⟩

theorem optionalAip_ok {t : QTy} {s : Option NTTP} {i : Inst} (h : optionalAip P t s = .ok i) :
    ∃ a, tinyOptional P t a (.useDefault 0) = .ok i ∧
      (s = some a ∨ (s = none ∧ selectSentinelValueWithSwallowing P t = .ok a)) := by
  unfold optionalAip at h
  cases s with
  | some a => exact ⟨a, by simpa [bind, Except.bind, pure, Except.pure] using h, .inl rfl⟩
  | none =>
    cases hs : selectSentinelValueWithSwallowing P t with
    | error e => simp [hs, bind, Except.bind] at h
    | ok a => exact ⟨a, by simpa [hs, bind, Except.bind] using h, .inr ⟨rfl, rfl⟩⟩

/-- The automatic sentinel of `optional_aip` is no member pointer. -/
theorem swallowing_ok {t : QTy} {a : NTTP} (h : selectSentinelValueWithSwallowing P t = .ok a) :
    (a = .useDefault 0 ∧ hasCustom P t = .ok true) ∨
    (hasCustom P t = .ok false ∧ ∃ r sgn, t.kind = .int ⟨r, sgn, 0⟩ ∧
      (r = P.shortRank ∨ r = P.dm.intRank ∨ r = P.longRank ∨ r = P.llongRank) ∧
      a = .const ⟨.int (IntTy.promote P.dm ⟨r, sgn, 0⟩),
        if sgn then IntTy.min P.dm ⟨r, sgn, 0⟩ else IntTy.max P.dm ⟨r, sgn, 0⟩⟩) := by
  unfold selectSentinelValueWithSwallowing at h
  cases hc : hasCustom P t with
  | error e => simp [hc, bind, Except.bind] at h
  | ok x =>
    cases x with
    | true =>
      simp [hc, bind, Except.bind, pure, Except.pure] at h
      exact .inl ⟨h.symm, rfl⟩
    | false =>
      simp [hc, bind, Except.bind] at h
      refine .inr ⟨rfl, ?_⟩
      unfold swallowingDefaultSentinel at h
      split at h
      · rename_i r sgn hk
        split at h
        · rename_i hr
          injection h with h
          exact ⟨r, sgn, hk, hr, h.symm⟩
        · simp at h
      · simp at h

/-- An accepted member decomposition: the class is the payload and the pointer is valid. -/
theorem viaType_member {V : Type} {S : Sem V} {t : QTy} {s : SentTy} {m : NTTP} {i : Inst}
    (h : optionalSentinelViaType P t s m = .ok i) (hv : m.Valid S) :
    ∀ p, i.decomp = .viaMember p → i.payload = Kind.plain (.cls p.cls) ∧ (S.members p.cls)[p.idx]? = some p.var := by
  obtain ⟨sel, hs, hi⟩ := optionalSentinelViaType_ok h
  obtain ⟨_, _, hp, hd, hn, _⟩ := instantiate_ok hi
  obtain ⟨hpay, hcase⟩ := selectDecomposition_ok hs
  intro p hip
  rw [hip] at hd
  rcases hcase with ⟨h1, _⟩ | ⟨h1, _⟩ | ⟨q, h1, hm, _, hcls, _⟩
  · rw [h1] at hd; simp at hd
  · rw [h1] at hd; simp at hd
  · rw [h1] at hd
    injection hd with hd
    subst hd
    simp only at hm hcls hpay
    refine ⟨by rw [hp, hpay, hcls], ?_⟩
    rw [hm] at hv
    exact hv (hn p h1)

theorem viaType_matched {V : Type} {S : Sem V} (hS : S.Lawful P) {t : QTy} {s : SentTy} {m : NTTP} {i : Inst}
    (h : optionalSentinelViaType P t s m = .ok i) : i.Matched S := by
  obtain ⟨sel, hs, hi⟩ := optionalSentinelViaType_ok h
  obtain ⟨_, _, hp, hd, _, hm⟩ := instantiate_ok hi
  obtain ⟨hpay, hcase⟩ := selectDecomposition_ok hs
  simp only at hcase
  unfold Inst.Matched
  rcases hcase with ⟨h1, h2, _⟩ | ⟨h1, _, h2⟩ | ⟨p, h1, _, _, _, h2⟩
  · rw [h2] at hm
    have hm' : i.manip = .separate := hm
    rw [hd, h1, hm']
    trivial
  · rcases h2 with ⟨h2, _⟩ | ⟨c, h2, _⟩ <;> rw [h2] at hm
    · rcases hm with ⟨b, hb, hm⟩ | ⟨id, _, hm⟩ <;> rw [hd, h1, hm]
      · rw [hp, hpay]
        exact Nat.le_of_eq (flagManipulator_bits_size hS hb)
      · trivial
    · obtain ⟨v, _, hm⟩ := hm
      rw [hd, h1, hm]
      trivial
  · rcases h2 with ⟨h2, _⟩ | ⟨c, h2, _⟩ <;> rw [h2] at hm
    · rcases hm with ⟨b, hb, hm⟩ | ⟨id, _, hm⟩ <;> rw [hd, h1, hm]
      · exact Nat.le_of_eq (flagManipulator_bits_size hS hb)
      · trivial
    · obtain ⟨v, _, hm⟩ := hm
      rw [hd, h1, hm]
      trivial

theorem inplace_ok {t : QTy} {id : Nat} {i : Inst} (h : optionalInplace P t id = .ok i) :
    i.payload = t ∧ i.decomp = .inplace ∧ i.manip = .user id := by
  obtain ⟨_, _, hp, hd, _, hm⟩ := instantiate_ok h
  exact ⟨hp, hd, hm⟩

theorem compile_payload {e : Entry} {i : Inst} (h : compile P e = .ok i) : i.payload = e.payload := by
  have hv : ∀ {t s m}, optionalSentinelViaType P t s m = .ok i → i.payload = t := by
    intro t s m h
    obtain ⟨sel, hs, hi⟩ := optionalSentinelViaType_ok h
    rw [(instantiate_ok hi).2.2.1, (selectDecomposition_ok hs).1]
  cases e with
  | optional t a b =>
    obtain ⟨s, m, he, _⟩ := tinyOptional_eq (P := P) t a b
    exact hv (he.symm.trans h)
  | viaType t s m => exact hv h
  | inplace t id => exact (inplace_ok h).1
  | aip t a =>
    obtain ⟨b, hb, _⟩ := optionalAip_ok h
    obtain ⟨s, m, he, _⟩ := tinyOptional_eq (P := P) t b (.useDefault 0)
    exact hv (he ▸ hb)

theorem compile_matched {V : Type} {S : Sem V} (hS : S.Lawful P) {e : Entry} {i : Inst} (h : compile P e = .ok i) :
    i.Matched S := by
  cases e with
  | optional t a b =>
    obtain ⟨s, m, he, _⟩ := tinyOptional_eq (P := P) t a b
    exact viaType_matched hS (he.symm.trans h)
  | viaType t s m => exact viaType_matched hS h
  | inplace t id =>
    obtain ⟨_, h2, h3⟩ := inplace_ok h
    simp [Inst.Matched, h2, h3]
  | aip t a =>
    obtain ⟨b, hb, _⟩ := optionalAip_ok h
    obtain ⟨s, m, he, _⟩ := tinyOptional_eq (P := P) t b (.useDefault 0)
    exact viaType_matched hS (he ▸ hb)

theorem compile_member {V : Type} {S : Sem V} {e : Entry} {i : Inst} (h : compile P e = .ok i) (hv : e.Valid S) :
    ∀ p, i.decomp = .viaMember p → i.payload = Kind.plain (.cls p.cls) ∧ (S.members p.cls)[p.idx]? = some p.var := by
  cases e with
  | optional t a b =>
    obtain ⟨s, m, he, hm⟩ := tinyOptional_eq (P := P) t a b
    refine viaType_member (he.symm.trans h) ?_
    rcases hm with rfl | ⟨p, rfl, rfl⟩
    · trivial
    · exact hv
  | viaType t s m => exact viaType_member h hv
  | inplace t id =>
    intro p hp
    rw [(inplace_ok h).2.1] at hp
    simp at hp
  | aip t a =>
    obtain ⟨b, hb, hs⟩ := optionalAip_ok h
    obtain ⟨s, m, he, hm⟩ := tinyOptional_eq (P := P) t b (.useDefault 0)
    refine viaType_member (he ▸ hb) ?_
    rcases hm with rfl | ⟨p, rfl, rfl⟩
    · trivial
    · rcases hs with hs | ⟨_, hs⟩
      · exact hv _ hs
      · rcases swallowing_ok hs with ⟨h, _⟩ | ⟨_, r, sgn, _, _, h⟩ <;> simp at h

end Verif.Model

namespace Verif.Model
open Verif.Spec

theorem classExtent_single {e : Extent} (h : e.OK) : classExtent [e] = e := by
  have h1 := h.align_pos
  have h2 := h.size_pos
  have ha : max e.align 1 = e.align := by omega
  have hs : max 1 e.size = e.size := by omega
  obtain ⟨s, a⟩ := e
  simp only [classExtent, classAlign, List.foldr, endFrom]
  simp only at ha hs h1
  rw [ha, alignUp_of_dvd h1 (Nat.dvd_zero _), Nat.zero_add, hs, alignUp_of_dvd h1 h.mult]

theorem separateFlagStorage_eq {e : Extent} (h : e.OK) : separateFlagStorage e = ⟨e.size + e.align, e.align⟩ := by
  have h1 := h.align_pos
  have h2 := h.size_pos
  have ha : max e.align (max 1 1) = e.align := by omega
  obtain ⟨s, a⟩ := e
  simp only [separateFlagStorage, classExtent, classAlign, List.foldr, endFrom]
  simp only at ha h1 h2
  rw [ha, alignUp_of_dvd h1 (Nat.dvd_zero _), Nat.zero_add, alignUp_one]
  have hs : max 1 (s + 1) = s + 1 := by omega
  rw [hs]
  have hd : a ∣ s := h.mult
  have hle := alignUp_le (n := s + 1) h1 (Nat.dvd_add hd (Nat.dvd_refl a)) (by omega)
  have hge := alignUp_ge (n := s + 1) h1
  obtain ⟨q, hq⟩ := alignUp_dvd (s + 1) a
  obtain ⟨j, hj⟩ := hd
  have : j < q := by
    apply Nat.lt_of_mul_lt_mul_left (a := a)
    omega
  have h3 : a * (j + 1) ≤ a * q := Nat.mul_le_mul_left a this
  rw [Nat.mul_succ] at h3
  congr 1
  omega

theorem storedType_eq (d : DecompSel) {e : Extent} (h : e.OK) :
    storedType d e = match d with
      | .separate => ⟨e.size + e.align, e.align⟩
      | _ => e := by
  cases d with
  | separate => exact separateFlagStorage_eq h
  | inplace => exact classExtent_single h
  | viaMember p => exact classExtent_single h

theorem sizeofOptional_eq (d : DecompSel) {e : Extent} (h : e.OK) :
    sizeofOptional d e = match d with
      | .separate => ⟨e.size + e.align, e.align⟩
      | _ => e := by
  have hok : (storedType d e).OK := by
    cases d <;> exact classExtent_ok _
  unfold sizeofOptional
  rw [classExtent_single hok, storedType_eq d h]

end Verif.Model
