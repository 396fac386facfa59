import Verif.Props.Select
import Verif.Lemmas.Reserved
import Verif.ExampleTypes

/-!
# C31: the flag in a member variable

For every accepted instantiation whose flag is in the member `p` of the payload.
-/

namespace Verif.Props
open Verif Verif.Model Verif.Spec Verif.Examples

variable {P : Model.Prog} {V G : Type} {S : Sem V} {e : Entry} {i : Inst} {p : MemPtr} {nd : Bool}

/-- Byte `j` of the optional belongs to the `k`-th member of class `c`. -/
def InMember (S : Sem V) (c k : Nat) (t : QTy) (j : Nat) : Prop :=
  S.offset c k ≤ j ∧ j < S.offset c k + (S.extent t.kind).size

theorem config_loc (hd : i.decomp = .viaMember p) : (S.config i nd).loc = S.memberLoc p := by
  simp [Sem.config, Config.loc, Sem.decomp, hd]

theorem member_matched (hS : S.Lawful P) (h : compile P e = .ok i) (hd : i.decomp = .viaMember p) :
    i.manip ≠ .separate ∧ ∀ b, i.manip = .bits b → b.length ≤ (S.extent p.var.kind).size := by
  have hm := compile_matched hS h
  obtain ⟨t, d, m⟩ := i
  simp only [] at hd
  subst hd
  cases m <;> simp [Inst.Matched] at hm ⊢
  exact hm

/-- The member lies inside the payload, aligned, and overlaps no other member. -/
theorem C31_location (hS : S.Lawful P) (h : compile P e = .ok i) (hv : e.Valid S) (hd : i.decomp = .viaMember p) :
    e.payload = Kind.plain (.cls p.cls) ∧
    (∀ j, InMember S p.cls p.idx p.var j → j < (S.extent e.payload.kind).size) ∧
    (S.extent p.var.kind).align ∣ S.offset p.cls p.idx ∧
    ∀ k t, k ≠ p.idx → (S.members p.cls)[k]? = some t → ∀ j, InMember S p.cls k t j → ¬ InMember S p.cls p.idx p.var j := by
  obtain ⟨h1, h2⟩ := compile_member h hv p hd
  have hpay : e.payload = Kind.plain (.cls p.cls) := by rw [← compile_payload h]; exact h1
  have hmem : ∀ (k : Nat) (t : QTy), (S.members p.cls)[k]? = some t → (S.memberExtents p.cls)[k]? = some (S.extent t.kind) := by
    intro k t h
    simp [Sem.memberExtents, h]
  have hal : ∀ e ∈ S.memberExtents p.cls, 0 < e.align := by
    intro e he
    obtain ⟨q, _, rfl⟩ := List.mem_map.mp he
    exact (hS.ok _).align_pos
  have hm := hmem _ _ h2
  refine ⟨hpay, ?_, ?_, ?_⟩
  · intro j hj
    have := offsetOf_inside hal hm
    rw [hpay]
    show j < (S.extent (.cls p.cls)).size
    rw [hS.clsExtent]
    exact Nat.lt_of_lt_of_le hj.2 this
  · exact offsetsFrom_dvd (offsetOf_some (List.getElem?_eq_some_iff.mp hm).1) hm
  · intro k t hk ht j hj hj'
    have := offsetOf_disjoint hal (hmem k t ht) hm hk
    unfold InMember Sem.offset at hj hj'
    omega

/-- `w'` differs from `w` only in bytes of the member `p` of optional `x`. -/
def OnlyMember (S : Sem V) (p : MemPtr) (x : Nat) (w w' : World V G) : Prop :=
  (∀ y, y ≠ x → w'.mem y = w.mem y) ∧
  ∃ s s', w.mem x = some s ∧ w'.mem x = some s' ∧ s'.payload = s.payload ∧
    ∀ j, ¬ InMember S p.cls p.idx p.var j → s'.bytes j = s.bytes j

/-- Entering the empty state (`init_empty_flag`) writes only the bytes of the member. -/
theorem C31_enter (hS : S.Lawful P) (h : compile P e = .ok i) (hd : i.decomp = .viaMember p) {x : Nat}
    {w w' : World V G} (hr : initEmptyFlag (S.config i nd) x w = (.ok (), w')) : OnlyMember S p x w w' := by
  obtain ⟨hsep, hbits⟩ := member_matched hS h hd
  obtain ⟨s, w₁, h1, hr⟩ := bind_ok_inv hr
  obtain ⟨id, w₂, h2, hr⟩ := bind_ok_inv hr
  obtain ⟨⟨s', cr⟩, w₃, h3, hr⟩ := bind_ok_inv hr
  obtain ⟨_, w₄, h4, hr⟩ := bind_ok_inv (m := writeStorage x s') hr
  obtain ⟨hs, rfl⟩ := readStorage_inv h1
  have hm2 : w₂.mem = w₁.mem := by
    simp only [freshId, Prod.mk.injEq] at h2
    rw [← h2.2]
  have hif : (S.config i nd).initFlag id s = .ok (s', cr) ∧ w₃ = w₂ := by
    cases hif : (S.config i nd).initFlag id s with
    | error k => simp [hif, liftE, ubM] at h3
    | ok r => simp [hif, liftE, M.pure] at h3; exact ⟨by rw [h3.1], h3.2.symm⟩
  obtain ⟨hif, rfl⟩ := hif
  obtain ⟨h5, h6⟩ := writeStorage_inv h4
  have hm4 : w'.mem = w₄.mem := by
    cases cr
    · simp only [Bool.false_eq_true, if_false, pure_run, Prod.mk.injEq, true_and] at hr
      rw [hr]
    · simp only [if_true, emit, Prod.mk.injEq, true_and] at hr
      rw [← hr]
  have hl := config_loc (S := S) (nd := nd) hd
  refine ⟨fun y hy => by rw [hm4, h6 y hy, hm2], s, s', hs, by rw [hm4, h5], ?_⟩
  have hcreate : ∀ {fo : FObj V} {n : Nat} {f : Nat → Option Byte}, n ≤ (S.extent p.var.kind).size →
      (if s.payload.isSome ∨ s.flag.isSome then Except.error UB.overLive
        else if (S.config i nd).size < (S.config i nd).loc.off + n then .error .outOfBounds
        else .ok ({ s with bytes := fill s.bytes (S.config i nd).loc.off n f, flag := some fo }, true)) = .ok (s', cr) →
      s'.payload = s.payload ∧ ∀ j, ¬ InMember S p.cls p.idx p.var j → s'.bytes j = s.bytes j := by
    intro fo n f hn hc
    split at hc
    · simp at hc
    · split at hc
      · simp at hc
      · injection hc with hc
        injection hc with hc _
        subst hc
        refine ⟨rfl, fun j hj => fill_out ?_⟩
        rw [hl]
        unfold InMember at hj
        show j < S.offset p.cls p.idx ∨ S.offset p.cls p.idx + n ≤ j
        omega
  have hsz : (S.config i nd).loc.size = (S.extent p.var.kind).size := by rw [hl]; rfl
  unfold Config.initFlag at hif
  cases hm : i.manip with
  | separate => exact absurd hm hsep
  | bits b =>
    simp only [show (S.config i nd).manip = .memcpy b by simp [Sem.config, Sem.manip, hm]] at hif
    exact hcreate (hbits b hm) hif
  | assign k v =>
    simp only [show (S.config i nd).manip = .assign (S.const k v) (S.eq k) by simp [Sem.config, Sem.manip, hm]] at hif
    exact hcreate (Nat.le_of_eq hsz) hif
  | user id =>
    simp only [show (S.config i nd).manip = .custom (S.user id).1 (S.user id).2 by simp [Sem.config, Sem.manip, hm]] at hif
    exact hcreate (Nat.le_of_eq hsz) hif

/-- Leaving the empty state (`invalidate_empty_flag`) writes only the bytes of the member. -/
theorem C31_leave (hS : S.Lawful P) (h : compile P e = .ok i) (hd : i.decomp = .viaMember p) {x : Nat} {dtor : V → G → G}
    {w w' : World V G} (hi : invalidateEmptyFlag (S.config i nd) dtor x w = (.ok (), w')) : OnlyMember S p x w w' := by
  obtain ⟨hsep, _⟩ := member_matched hS h hd
  have hl := config_loc (S := S) (nd := nd) hd
  obtain ⟨s, w₁, h1, hr⟩ := bind_ok_inv hi
  obtain ⟨hs, rfl⟩ := readStorage_inv h1
  have hdec : (S.config i nd).decomp = .viaMember (S.memberLoc p) := by simp [Sem.config, Sem.decomp, hd]
  have hman : ∀ m, i.manip = m → (S.config i nd).manip = S.manip m := fun m hm => by rw [← hm]; rfl
  cases hf : s.flag with
  | none =>
    exfalso
    cases hm : i.manip with
    | separate => exact hsep hm
    | bits b => simp only [hman _ hm, Sem.manip, hf, hdec] at hr; cases hp : s.payload <;> simp [hp, ubM] at hr
    | assign k c => simp only [hman _ hm, Sem.manip, hf, hdec] at hr; cases hp : s.payload <;> simp [hp, ubM] at hr
    | user id => simp only [hman _ hm, Sem.manip, hf, hdec] at hr; cases hp : s.payload <;> simp [hp, ubM] at hr
  | some f =>
    have hr' : (writeStorage x { s with
        flag := none
        bytes := fill s.bytes (S.config i nd).loc.off (S.config i nd).loc.size (fun _ => none) } >>= fun _ => emit (.flagInval f.id) : M V G Unit) w₁ = (.ok (), w') := by
      cases hm : i.manip with
      | separate => exact absurd hm hsep
      | bits b => simp only [hman _ hm, Sem.manip, hf] at hr; exact hr
      | assign k c => simp only [hman _ hm, Sem.manip, hf] at hr; exact hr
      | user id => simp only [hman _ hm, Sem.manip, hf] at hr; exact hr
    obtain ⟨_, w₂, h2, h3⟩ := bind_ok_inv hr'
    obtain ⟨h5, h6⟩ := writeStorage_inv h2
    have hm : w'.mem = w₂.mem := by
      simp only [emit, Prod.mk.injEq, true_and] at h3
      rw [← h3]
    refine ⟨fun y hy => by rw [hm, h6 y hy], s, _, hs, (congrFun hm x).trans h5, rfl, fun j hj => ?_⟩
    dsimp only
    apply fill_out
    rw [hl]
    unfold InMember at hj
    show j < S.offset p.cls p.idx ∨ S.offset p.cls p.idx + (S.extent p.var.kind).size ≤ j
    omega

/-- What "the member holds the reserved value" means, on the member's own type and value. -/
def MemberReserved (S : Sem V) (k : Kind) (m : V) : ManipInst → Prop
  | .separate => False
  | .bits b => ∀ j, ∀ _ : j < b.length, S.repr k m j = some b[j]
  | .assign k' v => S.eq k' m (S.const k' v) = true
  | .user id => (S.user id).1 m = true

/-- The bytes of the member are determinate (true of `bool`, `float`, `double`, pointers, the types with bit patterns). -/
def MemberDeterminate (S : Sem V) (k : Kind) (m : V) : Prop := ∀ j, j < (S.extent k).size → ∃ b, S.repr k m j = some b

/-- A value of the payload is storable iff its member is not reserved; the other members do not matter. -/
theorem C31_storable (hS : S.Lawful P) (h : compile P e = .ok i) (hv : e.Valid S) (hd : i.decomp = .viaMember p) (v : V) :
    ((S.config i nd).Reserved v ↔ MemberReserved S p.var.kind (S.get p.cls p.idx v) i.manip) ∧
    (MemberDeterminate S p.var.kind (S.get p.cls p.idx v) →
      ((S.config i nd).Storable v ↔ ¬ MemberReserved S p.var.kind (S.get p.cls p.idx v) i.manip)) := by
  obtain ⟨hsep, hbits⟩ := member_matched hS h hd
  obtain ⟨h1, h2⟩ := compile_member h hv p hd
  have hl := config_loc (S := S) (nd := nd) hd
  have hb : ∀ j, j < (S.extent p.var.kind).size →
      (S.config i nd).repr v (S.offset p.cls p.idx + j) = S.repr p.var.kind (S.get p.cls p.idx v) j := by
    intro j hj
    show S.repr i.payload.kind v _ = _
    rw [h1]
    exact member_bytes hS h2 v hj
  have hoff : (S.config i nd).loc.off = S.offset p.cls p.idx := by rw [hl]; rfl
  have hproj : (S.config i nd).loc.proj v = S.get p.cls p.idx v := by rw [hl]; rfl
  have hman : (S.config i nd).manip = S.manip i.manip := rfl
  unfold Config.Reserved Config.Storable
  rw [hoff, hproj, hman]
  cases hm : i.manip with
  | separate => exact absurd hm hsep
  | bits b =>
    have hbl := hbits b hm
    simp only [Sem.manip, MemberReserved]
    have heq : (∀ j, ∀ _ : j < b.length, (S.config i nd).repr v (S.offset p.cls p.idx + j) = some b[j]) ↔
        ∀ j, ∀ _ : j < b.length, S.repr p.var.kind (S.get p.cls p.idx v) j = some b[j] := by
      constructor <;> intro h j hj
      · rw [← hb j (by omega)]; exact h j hj
      · rw [hb j (by omega)]; exact h j hj
    refine ⟨heq, fun hdet => ⟨?_, ?_⟩⟩
    · rintro ⟨_, j, hj, hne⟩ hall
      exact hne (heq.mpr hall j hj)
    · intro hn
      refine ⟨fun j hj => ?_, ?_⟩
      · rw [hb j (by omega)]
        exact hdet j (by omega)
      · have hn' := fun hx => hn (heq.mp hx)
        obtain ⟨j, hj⟩ := Classical.not_forall.mp hn'
        obtain ⟨hj, hne⟩ := Classical.not_forall.mp hj
        exact ⟨j, hj, hne⟩
  | assign k c =>
    simp only [Sem.manip, MemberReserved]
    simp
  | user id =>
    simp only [Sem.manip, MemberReserved]
    simp

/-- Two payloads that agree in the member are both storable or both not. -/
theorem C31_other_members (hd : i.decomp = .viaMember p) (hS : S.Lawful P) (h : compile P e = .ok i) (hv : e.Valid S)
    {v v' : V} (hvv : S.get p.cls p.idx v = S.get p.cls p.idx v')
    (hdet : MemberDeterminate S p.var.kind (S.get p.cls p.idx v)) :
    (S.config i nd).Storable v ↔ (S.config i nd).Storable v' := by
  rw [(C31_storable hS h hv hd v).2 hdet, (C31_storable hS h hv hd v').2 (hvv ▸ hdet), hvv]

/-- Bit patterns: in every storage state the optional is empty iff the bytes of the member are the pattern. -/
theorem C31_empty_bits (hS : S.Lawful P) (h : compile P e = .ok i) (hv : e.Valid S) (hd : i.decomp = .viaMember p)
    {b : List Byte} (hm : i.manip = .bits b) (s : Storage V) :
    (S.config i nd).isEmpty s = .ok true ↔ ∀ j, ∀ _ : j < b.length, s.bytes (S.offset p.cls p.idx + j) = some b[j] := by
  have hl := config_loc (S := S) (nd := nd) hd
  have hin : S.offset p.cls p.idx + b.length ≤ (S.config i nd).size := by
    have h1 := (member_matched hS h hd).2 b hm
    obtain ⟨h2, h3⟩ := compile_member h hv p hd
    have h4 := (C31_location hS h hv hd).2.1 (S.offset p.cls p.idx + ((S.extent p.var.kind).size - 1))
    have h5 := (hS.ok p.var.kind).size_pos
    have h6 := h4 ⟨by omega, by omega⟩
    rw [← compile_payload h] at h6
    show _ ≤ (S.extent i.payload.kind).size
    omega
  unfold Config.isEmpty
  simp only [show (S.config i nd).manip = .memcpy b by simp [Sem.config, Sem.manip, hm]]
  rw [hl]
  simp only [show (S.memberLoc p).off = S.offset p.cls p.idx from rfl, if_pos hin]
  exact memcmpEq_true_iff _ _ _

/-- Sentinels and manipulators: in every storage state in which the member can be read (as a flag object of its own, or as
part of the payload), the optional is empty iff the value read is the reserved one. -/
theorem C31_empty_value (hS : S.Lawful P) (h : compile P e = .ok i) (hd : i.decomp = .viaMember p)
    (hm : ∀ b, i.manip ≠ .bits b) (s : Storage V) (m : V)
    (hs : (∃ id, s.flag = some ⟨id, some m⟩) ∨
      (s.flag = none ∧ ∃ id v, s.payload = some ⟨id, v⟩ ∧ m = S.get p.cls p.idx v)) :
    ∃ r, (S.config i nd).isEmpty s = .ok r ∧ (r = true ↔ MemberReserved S p.var.kind m i.manip) := by
  have hl := config_loc (S := S) (nd := nd) hd
  have hread : (S.config i nd).readFlag s = .ok m := by
    unfold Config.readFlag
    rcases hs with ⟨id, hf⟩ | ⟨hf, id, v, hp, rfl⟩
    · simp only [hf]
    · simp only [hf, hp, hl]; rfl
  unfold Config.isEmpty
  cases hmm : i.manip with
  | separate => exact absurd hmm (member_matched hS h hd).1
  | bits b => exact absurd hmm (hm b)
  | assign k c =>
    simp only [show (S.config i nd).manip = .assign (S.const k c) (S.eq k) by simp [Sem.config, Sem.manip, hmm], hread]
    exact ⟨_, rfl, Iff.rfl⟩
  | user id =>
    simp only [show (S.config i nd).manip = .custom (S.user id).1 (S.user id).2 by simp [Sem.config, Sem.manip, hmm], hread]
    exact ⟨_, rfl, Iff.rfl⟩

/-! ### `tiny::optional<S, &S::b>` for `struct S { char c; double d; bool b; char* p; }` -/

abbrev exMem : MemPtr := ⟨7, Kind.bool.plain, 2, false, 0⟩
abbrev exMemEntry : Entry := .optional (Kind.cls 7).plain (.memPtr exMem) (.useDefault 0)
abbrev exMemInst : Inst := ⟨(Kind.cls 7).plain, .viaMember exMem, .bits [0xfe#8]⟩

theorem exMem_compile : compile (exProg exSettings) exMemEntry = .ok exMemInst := by rfl
theorem exMem_valid : Entry.Valid exSem exMemEntry := fun _ => by decide

/-- The same with the `char` member and the sentinel 'A'. -/
abbrev exMemC : MemPtr := ⟨7, exChar.plain, 0, false, 1⟩
abbrev exMemCInst : Inst := ⟨(Kind.cls 7).plain, .viaMember exMemC, .assign exChar 65⟩

theorem exMemC_compile : compile (exProg exSettings) (.optional (Kind.cls 7).plain (.memPtr exMemC) (.const ⟨exChar, 65⟩)) =
    .ok exMemCInst := by rfl

/-- `C31_location`: the flag is the byte at offset 16 of 32; no byte of the pointer at offset 24 belongs to it. -/
example : InMember exSem 7 2 Kind.bool.plain 16 ∧ (exSem.extent (.cls 7)).size = 32 ∧
    ∀ j, InMember exSem 7 3 (Kind.ptr 0).plain j → ¬ InMember exSem 7 2 Kind.bool.plain j :=
  ⟨by unfold InMember; decide, by decide,
    (C31_location (exSem_lawful exSettings rfl) exMem_compile exMem_valid rfl).2.2.2 3 _ (by decide) rfl⟩

theorem exMem_determinate (v : ExVal) : MemberDeterminate exSem Kind.bool (exSem.get 7 2 v) := by
  intro j hj
  have : j = 0 := by
    have : (exSem.extent Kind.bool).size = 1 := rfl
    omega
  subst this
  exact ⟨_, rfl⟩

/-- `C31_storable`: a value with `b == true` may be stored, one with the bit pattern 0xfe in `b` may not. -/
example : (exSem.config exMemInst false).Storable (fun _ => 1#64) ∧
    ¬ (exSem.config exMemInst false).Storable (fun k => if k = 2 then 0xfe#64 else 1#64) := by
  have h := fun v => (C31_storable (nd := false) (exSem_lawful exSettings rfl) exMem_compile exMem_valid rfl v).2
    (exMem_determinate v)
  refine ⟨(h _).2 fun hr => absurd (hr 0 (by decide)) (by decide), fun hs => (h _).1 hs fun j hj => ?_⟩
  have : j = 0 := by simpa using hj
  subst this
  rfl

/-- `C31_other_members`: the pointer member does not matter. -/
example (v : ExVal) (p : BitVec 64) : (exSem.config exMemInst false).Storable v ↔
    (exSem.config exMemInst false).Storable (fun k => if k = 3 then p else v k) :=
  C31_other_members rfl (exSem_lawful exSettings rfl) exMem_compile exMem_valid rfl (exMem_determinate v)

/-- `C31_enter` and `C31_leave` succeed, e.g. in fresh memory and after that. -/
example : ∃ w w' w'' : World ExVal Unit, initEmptyFlag (exSem.config exMemInst false) 0 w = (.ok (), w') ∧
    OnlyMember exSem exMem 0 w w' ∧
    invalidateEmptyFlag (exSem.config exMemInst false) (fun _ g => g) 0 w' = (.ok (), w'') ∧ OnlyMember exSem exMem 0 w' w'' :=
  have hS := exSem_lawful exSettings rfl
  let w : World ExVal Unit := { (World.init () : World ExVal Unit) with
    mem := fun x => if x = 0 then some ⟨fun _ => none, none, none⟩ else none }
  let w' := (initEmptyFlag (exSem.config exMemInst false) 0 w).2
  let w'' := (invalidateEmptyFlag (exSem.config exMemInst false) (fun _ g => g) 0 w').2
  have h1 : initEmptyFlag (exSem.config exMemInst false) 0 w = (.ok (), w') := rfl
  have h2 : invalidateEmptyFlag (exSem.config exMemInst false) (fun _ g => g) 0 w' = (.ok (), w'') := rfl
  ⟨w, w', w'', h1, C31_enter hS exMem_compile rfl h1, h2, C31_leave hS exMem_compile rfl h2⟩

/-- `C31_empty_bits` and `C31_empty_value`: with 0xfe at offset 16 the first is empty; with a `char` object that is 'A' the
second is. -/
example : (exSem.config exMemInst false).isEmpty ⟨fun j => if j = 16 then some 0xfe#8 else none, none, none⟩ = .ok true ∧
    ∃ r, (exSem.config exMemCInst false).isEmpty ⟨fun _ => none, none, some ⟨3, some fun _ => 65#64⟩⟩ = .ok r ∧ r = true := by
  refine ⟨(C31_empty_bits (exSem_lawful exSettings rfl) exMem_compile exMem_valid rfl rfl _).2 fun j hj => ?_, ?_⟩
  · have : j = 0 := by simpa using hj
    subst this
    rfl
  · obtain ⟨r, h1, h2⟩ := C31_empty_value (nd := false) (exSem_lawful exSettings rfl) exMemC_compile rfl
      (by intro b h; cases h) ⟨fun _ => none, none, some ⟨3, some fun _ => 65#64⟩⟩ _ (.inl ⟨3, rfl⟩)
    exact ⟨r, h1, h2.2 (by show (exSem.eq _ _ _) = true; decide)⟩

end Verif.Props
