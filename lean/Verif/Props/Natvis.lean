import Verif.Lemmas.Natvis
import Verif.Lemmas.Reserved
import Verif.ExampleTypes
import Verif.Examples

/-!
# C43: the debugger visualizers

For every storage state on which `has_value()` is defined. What the full property claims and the visualizers do not
deliver: `const`/`volatile` qualified `bool`, `float` and `double`, and `void*`, get no visualizer (`C43_false`).
-/

namespace Verif.Props
open Verif Verif.Model Verif.Spec Verif.Examples

variable {P : Model.Prog} {V G : Type} {S : Sem V} {s : Selected} {i : Inst} {nd : Bool} {st : Storage V} {b : Bool}
  {ns : List Char} {version : Nat} {deref : Nat → Bool} {c : Config V}

/-- The manipulator is one of the library's: no user specialisation of `optional_flag_manipulator`. -/
def LibraryManip (P : Model.Prog) : ManipSel → Prop
  | .separate => True
  | .registered t => P.full t = none ∧ P.partials t = []
  | .assign _ _ => True
  | .custom _ => False

/-- The types for which there is a visualizer. -/
def Shown (deref : Nat → Bool) (t : QTy) : Prop :=
  t = Kind.plain .bool ∨ t = Kind.plain (.flt 0) ∨ t = Kind.plain (.flt 1) ∨ ∃ id, t.kind = .ptr id ∧ deref id = true

/-- The types whose `==` the debugger evaluates without calling a function of the program. -/
inductive BuiltinEq : Kind → Prop where
  | bool : BuiltinEq .bool
  | int (t : IntTy) : BuiltinEq (.int t)
  | flt (id : Nat) : BuiltinEq (.flt id)
  | ptr (id : Nat) : BuiltinEq (.ptr id)
  | nullptr : BuiltinEq .nullptr
  | enumUnscoped (id : Nat) (u : IntTy) : BuiltinEq (.enumUnscoped id u)
  | enumScoped (id : Nat) (u : IntTy) : BuiltinEq (.enumScoped id u)

theorem comparable_iff {k : Kind} : natvisComparable k = true ↔ BuiltinEq k := by
  constructor
  · intro h
    cases k <;> first | constructor | cases h
  · rintro (_ | _) <;> rfl

/-- The optionals of the claim: separate flag, or a library manipulator for a type in `Shown`, or an explicit sentinel for
a type that the debugger can compare. -/
def InScope (deref : Nat → Bool) (s : Selected) : Prop :=
  (s.decomp = .separate ∧ s.manip = .separate) ∨
  (s.decomp ≠ .separate ∧ ∃ t, s.manip = .registered t ∧ Shown deref t) ∨
  (s.decomp ≠ .separate ∧ ∃ t k, s.manip = .assign t k ∧ BuiltinEq t.kind)

theorem config_off (hd : i.decomp = s.decomp) : (S.config i nd).loc.off = natvisOffset S s.decomp := by
  simp only [Config.loc, Sem.config, hd]
  cases s.decomp <;> rfl

theorem memcpy_isEmpty {sent : List Byte} (hm : i.manip = .bits sent) (hb : (S.config i nd).isEmpty st = .ok b) :
    memcmpEq st.bytes (S.config i nd).loc.off sent = .ok b := by
  unfold Config.isEmpty at hb
  simp only [show (S.config i nd).manip = .memcpy sent by simp [Sem.config, Sem.manip, hm]] at hb
  split at hb
  · exact hb
  · cases hb

theorem registered_shown (hS : S.Lawful P) {t : QTy} {sent : List Byte} (hf : flagManipulator P t = .ok (.bits sent))
    (ht : Shown deref t) {off : Nat} (h : memcmpEq st.bytes off sent = .ok b) :
    (if t = Kind.plain .bool then litEq st.bytes off 1 0xfe
      else if t = Kind.plain (.flt 1) then litEq st.bytes off 8 0x7ff8fedcba987654
      else if t = Kind.plain (.flt 0) then litEq st.bytes off 4 0x7fedcba9
      else match t.kind with
        | .ptr id =>
          if deref id then
            if (S.extent t.kind).size = 4 then litEq st.bytes off 4 (0xffffffff - 8)
            else litEq st.bytes off 8 (0xffff800000000000 - 1)
          else none
        | _ => none) = some b := by
  obtain ⟨_, _, _, hs⟩ := flagManipulator_bits hf
  rcases ht with rfl | rfl | rfl | ⟨id, hk, hd⟩
  · simp only [unusedBitsSentinel, Kind.plain, Option.some.injEq] at hs
    subst hs
    simp only [if_pos]
    exact memcmpEq_litEq h (by decide)
  · simp only [unusedBitsSentinel, Kind.plain, Option.some.injEq] at hs
    subst hs
    simp [Kind.plain]
    exact memcmpEq_litEq h (by decide)
  · simp only [unusedBitsSentinel, Kind.plain, Option.some.injEq] at hs
    subst hs
    simp [Kind.plain]
    exact memcmpEq_litEq h (by decide)
  · have h1 : t ≠ Kind.plain .bool := by rintro rfl; cases hk
    have h2 : t ≠ Kind.plain (.flt 1) := by rintro rfl; cases hk
    have h3 : t ≠ Kind.plain (.flt 0) := by rintro rfl; cases hk
    rw [if_neg h1, if_neg h2, if_neg h3, hk]
    simp only [hd, if_true]
    rw [hk] at hs
    unfold unusedBitsSentinel at hs
    cases ha : P.set.arch with
    | x64 =>
      simp only [ha, Option.some.injEq] at hs
      subst hs
      rw [hS.ptr64 ha, if_neg (by decide)]
      exact memcmpEq_litEq h (by decide)
    | x86 =>
      simp only [ha, Option.some.injEq] at hs
      subst hs
      rw [hS.ptr32 ha, if_pos rfl]
      exact memcmpEq_litEq h (by decide)
    | other => simp [ha] at hs

theorem natvis_complete (hS : S.Lawful P) (hns : inlineNamespace version P.set = ns) (hi : instantiate P s = .ok i)
    (hl : LibraryManip P s.manip) (hsc : InScope deref s) (hb : (S.config i nd).isEmpty st = .ok b) :
    natvis ns version P S deref s (S.config i nd) st = some b := by
  obtain ⟨_, _, hpay, hdec, _, hm⟩ := instantiate_ok hi
  have hoff := config_off (S := S) (nd := nd) hdec
  unfold natvis
  rw [if_pos hns]
  rcases hsc with ⟨h1, h2⟩ | ⟨h1, t, h2, ht⟩ | ⟨h1, t, k, h2, ht⟩
  · rw [h2] at hm
    simp only [ManipRel] at hm
    simp only [h1, h2]
    unfold Config.isEmpty at hb
    simp only [show (S.config i nd).manip = .separate by simp [Sem.config, Sem.manip, hm]] at hb
    rw [show (S.config i nd).size = (S.extent s.payload.kind).size by simp [Sem.config, hpay]] at hb
    unfold readBool at hb
    simp only [readLE]
    cases hx : st.bytes (S.extent s.payload.kind).size with
    | none => simp [hx] at hb
    | some x =>
      simp only [hx] at hb
      split at hb
      · rename_i h; subst h; simp at hb; subst hb; rfl
      · split at hb
        · rename_i h; subst h; simp at hb; subst hb; rfl
        · cases hb
  · rw [h2] at hm hl
    rcases hm with ⟨sent, hf, hm⟩ | ⟨id, hf, _⟩
    · have h := memcpy_isEmpty hm hb
      rw [hoff] at h
      have := registered_shown hS hf ht h
      cases hd : s.decomp with
      | separate => exact absurd hd h1
      | inplace => simp only [h2]; rw [hd] at this; exact this
      | viaMember p => simp only [h2]; rw [hd] at this; exact this
    · exfalso
      obtain ⟨hl1, hl2⟩ := hl
      simp only [flagManipulator, hl1, hl2] at hf
      cases hk : unusedBitsKnown P t with
      | false => simp [hk] at hf
      | true => cases hu : unusedBitsSentinel P t.kind <;> simp [hk, hu] at hf
  · rw [h2] at hm
    replace ht := comparable_iff.mpr ht
    obtain ⟨v, hc, hm⟩ := hm
    unfold Config.isEmpty at hb
    simp only [show (S.config i nd).manip = .assign (S.const t.kind v) (S.eq t.kind) by simp [Sem.config, Sem.manip, hm]] at hb
    cases hr : (S.config i nd).readFlag st with
    | error e => simp [hr] at hb
    | ok f =>
      simp only [hr, Except.ok.injEq] at hb
      cases hd : s.decomp with
      | separate => exact absurd hd h1
      | inplace => simp only [h2, ht, if_true, hc, hb]
      | viaMember p => simp only [h2, ht, if_true, hc, hb]

/-- A visualizer that says something is in scope. -/
theorem natvis_scope {r : Bool} (h : natvis ns version P S deref s c st = some r) : inlineNamespace version P.set = ns ∧ InScope deref s := by
  unfold natvis at h
  split at h
  · rename_i hns
    refine ⟨hns, ?_⟩
    have key : ∀ t : QTy, ∀ off : Nat, (if t = Kind.plain .bool then litEq st.bytes off 1 0xfe
        else if t = Kind.plain (.flt 1) then litEq st.bytes off 8 0x7ff8fedcba987654
        else if t = Kind.plain (.flt 0) then litEq st.bytes off 4 0x7fedcba9
        else match t.kind with
          | .ptr id =>
            if deref id then
              if (S.extent t.kind).size = 4 then litEq st.bytes off 4 (0xffffffff - 8)
              else litEq st.bytes off 8 (0xffff800000000000 - 1)
            else none
          | _ => none) = some r → Shown deref t := by
      intro t off h
      by_cases h1 : t = Kind.plain .bool
      · exact .inl h1
      by_cases h2 : t = Kind.plain (.flt 1)
      · exact .inr (.inr (.inl h2))
      by_cases h3 : t = Kind.plain (.flt 0)
      · exact .inr (.inl h3)
      rw [if_neg h1, if_neg h2, if_neg h3] at h
      cases hk : t.kind with
      | ptr id =>
        cases hd : deref id with
        | true => exact .inr (.inr (.inr ⟨id, hk, hd⟩))
        | false => simp [hk, hd] at h
      | _ => simp [hk] at h
    cases hd : s.decomp <;> cases hm : s.manip <;> simp only [hd, hm] at h
    case separate.separate => exact .inl ⟨hd, hm⟩
    case inplace.registered t => exact .inr (.inl ⟨by simp [hd], t, hm, key t _ h⟩)
    case viaMember.registered p t => exact .inr (.inl ⟨by simp [hd], t, hm, key t _ h⟩)
    case inplace.assign t k =>
      refine .inr (.inr ⟨by simp [hd], t, k, hm, ?_⟩)
      split at h
      · exact comparable_iff.mp (by assumption)
      · cases h
    case viaMember.assign p t k =>
      refine .inr (.inr ⟨by simp [hd], t, k, hm, ?_⟩)
      split at h
      · exact comparable_iff.mp (by assumption)
      · cases h
    all_goals cases h
  · cases h

theorem hasValue_isEmpty {Γ : Env V G} {x : Nat} {w w' : World V G} {h : Bool} (hv : hasValue Γ x w = (.ok h, w'))
    (hst : w.mem x = some st) : (Γ x).cfg.isEmpty st = .ok (!h) := by
  rw [hasValue_eq] at hv
  simp only [hst] at hv
  cases he : (Γ x).cfg.isEmpty st with
  | error k => simp [he] at hv
  | ok e =>
    simp only [he, Prod.mk.injEq, Res.ok.injEq] at hv
    rw [← hv.1]
    simp

/-- In scope: the debugger shows "empty" exactly when `has_value()` is false, whatever the bytes of the storage. Missing
for the full property: the qualified and `void*` cases. -/
theorem C43_agrees_partial (hS : S.Lawful P) (hns : inlineNamespace version P.set = ns) (hi : instantiate P s = .ok i)
    (hl : LibraryManip P s.manip) (hsc : InScope deref s) {Γ : Env V G} {x : Nat} (hc : (Γ x).cfg = S.config i nd)
    {w w' : World V G} (hst : w.mem x = some st) {h : Bool} (hv : hasValue Γ x w = (.ok h, w')) :
    natvis ns version P S deref s (Γ x).cfg st = some (!h) := by
  have := hasValue_isEmpty hv hst
  rw [hc] at this ⊢
  exact natvis_complete hS hns hi hl hsc this

/-- The debugger is never wrong about an optional with one of the library's manipulators: if it says "empty" or "not empty",
then so does `has_value()`. -/
theorem C43_sound (hS : S.Lawful P) (hi : instantiate P s = .ok i) (hl : LibraryManip P s.manip) {Γ : Env V G} {x : Nat}
    (hc : (Γ x).cfg = S.config i nd) {w w' : World V G} (hst : w.mem x = some st) {h r : Bool}
    (hv : hasValue Γ x w = (.ok h, w')) (hr : natvis ns version P S deref s (Γ x).cfg st = some r) : r = !h := by
  obtain ⟨hns, hsc⟩ := natvis_scope hr
  have := C43_agrees_partial hS hns hi hl hsc hc hst hv
  rw [hr] at this
  exact Option.some.inj this

/-- The namespace in the shipped file. -/
def shippedNs : List Char := "tiny100301_bit_mem".toList

/-- The shipped file is made for the current version without macros, and only for that. -/
theorem C43_namespace (set : Settings) : inlineNamespace 100301 set = shippedNs ↔ set.noBits = false ∧ set.noMem = false := by
  cases h1 : set.noBits <;> cases h2 : set.noMem <;>
    simp [inlineNamespace, unusedBitsNsPart, memberNsPart, h1, h2] <;> decide

/-- A storage that holds `v` as payload of an optional with configuration `c`. -/
def holding (c : Config ExVal) (v : ExVal) : Storage ExVal := ⟨c.repr v, some ⟨0, v⟩, none⟩

/-- `tiny::optional<double const>`, `tiny::optional<void*>`: `has_value()` is defined, but the debugger shows nothing. -/
theorem C43_false : ∃ s₁ s₂ i₁ i₂,
    selectDecomposition (exProg exSettings) ⟨⟨.flt 1, ⟨true, false⟩⟩, .useDefault, .useDefault 0⟩ = .ok s₁ ∧
    selectDecomposition (exProg exSettings) ⟨Kind.plain (.ptr 5), .useDefault, .useDefault 0⟩ = .ok s₂ ∧
    instantiate (exProg exSettings) s₁ = .ok i₁ ∧ instantiate (exProg exSettings) s₂ = .ok i₂ ∧
    (exSem.config i₁ nd).isEmpty (holding (exSem.config i₁ nd) fun _ => 0) = .ok false ∧
    (exSem.config i₂ nd).isEmpty (holding (exSem.config i₂ nd) fun _ => 0) = .ok false ∧
    (∀ c st, natvis shippedNs 100301 (exProg exSettings) exSem (· != 5) s₁ c st = none) ∧
    (∀ c st, natvis shippedNs 100301 (exProg exSettings) exSem (· != 5) s₂ c st = none) := by
  refine ⟨_, _, _, _, rfl, rfl, rfl, rfl, ?_, ?_, ?_, ?_⟩
  · rfl
  · rfl
  · intro c st; rfl
  · intro c st; rfl

/-- With a user's explicit specialisation of `optional_flag_manipulator` for `bool` (allowed, see C28), the debugger still
applies the library's pattern and is wrong: here the user marks "empty" with 99, the optional is empty, but is shown as
engaged. -/
theorem C43_false_user : ∃ s i,
    let P : Model.Prog := { exProg exSettings with full := fun t => if t = Kind.plain .bool then some 1 else none }
    selectDecomposition P ⟨Kind.plain .bool, .useDefault, .useDefault 0⟩ = .ok s ∧ instantiate P s = .ok i ∧
    (exSem.config i nd).isEmpty ⟨fun j => if j = 0 then some 99 else none, none, some ⟨0, some fun _ => 99⟩⟩ = .ok true ∧
    ∀ c, natvis shippedNs 100301 P exSem (· != 5) s c
      ⟨fun j => if j = 0 then some 99 else none, none, some ⟨0, some fun _ => 99⟩⟩ = some false := by
  refine ⟨_, _, rfl, rfl, rfl, ?_⟩
  intro c; rfl

/-- `tiny::optional<S, &S::b>`, shipped file: in scope; the debugger reads the byte at offset 16. -/
example : ∃ s i, selectDecomposition (exProg exSettings)
      ⟨(Kind.cls 7).plain, .useDefault, .memPtr ⟨7, Kind.bool.plain, 2, false, 0⟩⟩ = .ok s ∧
    instantiate (exProg exSettings) s = .ok i ∧ LibraryManip (exProg exSettings) s.manip ∧ InScope (· != 5) s ∧
    inlineNamespace 100301 exSettings = shippedNs ∧
    (∀ b, natvis shippedNs 100301 (exProg exSettings) exSem (· != 5) s (exSem.config i false)
      ⟨fun j => if j = 16 then some b else none, none, none⟩ = some (b.toNat == 0xfe)) := by
  refine ⟨_, _, rfl, rfl, ⟨rfl, rfl⟩, .inr (.inl ⟨by simp, _, rfl, .inl rfl⟩), rfl, ?_⟩
  intro b; rfl

/-- `C43_agrees_partial` and `C43_sound` for it, in a world with one such optional, whose member has the byte 1. -/
example :
    let s : Selected := ⟨(Kind.cls 7).plain, .viaMember ⟨7, Kind.bool.plain, 2, false, 0⟩, .registered Kind.bool.plain⟩
    let c : Config ExVal := exSem.config ⟨(Kind.cls 7).plain, .viaMember ⟨7, Kind.bool.plain, 2, false, 0⟩, .bits [0xfe#8]⟩ false
    natvis shippedNs 100301 (exProg exSettings) exSem (· != 5) s c (holding c fun _ => 1) = some false ∧
    ∀ ns version r, natvis ns version (exProg exSettings) exSem (· != 5) s c (holding c fun _ => 1) = some r → r = false := by
  intro s c
  let Γ : Env ExVal Unit := fun _ => ⟨c, scalarOps⟩
  let w : World ExVal Unit := { (World.init () : World ExVal Unit) with mem := fun _ => some (holding c fun _ => 1) }
  have hi : instantiate (exProg exSettings) s =
      .ok ⟨(Kind.cls 7).plain, .viaMember ⟨7, Kind.bool.plain, 2, false, 0⟩, .bits [0xfe#8]⟩ := rfl
  have hv : hasValue Γ 0 w = (.ok true, w) := rfl
  exact ⟨C43_agrees_partial (Γ := Γ) (exSem_lawful exSettings rfl) rfl hi ⟨rfl, rfl⟩
      (.inr (.inl ⟨by simp [s], _, rfl, .inl rfl⟩)) (x := 0) rfl (w := w) rfl hv,
    fun ns version r hr => C43_sound (Γ := Γ) (exSem_lawful exSettings rfl) hi ⟨rfl, rfl⟩ (x := 0) rfl (w := w) rfl hv hr⟩

end Verif.Props
