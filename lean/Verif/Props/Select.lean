import Verif.Model.Instance
import Verif.Lemmas.Select
import Verif.Props.Integral
import Verif.ExampleTypes

/-!
# C28, C29, C30, C39: template arguments and storage
-/

namespace Verif.Props
open Verif.Model Verif.Spec Verif.Examples

variable {P : Model.Prog}

/-! ## C28 -/

theorem C28_never_ambiguous (a : Args) : pick P a ≠ .error .ambiguousSpecialisation := by
  have hc : ∀ t, hasCustom P t ≠ .error .ambiguousSpecialisation := by
    intro t h
    unfold hasCustom flagManipulator at h
    cases hf : P.full t <;> simp [hf] at h
    match hp : P.partials t, hk : unusedBitsKnown P t with
    | [], false => simp [hp, hk] at h
    | [], true => cases hs : unusedBitsSentinel P t.kind <;> simp [hp, hk, hs] at h
    | [id], false => simp [hp, hk] at h
    | [id], true => simp [hp, hk] at h
    | _ :: _ :: _, _ => simp [hp] at h
  obtain ⟨t, s, m⟩ := a
  by_cases hm : ∃ p, m = .memPtr p
  · obtain ⟨p, rfl⟩ := hm
    rw [pick_member]
    have := hc p.var
    cases h : hasCustom P p.var with
    | ok b => simp [Except.map]
    | error e => simp [Except.map]; rintro rfl; exact this h
  · cases hd : m.isDefaultValue with
    | true =>
      have : m = .useDefault 0 := by
        cases m with
        | useDefault v => cases v with
          | zero => rfl
          | succ v => simp [NTTP.isDefaultValue] at hd
        | memPtr p => simp [NTTP.isDefaultValue] at hd
        | const c => simp [NTTP.isDefaultValue] at hd
      subst this
      rw [pick_default]
      have := hc t
      cases h : hasCustom P t with
      | ok b => simp [Except.map]
      | error e => simp [Except.map]; rintro rfl; exact this h
    | false =>
      rw [pick_other t s m hd (fun p hp => hm ⟨p, hp⟩)]
      simp

theorem C28_documented_partial (harch : archCheck P = .ok ()) (t : QTy) (a b : NTTP) (s : Selected)
    (hx : ¬ Extended P (flagTy t a)) :
    selectDecomposition P (fromConstants t a b) = .ok s ↔ Documented P t a b s := by
  have hT := fun t (h : t = flagTy _ a) => hasCustom_true harch t (h ▸ hx)
  have hF := fun t (h : t = flagTy _ a) => hasCustom_false (P := P) t (h ▸ hx)
  constructor
  · intro h
    unfold selectDecomposition at h
    cases a with
    | useDefault u =>
      simp only [fromConstants, NTTP.toSentinel, pick_default] at h
      cases hc : hasCustom P t with
      | error e => rw [hc] at h; simp [Except.map, bind, Except.bind] at h
      | ok x =>
        rw [hc] at h
        cases x <;> simp [Except.map, bind, Except.bind, SentTy.isDefault, Specialisation.body] at h <;> subst h
        · exact .std ((hF t rfl).mp hc)
        · exact .bits ((hT t rfl).mp hc)
    | const c =>
      simp only [fromConstants, NTTP.toSentinel, pick_default] at h
      cases hc : hasCustom P t with
      | error e => rw [hc] at h; simp [Except.map, bind, Except.bind] at h
      | ok x =>
        rw [hc] at h
        cases x <;> simp [Except.map, bind, Except.bind, SentTy.isDefault, Specialisation.body] at h <;> subst h
        · exact .sentinel (.inr ((hF t rfl).mp hc))
        · exact .sentinel (.inl ((hT t rfl).mp hc))
    | memPtr p =>
      simp only [fromConstants, pick_member] at h
      cases hc : hasCustom P p.var with
      | error e => rw [hc] at h; simp [Except.map, bind, Except.bind] at h
      | ok x =>
        rw [hc] at h
        have hk : Knows P p.var ∨ Plain P p.var := by
          cases x
          · exact .inr ((hF _ rfl).mp hc)
          · exact .inl ((hT _ rfl).mp hc)
        by_cases ht : t = Kind.plain (.cls p.cls)
        · cases hm : P.set.noMem with
          | true =>
            have hs : s = ⟨t, .separate, .separate⟩ := by
              cases b <;> cases x <;>
                simp [Except.map, bind, Except.bind, SentTy.isDefault, NTTP.toSentinel, Specialisation.body, memberBody,
                  ht, hm] at h <;> rw [← h, ht]
            rw [hs]
            exact .memberIgnored hm ht hk
          | false =>
            cases b <;> cases x <;>
              simp [Except.map, bind, Except.bind, SentTy.isDefault, NTTP.toSentinel, Specialisation.body, memberBody,
                  ht, hm] at h <;> rw [← ht] at h <;> subst h
            · exact .member hm ht ((hT _ rfl).mp hc) rfl
            · exact .memberSentinel hm ht hk rfl
            · exact .memberSentinel hm ht hk rfl
            · exact .memberSentinel hm ht hk rfl
            · exact .memberSentinel hm ht hk rfl
        · cases b <;> cases x <;> cases hm : P.set.noMem <;>
            simp [Except.map, bind, Except.bind, SentTy.isDefault, NTTP.toSentinel, Specialisation.body, memberBody,
              ht, hm] at h
  · intro h
    unfold selectDecomposition
    cases h with
    | std h =>
      simp [fromConstants, NTTP.toSentinel, pick_default, (hF t rfl).mpr h, Except.map, bind, Except.bind,
        SentTy.isDefault, Specialisation.body]
    | bits h =>
      simp [fromConstants, NTTP.toSentinel, pick_default, (hT t rfl).mpr h, Except.map, bind, Except.bind,
        SentTy.isDefault, Specialisation.body]
    | sentinel h =>
      rcases h with h | h
      · simp [fromConstants, NTTP.toSentinel, pick_default, (hT t rfl).mpr h, Except.map, bind, Except.bind,
          SentTy.isDefault, Specialisation.body]
      · simp [fromConstants, NTTP.toSentinel, pick_default, (hF t rfl).mpr h, Except.map, bind, Except.bind,
          SentTy.isDefault, Specialisation.body]
    | @member p _ hm ht hk hb =>
      cases b <;> simp [ThirdSentinel] at hb
      simp [fromConstants, NTTP.toSentinel, pick_member, (hT p.var rfl).mpr hk, Except.map, bind, Except.bind,
        SentTy.isDefault, Specialisation.body, memberBody, hm, Kind.plain, ht]
    | @memberSentinel p _ c hm ht hk hb =>
      rcases hk with hk | hk
      · cases b <;> simp [ThirdSentinel] at hb <;> subst hb <;>
        simp [fromConstants, NTTP.toSentinel, pick_member, (hT p.var rfl).mpr hk, Except.map, bind, Except.bind,
          SentTy.isDefault, Specialisation.body, memberBody, hm, Kind.plain, ht]
      · cases b <;> simp [ThirdSentinel] at hb <;> subst hb <;>
        simp [fromConstants, NTTP.toSentinel, pick_member, (hF p.var rfl).mpr hk, Except.map, bind, Except.bind,
          SentTy.isDefault, Specialisation.body, memberBody, hm, Kind.plain, ht]
    | @memberIgnored p _ hm ht hk =>
      rcases hk with hk | hk
      · cases b <;>
        simp [fromConstants, NTTP.toSentinel, pick_member, (hT p.var rfl).mpr hk, Except.map, bind, Except.bind,
          SentTy.isDefault, Specialisation.body, memberBody, hm, Kind.plain, ht]
      · cases b <;>
        simp [fromConstants, NTTP.toSentinel, pick_member, (hF p.var rfl).mpr hk, Except.map, bind, Except.bind,
          SentTy.isDefault, Specialisation.body, memberBody, hm, Kind.plain, ht]

theorem C28_rejected_partial (harch : archCheck P = .ok ()) (t : QTy) (a b : NTTP) (e : Err)
    (hx : ¬ Extended P (flagTy t a)) :
    selectDecomposition P (fromConstants t a b) = .error e ↔
      (e = .notAMember ∧ ∃ p, a = .memPtr p ∧ t ≠ ⟨.cls p.cls, ⟨false, false⟩⟩ ∧
        (Knows P p.var ∨ (Plain P p.var ∧ (ThirdSentinel b ≠ none ∨ P.set.noMem = true)))) ∨
      (e = .memberNeedsSentinel ∧ ∃ p, a = .memPtr p ∧ P.set.noMem = false ∧ Plain P p.var ∧ ThirdSentinel b = none) ∨
      (e = .ambiguousManipulator ∧ P.full (flagTy t a) = none ∧
        (2 ≤ (P.partials (flagTy t a)).length ∨ (P.partials (flagTy t a) ≠ [] ∧ Builtin P (flagTy t a)))) := by
  have hE : hasCustom P (flagTy t a) = .error e ↔ (e = .ambiguousManipulator ∧ P.full (flagTy t a) = none ∧
        (2 ≤ (P.partials (flagTy t a)).length ∨ (P.partials (flagTy t a) ≠ [] ∧ Builtin P (flagTy t a)))) := by
    rw [hasCustom_error harch]
    simp [hx, and_left_comm]
  have hT := hasCustom_true harch _ hx
  have hF := hasCustom_false _ hx
  rw [← hE]
  cases a with
  | memPtr p =>
    simp only [flagTy] at hT hF
    simp only [NTTP.memPtr.injEq, ne_eq, exists_eq_left', flagTy, ← hT, ← hF]
    unfold selectDecomposition
    simp only [fromConstants, pick_member]
    cases hc : hasCustom P p.var with
    | error e' => simp [Except.map, bind, Except.bind]
    | ok x =>
      by_cases ht : t = Kind.plain (.cls p.cls)
      · cases b <;> cases x <;> cases hn : P.set.noMem <;>
          simp [Except.map, bind, Except.bind, SentTy.isDefault, NTTP.toSentinel, Specialisation.body, memberBody,
            ht, hn, ThirdSentinel, Kind.plain, eq_comm]
      · have ht' : ¬ t = ⟨.cls p.cls, ⟨false, false⟩⟩ := ht
        cases b <;> cases x <;> cases hn : P.set.noMem <;>
          simp [Except.map, bind, Except.bind, SentTy.isDefault, NTTP.toSentinel, Specialisation.body, memberBody,
            ht, ht', hn, ThirdSentinel, eq_comm]
  | useDefault u =>
    unfold selectDecomposition
    simp only [fromConstants, NTTP.toSentinel, pick_default, flagTy]
    cases hc : hasCustom P t with
    | error e' => simp [Except.map, bind, Except.bind]
    | ok x => cases x <;> simp [Except.map, bind, Except.bind, SentTy.isDefault, Specialisation.body]
  | const c =>
    unfold selectDecomposition
    simp only [fromConstants, NTTP.toSentinel, pick_default, flagTy]
    cases hc : hasCustom P t with
    | error e' => simp [Except.map, bind, Except.bind]
    | ok x => cases x <;> simp [Except.map, bind, Except.bind, SentTy.isDefault, Specialisation.body]

/-- Whatever is given as sentinel, `optional` of an extended floating point type is rejected with the message "This is a
bug in the tiny-optional library" unless the user has specialised `optional_flag_manipulator` explicitly:
`SentinelForExploitingUnusedBitsIsKnown` holds for it, but there is no `SentinelForExploitingUnusedBits`. -/
theorem C28_extended (harch : archCheck P = .ok ()) (t : QTy) (a b : NTTP) (hx : Extended P (flagTy t a))
    (hf : P.full (flagTy t a) = none) (hp : P.partials (flagTy t a) = []) :
    tinyOptional P t a b = .error .unknownUnusedBits := by
  have hE : hasCustom P (flagTy t a) = .error .unknownUnusedBits := by
    rw [hasCustom_error harch]
    exact ⟨hf, .inl ⟨rfl, hp, hx⟩⟩
  unfold tinyOptional optionalSentinelViaType selectDecomposition
  cases a with
  | memPtr p =>
    simp only [fromConstants, pick_member]
    simp only [flagTy] at hE
    simp [hE, Except.map, bind, Except.bind]
  | useDefault u =>
    simp only [fromConstants, NTTP.toSentinel, pick_default]
    simp only [flagTy] at hE
    simp [hE, Except.map, bind, Except.bind]
  | const c =>
    simp only [fromConstants, NTTP.toSentinel, pick_default]
    simp only [flagTy] at hE
    simp [hE, Except.map, bind, Except.bind]

/-- Every accepted instantiation, through whatever alias, yields a well-formed configuration, so that the theorems about
operations apply to it. -/
theorem C28_wf {V : Type} {S : Sem V} (hS : S.Lawful P) {e : Entry} {i : Inst} (h : compile P e = .ok i)
    (hv : e.Valid S) (hr : i.Reflexive S) (ndebug : Bool) : (S.config i ndebug).WF := by
  refine config_wf hS (compile_matched hS h) ?_ hr
  intro p hp
  obtain ⟨h1, h2⟩ := compile_member h hv p hp
  exact ⟨by rw [h1]; rfl, h2⟩

/-- False in general: for an extended floating point type the README promises the storage of `std::optional`, but the program
is rejected (see `C28_extended`). -/
theorem C28_false : ∃ (P : Model.Prog) (t : QTy), archCheck P = .ok () ∧ Documented P t (.useDefault 0) (.useDefault 0)
      ⟨t, .separate, .separate⟩ ∧ tinyOptional P t (.useDefault 0) (.useDefault 0) = .error .unknownUnusedBits :=
  ⟨exProg exSettings, (Kind.flt 3).plain, rfl, .std ⟨rfl, rfl, fun h => by simp [Builtin, Kind.plain] at h⟩, rfl⟩

/-- The table of the README on a concrete program: `int` (separate), `const double`, a class with a manipulator, `int` with
sentinel -1, `bool` with sentinel `true`, `S` with a `bool` member and with a `char` member plus sentinel; errors: a
`char` member without sentinel, a member of another class, sentinel out of range. -/
example :
    let p := exProg exSettings
    tinyOptional p exInt.plain (.useDefault 0) (.useDefault 0) = .ok ⟨exInt.plain, .separate, .separate⟩ ∧
    tinyOptional p ⟨.flt 1, ⟨true, false⟩⟩ (.useDefault 0) (.useDefault 0) =
      .ok ⟨⟨.flt 1, ⟨true, false⟩⟩, .inplace, .bits [0x54, 0x76, 0x98, 0xba, 0xdc, 0xfe, 0xf8, 0x7f]⟩ ∧
    tinyOptional p (Kind.cls 9).plain (.useDefault 0) (.useDefault 0) = .ok ⟨(Kind.cls 9).plain, .inplace, .user 1⟩ ∧
    tinyOptional p exInt.plain (.const ⟨exInt, -1⟩) (.useDefault 0) = .ok ⟨exInt.plain, .inplace, .assign exInt (-1)⟩ ∧
    tinyOptional p Kind.bool.plain (.const ⟨.bool, 1⟩) (.useDefault 0) = .ok ⟨Kind.bool.plain, .inplace, .assign .bool 1⟩ ∧
    tinyOptional p (Kind.cls 7).plain (.memPtr ⟨7, Kind.bool.plain, 2, false, 0⟩) (.useDefault 0) =
      .ok ⟨(Kind.cls 7).plain, .viaMember ⟨7, Kind.bool.plain, 2, false, 0⟩, .bits [0xfe]⟩ ∧
    tinyOptional p (Kind.cls 7).plain (.memPtr ⟨7, exChar.plain, 0, false, 1⟩) (.const ⟨exChar, 65⟩) =
      .ok ⟨(Kind.cls 7).plain, .viaMember ⟨7, exChar.plain, 0, false, 1⟩, .assign exChar 65⟩ ∧
    tinyOptional p (Kind.cls 7).plain (.memPtr ⟨7, exChar.plain, 0, false, 1⟩) (.useDefault 0) =
      .error .memberNeedsSentinel ∧
    tinyOptional p (Kind.cls 8).plain (.memPtr ⟨7, Kind.bool.plain, 2, false, 0⟩) (.useDefault 0) = .error .notAMember ∧
    tinyOptional p exUnsigned.plain (.const ⟨exInt, -1⟩) (.useDefault 0) = .error .sentinel :=
  ⟨rfl, rfl, rfl, rfl, rfl, rfl, rfl, rfl, rfl, rfl⟩

/-- `C28_documented_partial` for `optional<double>`, `C28_rejected_partial` for a `char` member without sentinel,
`C28_extended` for an extended floating point type with a sentinel. -/
example : Documented (exProg exSettings) (Kind.flt 1).plain (.useDefault 0) (.useDefault 0) ⟨(Kind.flt 1).plain, .inplace, .registered (Kind.flt 1).plain⟩ ∧
    selectDecomposition (exProg exSettings) (fromConstants (Kind.cls 7).plain (.memPtr ⟨7, exChar.plain, 0, false, 1⟩)
      (.useDefault 0)) = .error .memberNeedsSentinel ∧
    tinyOptional (exProg exSettings) (Kind.flt 3).plain (.const ⟨.flt 3, 1⟩) (.useDefault 0) = .error .unknownUnusedBits :=
  ⟨(C28_documented_partial rfl _ _ _ _ (by simp [Extended, flagTy, Kind.plain])).1 rfl,
    (C28_rejected_partial rfl _ _ _ _ (by simp [Extended, flagTy, Kind.plain, exChar])).2
      (.inr (.inl ⟨rfl, _, rfl, rfl, ⟨rfl, rfl, by simp [Builtin, Kind.plain, exChar]⟩, rfl⟩)),
    C28_extended rfl _ _ _ (by simp [Extended, flagTy, Kind.plain]; decide) rfl rfl⟩

/-- `C28_wf` is not vacuous. -/
example : (exSem.config ⟨exInt.plain, .inplace, .assign exInt (-1)⟩ false).WF :=
  C28_wf (exSem_lawful exSettings rfl) (e := .optional exInt.plain (.const ⟨exInt, -1⟩) (.useDefault 0)) rfl trivial
    (by show (exSem.eq _ _ _) = true; simp [exSem]) false

/-! ## C29 -/

theorem C29_in_place (d : DecompSel) {payload : Extent} (h : payload.OK) :
    ((sizeofOptional d payload).size = payload.size ↔ d ≠ .separate) ∧
    (isCompressed d payload = true ↔ d ≠ .separate) ∧
    (sizeofOptional d payload).align = payload.align := by
  have h1 := sizeofOptional_eq d h
  have h2 := storedType_eq d h
  have := h.align_pos
  cases d with
  | separate =>
    simp only [h1, isCompressed, h2, ne_eq, not_true_eq_false, iff_false, beq_iff_eq, and_true]
    omega
  | inplace => simp [h1, isCompressed, h2]
  | viaMember p => simp [h1, isCompressed, h2]

/-- Otherwise it is as large as any class that keeps the payload and at least one byte more must be. -/
theorem C29_separate {payload : Extent} (h : payload.OK) :
    payload.size < (sizeofOptional .separate payload).size ∧
    payload.align ∣ (sizeofOptional .separate payload).size ∧
    (∀ n, payload.size < n → payload.align ∣ n → (sizeofOptional .separate payload).size ≤ n) ∧
    (sizeofOptional .separate payload).size = payload.size + payload.align := by
  have h1 := sizeofOptional_eq .separate h
  have ha := h.align_pos
  have hd := h.mult
  rw [h1]
  refine ⟨by show _ < _ + _; omega, Nat.dvd_add hd (Nat.dvd_refl _), ?_, rfl⟩
  intro n hn hdn
  obtain ⟨j, hj⟩ := hd
  obtain ⟨k, rfl⟩ := hdn
  show payload.size + payload.align ≤ payload.align * k
  rw [hj] at hn ⊢
  have : j < k := Nat.lt_of_mul_lt_mul_left hn
  rw [← Nat.mul_succ]
  exact Nat.mul_le_mul_left _ this

/-- The `bool` is the byte behind the payload: where the model of the operations (`Config.isEmpty`) reads it. -/
theorem C29_flag_offset (payload : Extent) (h : payload.OK) : offsetOf [payload, ⟨1, 1⟩] 1 = payload.size := by
  simp [offsetOf, offsetsFrom, alignUp_one, alignUp_of_dvd h.align_pos (Nat.dvd_zero _)]

/-- For every type written by the user: the same size as the payload iff the flag is in place. -/
theorem C29_compiled {V : Type} {S : Sem V} (hS : S.Lawful P) {e : Entry} {i : Inst} (h : compile P e = .ok i) :
    isCompressed i.decomp (S.extent e.payload.kind) = true ↔ i.manip ≠ .separate := by
  have hm := compile_matched hS h
  rw [(C29_in_place i.decomp (hS.ok _)).2.1]
  unfold Inst.Matched at hm
  cases hd : i.decomp <;> cases hmm : i.manip <;> simp [hd, hmm] at hm ⊢

/-- A payload of size 12 and alignment 4 makes an optional of size 12 or 16. -/
example : (sizeofOptional .inplace ⟨12, 4⟩).size = 12 ∧ (sizeofOptional .separate ⟨12, 4⟩).size = 16 ∧
    offsetOf [⟨12, 4⟩, ⟨1, 1⟩] 1 = 12 :=
  have h : (⟨12, 4⟩ : Extent).OK := ⟨by decide, by decide, by decide⟩
  ⟨(C29_in_place .inplace h).1.2 (by simp), (C29_separate h).2.2.2, C29_flag_offset _ h⟩

/-- `C29_compiled` for `optional<int, -1>`. -/
example : isCompressed .inplace (exSem.extent exInt) = true :=
  (C29_compiled (exSem_lawful exSettings rfl) (e := .optional exInt.plain (.const ⟨exInt, -1⟩) (.useDefault 0))
    (i := ⟨exInt.plain, .inplace, .assign exInt (-1)⟩) rfl).2 (by simp)

/-! ## C30 -/

/-- When an accepted `optional_aip` is *not* in place: exactly when `UseDefaultValue` is passed explicitly for a type without
known unused bits, or a member pointer is passed although the macro disables the storage in members. -/
theorem C30_in_place_partial {t : QTy} {s : Option NTTP} {i : Inst} (h : optionalAip P t s = .ok i) :
    i.decomp = .separate ↔
      (∃ u, s = some (.useDefault u) ∧ Plain P t) ∨ (∃ p, s = some (.memPtr p) ∧ P.set.noMem = true) := by
  obtain ⟨a, ha, hs⟩ := optionalAip_ok h
  obtain ⟨sel, hsel, hi⟩ := optionalSentinelViaType_ok ha
  obtain ⟨harch, _, _, hd, _, _⟩ := instantiate_ok hi
  obtain ⟨_, hcase⟩ := selectDecomposition_ok hsel
  rw [hd]
  constructor
  · intro hsep
    rcases hcase with ⟨_, _, h1 | h1⟩ | ⟨h1, _⟩ | ⟨p, h1, _⟩
    · obtain ⟨h1, h2, h3⟩ := h1
      cases a with
      | memPtr p => simp [fromConstants] at h2
      | const c => simp [fromConstants, NTTP.toSentinel] at h1
      | useDefault u =>
        rcases hs with hs | ⟨_, hs⟩
        · obtain ⟨g1, g2, g3⟩ := hasCustom_plain h3
          exact .inl ⟨u, hs, g1, g2, fun hb => by
            have := (unusedBitsKnown_iff t).mpr (.inl hb)
            simp only [fromConstants] at g3
            rw [g3] at this
            simp at this⟩
        · rcases swallowing_ok hs with ⟨_, h5⟩ | ⟨_, r, sgn, _, _, h5⟩
          · simp only [fromConstants] at h3
            rw [h3] at h5
            simp at h5
          · simp at h5
    · obtain ⟨h1, p, h2⟩ := h1
      cases a with
      | useDefault u => simp [fromConstants] at h2
      | const c => simp [fromConstants] at h2
      | memPtr q =>
        rcases hs with hs | ⟨_, hs⟩
        · exact .inr ⟨q, hs, h1⟩
        · rcases swallowing_ok hs with ⟨h5, _⟩ | ⟨_, r, sgn, _, _, h5⟩ <;> simp at h5
    · rw [h1] at hsep; simp at hsep
    · rw [h1] at hsep; simp at hsep
  · rintro (⟨u, rfl, hp⟩ | ⟨p, rfl, hm⟩)
    · obtain rfl : a = .useDefault u := by simpa [eq_comm] using hs
      by_cases hx : Extended P t
      · have := C28_extended harch t (.useDefault u) (.useDefault 0) hx hp.1 hp.2.1
        rw [this] at ha
        simp at ha
      · have := (C28_documented_partial harch t (.useDefault u) (.useDefault 0) ⟨t, .separate, .separate⟩ hx).mpr (.std hp)
        rw [show selectDecomposition P (fromConstants t (.useDefault u) (.useDefault 0)) = .ok sel from hsel] at this
        injection this with this
        rw [this]
    · obtain rfl : a = .memPtr p := by simpa [eq_comm] using hs
      rcases hcase with ⟨h1, _⟩ | ⟨_, h1, _⟩ | ⟨q, _, _, h1, _⟩
      · exact h1
      · simp [fromConstants] at h1
      · rw [hm] at h1; simp at h1

/-- In particular the documented use without a sentinel is always in place. -/
theorem C30_automatic {t : QTy} {i : Inst} (h : optionalAip P t none = .ok i) {payload : Extent} (hp : payload.OK) :
    (sizeofOptional i.decomp payload).size = payload.size := by
  rw [(C29_in_place i.decomp hp).1]
  intro hs
  rcases (C30_in_place_partial h).mp hs with ⟨_, h, _⟩ | ⟨_, h, _⟩ <;> simp at h

/-- The automatic sentinel of the standard integer types (other than the character types): the smallest value of a signed,
the largest of an unsigned type. -/
theorem C30_integers (harch : archCheck P = .ok ()) (r : Nat) (sgn : Bool) (cv : Cv)
    (hr : r = P.shortRank ∨ r = P.dm.intRank ∨ r = P.longRank ∨ r = P.llongRank)
    (hf : P.full ⟨.int ⟨r, sgn, 0⟩, cv⟩ = none) (hp : P.partials ⟨.int ⟨r, sgn, 0⟩, cv⟩ = [])
    (hok : P.payloadOK ⟨.int ⟨r, sgn, 0⟩, cv⟩ = true) (hne : P.eqNoexcept (.int ⟨r, sgn, 0⟩) = true) :
    ∃ v, optionalAip P ⟨.int ⟨r, sgn, 0⟩, cv⟩ none = .ok ⟨⟨.int ⟨r, sgn, 0⟩, cv⟩, .inplace, .assign (.int ⟨r, sgn, 0⟩) v⟩ ∧
      IntTy.Has P.dm ⟨r, sgn, 0⟩ v ∧
      ∀ w, IntTy.Has P.dm ⟨r, sgn, 0⟩ w → if sgn then v ≤ w else w ≤ v := by
  let t : QTy := ⟨.int ⟨r, sgn, 0⟩, cv⟩
  have hc : hasCustom P t = .ok false :=
    hasCustom_of_plain hf hp (by simp [unusedBitsKnown, t])
  let v : Int := if sgn then IntTy.min P.dm ⟨r, sgn, 0⟩ else IntTy.max P.dm ⟨r, sgn, 0⟩
  have hv : IntTy.Has P.dm ⟨r, sgn, 0⟩ v := by
    cases sgn
    · exact has_max _
    · exact has_min _
  have hs : selectSentinelValueWithSwallowing P t = .ok (.const ⟨.int (IntTy.promote P.dm ⟨r, sgn, 0⟩), v⟩) := by
    simp [selectSentinelValueWithSwallowing, hc, bind, Except.bind, swallowingDefaultSentinel, t, hr, v]
  have hconv : convertSentinel P.dm (.int ⟨r, sgn, 0⟩) ⟨.int (IntTy.promote P.dm ⟨r, sgn, 0⟩), v⟩ = some v := by
    have h1 := C26_convert (dm := P.dm) ⟨r, sgn, 0⟩ (IntTy.promote P.dm ⟨r, sgn, 0⟩) (promote_has hv)
    cases hcv : convertSentinel P.dm (.int ⟨r, sgn, 0⟩) ⟨.int (IntTy.promote P.dm ⟨r, sgn, 0⟩), v⟩ with
    | none => exact absurd hv (h1.2.mp hcv)
    | some w => rw [h1.1 w hcv]
  refine ⟨v, ?_, hv, ?_⟩
  · show optionalAip P t none = _
    simp only [optionalAip, hs, bind, Except.bind, tinyOptional, fromConstants, NTTP.toSentinel,
      optionalSentinelViaType, selectDecomposition, pick_default, hc, Except.map, SentTy.isDefault,
      Specialisation.body, instantiate, harch, checkMemPtr, instantiateManip]
    have hok' : P.payloadOK t = true := hok
    simp [t, hconv, hne, pure, Except.pure]
    exact hok
  · intro w hw
    cases sgn
    · exact hw.2
    · exact hw.1

/-- Every other type without known unused bits or manipulator needs an explicit sentinel. -/
theorem C30_rejected (t : QTy) (hp : Plain P t) (hx : ¬ Extended P t)
    (ht : ∀ r sgn, t.kind = .int ⟨r, sgn, 0⟩ →
      ¬ (r = P.shortRank ∨ r = P.dm.intRank ∨ r = P.longRank ∨ r = P.llongRank)) :
    optionalAip P t none = .error .missingSentinel := by
  have hc := (hasCustom_false t hx).mpr hp
  have hs : swallowingDefaultSentinel P t.kind = .error .missingSentinel := by
    unfold swallowingDefaultSentinel
    split
    · rename_i r sgn hk
      rw [if_neg (ht r sgn hk)]
    · rfl
  simp [optionalAip, selectSentinelValueWithSwallowing, hc, hs, bind, Except.bind]

/-- False in general: `optional_aip<int, UseDefaultValue>` and, with the macro that disables the storage in members,
`optional_aip<S, &S::b>` are accepted but larger than their payload. -/
theorem C30_false : ∃ (P : Model.Prog) (t : QTy) (s : NTTP) (i : Inst) (V : Type) (S : Sem V), S.Lawful P ∧
    optionalAip P t (some s) = .ok i ∧ (sizeofOptional i.decomp (S.extent t.kind)).size ≠ (S.extent t.kind).size :=
  ⟨exProg exSettings, exInt.plain, .useDefault 0, ⟨exInt.plain, .separate, .separate⟩, ExVal, exSem,
    exSem_lawful exSettings rfl, rfl, by decide⟩

theorem C30_false_member : ∃ (P : Model.Prog) (t : QTy) (p : MemPtr) (i : Inst) (V : Type) (S : Sem V), S.Lawful P ∧ p.Valid S ∧
    optionalAip P t (some (.memPtr p)) = .ok i ∧
    (sizeofOptional i.decomp (S.extent t.kind)).size ≠ (S.extent t.kind).size :=
  ⟨exProg ⟨false, false, true, .x64⟩, (Kind.cls 7).plain, ⟨7, Kind.bool.plain, 2, false, 0⟩,
    ⟨(Kind.cls 7).plain, .separate, .separate⟩, ExVal, exSem, exSem_lawful _ rfl, fun _ => by decide, rfl, by decide⟩

/-- `optional_aip<short>`: -2^15; `optional_aip<unsigned short>`: 2^16-1; `optional_aip<bool>`: bit pattern; `optional_aip<char>`,
enumerations and classes: rejected; `optional_aip<char, 'A'>`: accepted. -/
example :
    let p := exProg exSettings
    (optionalAip p exShort.plain none).toOption = some ⟨exShort.plain, .inplace, .assign exShort (-32768)⟩ ∧
    (optionalAip p exUShort.plain none).toOption = some ⟨exUShort.plain, .inplace, .assign exUShort 65535⟩ ∧
    optionalAip p Kind.bool.plain none = .ok ⟨Kind.bool.plain, .inplace, .bits [0xfe]⟩ ∧
    optionalAip p exChar.plain none = .error .missingSentinel ∧
    optionalAip p (Kind.enumScoped 0 ⟨3, true, 0⟩).plain none = .error .missingSentinel ∧
    optionalAip p (Kind.cls 8).plain none = .error .missingSentinel ∧
    optionalAip p exChar.plain (some (.const ⟨exChar, 65⟩)) = .ok ⟨exChar.plain, .inplace, .assign exChar 65⟩ :=
  ⟨by decide, by decide, rfl, rfl, rfl, rfl, rfl⟩

/-- The theorems for these: `C30_in_place_partial`, `C30_automatic`, `C30_integers`, `C30_rejected`. -/
example :
    let p := exProg exSettings
    (∀ i, optionalAip p exInt.plain (some (.useDefault 0)) = .ok i → i.decomp = .separate) ∧
    (∀ i, optionalAip p Kind.bool.plain none = .ok i → (sizeofOptional i.decomp ⟨1, 1⟩).size = 1) ∧
    (∃ v, optionalAip p exShort.plain none = .ok ⟨exShort.plain, .inplace, .assign exShort v⟩ ∧
      ∀ w, IntTy.Has lp64 ⟨2, true, 0⟩ w → v ≤ w) ∧
    optionalAip p (Kind.cls 8).plain none = .error .missingSentinel := by
  refine ⟨fun i h => (C30_in_place_partial h).2 (.inl ⟨0, rfl, rfl, rfl, by simp [Builtin, Kind.plain, exInt]⟩),
    fun i h => C30_automatic h ⟨by decide, by decide, by decide⟩, ?_, ?_⟩
  · obtain ⟨v, h1, _, h2⟩ := C30_integers (P := exProg exSettings) rfl 2 true ⟨false, false⟩ (.inl rfl) rfl rfl rfl rfl
    exact ⟨v, h1, h2⟩
  · exact C30_rejected _ ⟨rfl, rfl, by simp [Builtin, Kind.plain]⟩ (by simp [Extended, Kind.plain]) (by simp [Kind.plain])

/-! ## C39 -/

theorem C39_no_tricks (hub : P.set.ubTricks = true) {e : Entry} {i : Inst} (h : compile P e = .ok i) :
    (∀ p, i.decomp ≠ .viaMember p) ∧ (∀ b, i.manip ≠ .bits b) := by
  have hb : P.set.noBits = true := by simp [Settings.noBits, hub]
  have hm : P.set.noMem = true := by simp [Settings.noMem, hub]
  have hv : ∀ {t s m}, optionalSentinelViaType P t s m = .ok i → (∀ p, i.decomp ≠ .viaMember p) ∧ (∀ b, i.manip ≠ .bits b) := by
    intro t s m h
    obtain ⟨sel, hs, hi⟩ := optionalSentinelViaType_ok h
    obtain ⟨_, _, _, hd, _, hmr⟩ := instantiate_ok hi
    obtain ⟨_, hcase⟩ := selectDecomposition_ok hs
    have hk : ∀ t b, flagManipulator P t ≠ .ok (.bits b) := by
      intro t b hf
      have := (flagManipulator_bits hf).2.2.1
      simp [unusedBitsKnown, hb] at this
    rcases hcase with ⟨h1, h2, _⟩ | ⟨h1, _, h2⟩ | ⟨p, _, _, h1, _⟩
    · rw [h2] at hmr
      have hmr' : i.manip = .separate := hmr
      rw [hd, h1, hmr']
      exact ⟨by simp, by simp⟩
    · refine ⟨by rw [hd, h1]; simp, ?_⟩
      intro b hbits
      rcases h2 with ⟨h2, _⟩ | ⟨c, h2, _⟩ <;> rw [h2] at hmr
      · rcases hmr with ⟨b', h3, _⟩ | ⟨id, _, h3⟩
        · exact hk _ _ h3
        · rw [hbits] at h3; simp at h3
      · obtain ⟨v, _, h3⟩ := hmr
        rw [hbits] at h3; simp at h3
    · rw [hm] at h1; simp at h1
  cases e with
  | optional t a b =>
    obtain ⟨s, m, he, _⟩ := tinyOptional_eq (P := P) t a b
    exact hv (he.symm.trans h)
  | viaType t s m => exact hv h
  | inplace t id =>
    obtain ⟨_, h1, h2⟩ := inplace_ok h
    rw [h1, h2]
    exact ⟨by simp, by simp⟩
  | aip t a =>
    obtain ⟨b, hb, _⟩ := optionalAip_ok h
    obtain ⟨s, m, he, _⟩ := tinyOptional_eq (P := P) t b (.useDefault 0)
    exact hv (he.symm.trans hb)

/-- Without an explicit sentinel and without a user's manipulator the optional has a separate `bool`, and no value is
reserved. -/
theorem C39_std (hub : P.set.ubTricks = true) {t : QTy} {a b : NTTP} {i : Inst} (h : tinyOptional P t a b = .ok i)
    (hc : ∀ c, a ≠ .const c) (hf : P.full t = none) (hp : P.partials t = []) :
    i.decomp = .separate ∧ i.manip = .separate ∧
    ∀ (V : Type) (S : Sem V) (ndebug : Bool) (v : V), (S.config i ndebug).Storable v ∧ ¬ (S.config i ndebug).Reserved v := by
  have hb : P.set.noBits = true := by simp [Settings.noBits, hub]
  have hm : P.set.noMem = true := by simp [Settings.noMem, hub]
  obtain ⟨sel, hs, hi⟩ := optionalSentinelViaType_ok h
  obtain ⟨_, _, _, hd, _, hmr⟩ := instantiate_ok hi
  obtain ⟨_, hcase⟩ := selectDecomposition_ok hs
  have hsep : sel.decomp = .separate ∧ sel.manip = .separate := by
    rcases hcase with ⟨h1, h2, _⟩ | ⟨_, h3, h2⟩ | ⟨p, _, _, h1, _⟩
    · exact ⟨h1, h2⟩
    · rcases h2 with ⟨h2, _⟩ | ⟨c, _, h2⟩
      · rw [h2] at hmr
        have hn : flagManipulator P t = .ok .nothing := by
          simp [flagManipulator, hf, hp, unusedBitsKnown, hb]
        have hpay : (fromConstants t a b).payload = t := by cases a <;> rfl
        rw [hpay] at hmr
        rcases hmr with ⟨b', h4, _⟩ | ⟨id, h4, _⟩ <;> rw [hn] at h4 <;> simp at h4
      · cases a with
        | const c => exact absurd rfl (hc c)
        | useDefault u => simp [fromConstants, NTTP.toSentinel] at h2
        | memPtr p => simp [fromConstants] at h3
    · rw [hm] at h1; simp at h1
  have hman : i.manip = .separate := by
    rw [hsep.2] at hmr
    exact hmr
  refine ⟨by rw [hd, hsep.1], hman, ?_⟩
  intro V S nd v
  simp [Config.Storable, Config.Reserved, Sem.config, Sem.manip, hman]

/-- ... and it compiles on every architecture. -/
theorem C39_compiles (hub : P.set.ubTricks = true) (t : QTy) (u : Nat) (b : NTTP) (hf : P.full t = none)
    (hp : P.partials t = []) (hok : P.payloadOK t = true) :
    tinyOptional P t (.useDefault u) b = .ok ⟨t, .separate, .separate⟩ := by
  have hb : P.set.noBits = true := by simp [Settings.noBits, hub]
  have hm : P.set.noMem = true := by simp [Settings.noMem, hub]
  have hc : hasCustom P t = .ok false := hasCustom_of_plain hf hp (by simp [unusedBitsKnown, hb])
  simp [tinyOptional, fromConstants, NTTP.toSentinel, optionalSentinelViaType, selectDecomposition, pick_default, hc,
    Except.map, bind, Except.bind, SentTy.isDefault, Specialisation.body, instantiate, archCheck, hb, hm, checkMemPtr,
    instantiateManip, hok, pure, Except.pure]

/-- `optional<bool>` and `optional<S, &S::b>` on an unknown architecture with the macro; without it they are rejected. -/
example :
    let p := exProg ⟨true, false, false, .other⟩
    let q := exProg ⟨false, false, false, .other⟩
    tinyOptional p Kind.bool.plain (.useDefault 0) (.useDefault 0) = .ok ⟨Kind.bool.plain, .separate, .separate⟩ ∧
    tinyOptional p (Kind.cls 7).plain (.memPtr ⟨7, Kind.bool.plain, 2, false, 0⟩) (.useDefault 0) =
      .ok ⟨(Kind.cls 7).plain, .separate, .separate⟩ ∧
    tinyOptional q exInt.plain (.useDefault 0) (.useDefault 0) = .error .architecture :=
  ⟨rfl, rfl, rfl⟩

/-- `C39_no_tricks`, `C39_std` and `C39_compiles` for `optional<double>` there. -/
example :
    let p := exProg ⟨true, false, false, .other⟩
    tinyOptional p (Kind.flt 1).plain (.useDefault 0) (.useDefault 0) = .ok ⟨(Kind.flt 1).plain, .separate, .separate⟩ ∧
    (exSem.config ⟨(Kind.flt 1).plain, .separate, .separate⟩ false).Storable (fun _ => 0x7ff8fedcba987654#64) ∧
    ∀ i, compile p (.optional (Kind.flt 1).plain (.useDefault 0) (.useDefault 0)) = .ok i → ∀ b, i.manip ≠ .bits b :=
  have h := C39_compiles (P := exProg ⟨true, false, false, .other⟩) rfl (Kind.flt 1).plain 0 (.useDefault 0) rfl rfl rfl
  ⟨h, ((C39_std rfl h (by simp) rfl rfl).2.2 _ exSem false _).1, fun _ h => (C39_no_tricks rfl h).2⟩

end Verif.Props
