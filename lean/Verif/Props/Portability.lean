import Verif.Props.EndToEnd
import Verif.Props.Version

/-!
# C66: switching off the tricks that depend on the platform
-/

namespace Verif.Props
open Verif Verif.Model Verif.Spec Verif.Examples

variable {P : Model.Prog} {V G : Type} {S : Sem V}

/-- The storage that remains (README:668-673): nothing is put into unused bits or into members, a separate `bool` takes their place.
Explicit sentinels and the user's manipulators for the whole payload stay. -/
def withoutTricks (i : Inst) : Inst :=
  match i.decomp, i.manip with
  | .viaMember _, _ => ⟨i.payload, .separate, .separate⟩
  | _, .bits _ => ⟨i.payload, .separate, .separate⟩
  | _, _ => i

private def off : Registered → Registered
  | .bits _ => .nothing
  | r => r

private theorem flag_off {s : Settings} (hs : s.ubTricks = true) {t : QTy} {r : Registered} (h : flagManipulator P t = .ok r) :
    flagManipulator (withSettings P s) t = .ok (off r) := by
  have hk : unusedBitsKnown (withSettings P s) t = false := by simp [unusedBitsKnown, withSettings, Settings.noBits, hs]
  have e1 : (withSettings P s).full t = P.full t := rfl
  have e2 : (withSettings P s).partials t = P.partials t := rfl
  unfold flagManipulator at h ⊢
  rw [hk, e1, e2]
  cases hf : P.full t with
  | some id => simp only [hf] at h ⊢; cases h; rfl
  | none =>
    simp only [hf] at h ⊢
    match hp : P.partials t, hb : unusedBitsKnown P t with
    | [], false => simp only [hp, hb] at h ⊢; cases h; rfl
    | [], true =>
      simp only [hp, hb] at h ⊢
      cases hu : unusedBitsSentinel P t.kind <;> simp only [hu] at h <;> cases h
      rfl
    | [id], false => simp only [hp, hb] at h ⊢; cases h; rfl
    | [id], true => simp [hp, hb] at h
    | _ :: _ :: _, _ => simp [hp] at h

private theorem custom_off {s : Settings} (hs : s.ubTricks = true) {t : QTy} {x : Bool} (h : hasCustom P t = .ok x) :
    ∃ r, flagManipulator P t = .ok r ∧ flagManipulator (withSettings P s) t = .ok (off r) ∧ x = !decide (r = .nothing) ∧
      hasCustom (withSettings P s) t = .ok (!decide (off r = .nothing)) := by
  unfold hasCustom at h
  cases hf : flagManipulator P t with
  | error e => simp [hf] at h
  | ok r =>
    refine ⟨r, rfl, flag_off hs hf, ?_, ?_⟩
    · cases r <;> simp_all
    · unfold hasCustom
      rw [flag_off hs hf]
      cases r <;> rfl

private theorem inst_ok {s : Selected} {m : ManipInst} (ha : archCheck P = .ok ()) (hd : checkMemPtr s.decomp = .ok ())
    (hm : instantiateManip P s.manip = .ok m) (hp : P.payloadOK s.payload = true) : instantiate P s = .ok ⟨s.payload, s.decomp, m⟩ := by
  simp [instantiate, ha, hd, hm, hp, bind, Except.bind, pure, Except.pure]

private theorem inst_parts {s : Selected} {i : Inst} (h : instantiate P s = .ok i) :
    instantiateManip P s.manip = .ok i.manip ∧ P.payloadOK s.payload = true ∧ i.payload = s.payload ∧ i.decomp = s.decomp := by
  obtain ⟨_, h2, h3, h4, _⟩ := instantiate_ok h
  refine ⟨?_, h2, h3, h4⟩
  obtain ⟨t, d, m⟩ := s
  unfold instantiate at h
  cases ha : archCheck P with
  | error e => simp [ha, bind, Except.bind] at h
  | ok u =>
    cases hd : checkMemPtr d with
    | error e => simp [ha, hd, bind, Except.bind] at h
    | ok u =>
      cases hm : instantiateManip P m with
      | error e => simp [ha, hd, hm, bind, Except.bind] at h
      | ok m' =>
        simp only [ha, hd, hm, bind, Except.bind, pure, Except.pure] at h
        obtain ⟨hp, rfl⟩ := ite_ok h
        rfl

private theorem arch_off {s : Settings} (hs : s.ubTricks = true) : archCheck (withSettings P s) = .ok () := by
  simp [archCheck, withSettings, Settings.noBits, Settings.noMem, hs]

/-- An assignment or a user's manipulator does not depend on the settings. -/
private theorem manip_off {s : Settings} (hs : s.ubTricks = true) {m : ManipSel} {m' : ManipInst} (h : instantiateManip P m = .ok m')
    (hb : ∀ b, m' ≠ .bits b) : instantiateManip (withSettings P s) m = .ok m' := by
  cases m with
  | separate => exact h
  | assign t c => exact h
  | custom id => exact h
  | registered t =>
    simp only [instantiateManip] at h ⊢
    cases hf : flagManipulator P t with
    | error e => simp [hf] at h
    | ok r =>
      rw [flag_off hs hf]
      cases r with
      | nothing => simp [hf] at h
      | bits b => simp only [hf] at h; cases h; exact absurd rfl (hb b)
      | user id => simp only [hf] at h; exact h

private theorem viaType_off {s : Settings} (hs : s.ubTricks = true) {t : QTy} {st : SentTy} {m : NTTP} {i : Inst}
    (h : optionalSentinelViaType P t st m = .ok i) : optionalSentinelViaType (withSettings P s) t st m = .ok (withoutTricks i) := by
  obtain ⟨sel, h1, h2⟩ := optionalSentinelViaType_ok h
  obtain ⟨hi1, hi2, hi3, hi4⟩ := inst_parts h2
  have hm : (withSettings P s).set.noMem = true := by simp [withSettings, Settings.noMem, hs]
  have hgoal : ∀ sel', selectDecomposition (withSettings P s) ⟨t, st, m⟩ = .ok sel' → instantiate (withSettings P s) sel' = .ok (withoutTricks i) →
      optionalSentinelViaType (withSettings P s) t st m = .ok (withoutTricks i) := by
    intro sel' e1 e2
    simp [optionalSentinelViaType, e1, e2, bind, Except.bind]
  have hsep : sel.payload = t → (withoutTricks i = ⟨i.payload, .separate, .separate⟩) →
      instantiate (withSettings P s) ⟨t, .separate, .separate⟩ = .ok (withoutTricks i) := by
    intro e1 e2
    rw [e2, hi3, e1]
    exact inst_ok (arch_off hs) rfl rfl (by rw [← e1]; exact hi2)
  unfold selectDecomposition at h1
  by_cases hmp : ∃ p, m = .memPtr p
  · obtain ⟨p, rfl⟩ := hmp
    rw [pick_member] at h1
    cases hc : hasCustom P p.var with
    | error e => simp [hc, Except.map, bind, Except.bind] at h1
    | ok x =>
      obtain ⟨r, _, _, _, hy⟩ := custom_off hs hc
      have hpick := pick_member (P := withSettings P s) t st p
      rw [hy] at hpick
      have ht : t = Kind.plain (.cls p.cls) := by
        refine Decidable.byContradiction fun ht => ?_
        cases st <;> cases x <;> cases hn : P.set.noMem <;>
          simp [hc, Except.map, bind, Except.bind, SentTy.isDefault, Specialisation.body, memberBody, ht, hn] at h1
      have hpay : sel.payload = t ∧ (sel.decomp = .viaMember p ∨ sel.manip = .separate ∧ sel.decomp = .separate) := by
        cases st <;> cases x <;> cases hn : P.set.noMem <;>
          simp [hc, Except.map, bind, Except.bind, SentTy.isDefault, Specialisation.body, memberBody, ht, hn] at h1 <;> subst h1 <;> simp [ht]
      refine hgoal ⟨t, .separate, .separate⟩ ?_ (hsep hpay.1 ?_)
      · unfold selectDecomposition
        rw [hpick]
        cases st <;> cases hz : !decide (off r = .nothing) <;>
          simp [Except.map, bind, Except.bind, SentTy.isDefault, Specialisation.body, memberBody, ht, hm]
      · unfold withoutTricks
        rw [hi4]
        rcases hpay.2 with hd | ⟨hd, hd'⟩
        · rw [hd]
        · rw [hd] at hi1
          have : i.manip = .separate := by simpa [instantiateManip] using hi1.symm
          rw [hd', this]
          obtain ⟨ip, id, im⟩ := i
          simp_all
  · cases hd : m.isDefaultValue with
    | false => rw [pick_other t st m hd (fun p hp => hmp ⟨p, hp⟩)] at h1; simp [bind, Except.bind] at h1
    | true =>
      have hm0 : m = .useDefault 0 := by
        cases m with
        | useDefault v => cases v with
          | zero => rfl
          | succ v => simp [NTTP.isDefaultValue] at hd
        | memPtr p => simp [NTTP.isDefaultValue] at hd
        | const c => simp [NTTP.isDefaultValue] at hd
      subst hm0
      rw [pick_default] at h1
      cases hc : hasCustom P t with
      | error e => simp [hc, Except.map, bind, Except.bind] at h1
      | ok x =>
        obtain ⟨r, hr, hr', hx, hy⟩ := custom_off hs hc
        have hpick := pick_default (P := withSettings P s) t st
        rw [hy] at hpick
        obtain ⟨ip, id, im⟩ := i
        simp only at hi1 hi3 hi4
        subst hi3 hi4
        cases st with
        | value c =>
          have hsel : sel = ⟨t, .inplace, .assign t c⟩ := by
            cases x <;> simp [hc, Except.map, bind, Except.bind, SentTy.isDefault, Specialisation.body] at h1 <;> exact h1.symm
          subst hsel
          have hnb : ∀ b, im ≠ .bits b := by
            rintro b rfl
            simp only [instantiateManip] at hi1
            split at hi1
            · split at hi1 <;> simp at hi1
            · simp at hi1
          have hw : withoutTricks ⟨t, .inplace, im⟩ = ⟨t, .inplace, im⟩ := by
            cases im <;> first | rfl | exact absurd rfl (hnb _)
          refine hgoal ⟨t, .inplace, .assign t c⟩ ?_ ?_
          · unfold selectDecomposition
            rw [hpick]
            cases hz : !decide (off r = .nothing) <;> simp [Except.map, bind, Except.bind, SentTy.isDefault, Specialisation.body]
          · show instantiate _ _ = .ok (withoutTricks ⟨t, .inplace, im⟩)
            rw [hw]
            exact inst_ok (arch_off hs) rfl (manip_off hs hi1 hnb) hi2
        | useDefault =>
          cases x with
          | false =>
            have hsel : sel = ⟨t, .separate, .separate⟩ := by
              simp [hc, Except.map, bind, Except.bind, SentTy.isDefault, Specialisation.body] at h1; exact h1.symm
            subst hsel
            have hrn : r = .nothing := by simpa using hx
            subst hrn
            refine hgoal ⟨t, .separate, .separate⟩ ?_ (hsep rfl ?_)
            · unfold selectDecomposition
              rw [hpick]
              simp [off, Except.map, bind, Except.bind, SentTy.isDefault, Specialisation.body]
            · have : im = .separate := by simpa [instantiateManip] using hi1.symm
              subst this
              rfl
          | true =>
            have hsel : sel = ⟨t, .inplace, .registered t⟩ := by
              simp [hc, Except.map, bind, Except.bind, SentTy.isDefault, Specialisation.body] at h1; exact h1.symm
            subst hsel
            cases r with
            | nothing => simp at hx
            | bits b =>
              have : im = .bits b := by simp only [instantiateManip, hr] at hi1; cases hi1; rfl
              subst this
              refine hgoal ⟨t, .separate, .separate⟩ ?_ (hsep rfl rfl)
              unfold selectDecomposition
              rw [hpick]
              simp [off, Except.map, bind, Except.bind, SentTy.isDefault, Specialisation.body]
            | user id =>
              have him : im = .user id := by
                simp only [instantiateManip, hr] at hi1
                exact (ite_ok hi1).2.symm
              subst him
              refine hgoal ⟨t, .inplace, .registered t⟩ ?_ ?_
              · unfold selectDecomposition
                rw [hpick]
                simp [off, Except.map, bind, Except.bind, SentTy.isDefault, Specialisation.body]
              · exact inst_ok (arch_off hs) rfl (manip_off hs hi1 (by simp)) hi2

/-- C66. Whatever compiles, with whatever settings and on whatever platform, still compiles on every platform when
`TINY_OPTIONAL_USE_SEPARATE_BOOL_INSTEAD_OF_UB_TRICKS` is defined, and only the storage changes as documented. Excepted is
`optional_aip<T>` without sentinel for types whose unused bits were exploited. -/
theorem C66_compiles_partial {s : Settings} (hs : s.ubTricks = true) {e : Entry} {i : Inst} (h : compile P e = .ok i)
    (hx : ∀ t, e = .aip t none → ∀ b, i.manip ≠ .bits b) : compile (withSettings P s) e = .ok (withoutTricks i) := by
  cases e with
  | optional t a b => exact viaType_off hs (st := (fromConstants t a b).sentinel) h
  | viaType t st m => exact viaType_off hs h
  | inplace t id =>
    obtain ⟨hi1, hi2, hi3, hi4⟩ := inst_parts h
    obtain ⟨ip, d, m⟩ := i
    simp only at hi1 hi3 hi4
    subst hi3 hi4
    have : m = .user id := (inplace_ok h).2.2
    subst this
    exact inst_ok (arch_off hs) rfl hi1 hi2
  | aip t o =>
    obtain ⟨a, h1, h2⟩ := optionalAip_ok h
    have hv : tinyOptional (withSettings P s) t a (.useDefault 0) = .ok (withoutTricks i) :=
      viaType_off hs (st := (fromConstants t a (.useDefault 0)).sentinel) h1
    rcases h2 with rfl | ⟨rfl, h2⟩
    · change optionalAip (withSettings P s) t (some a) = _
      simpa [optionalAip, bind, Except.bind, pure, Except.pure] using hv
    · have hsw : selectSentinelValueWithSwallowing (withSettings P s) t = .ok a := by
        rcases swallowing_ok h2 with ⟨rfl, hc⟩ | ⟨hc, _⟩
        · obtain ⟨r, hr, hr', hx', hy⟩ := custom_off hs hc
          have hnb : ∀ b, r ≠ .bits b := by
            rintro b rfl
            refine hx t rfl b ?_
            obtain ⟨sel, h3, h4⟩ := optionalSentinelViaType_ok h1
            simp only [fromConstants, NTTP.toSentinel, selectDecomposition, pick_default, hc, Except.map, bind, Except.bind, SentTy.isDefault,
              if_true, Specialisation.body, Except.ok.injEq] at h3
            subst h3
            have := (inst_parts h4).1
            simp only [instantiateManip, hr] at this
            exact (Except.ok.inj this).symm
          have : off r = r := by cases r <;> first | rfl | exact absurd rfl (hnb _)
          rw [this, ← hx'] at hy
          simp [selectSentinelValueWithSwallowing, hy, bind, Except.bind, pure, Except.pure]
        · obtain ⟨r, hr, hr', hx', hy⟩ := custom_off hs hc
          have : r = .nothing := by simpa using hx'
          subst this
          simp only [selectSentinelValueWithSwallowing, hc, hy, off, bind, Except.bind] at h2 ⊢
          exact h2
      change optionalAip (withSettings P s) t none = _
      simpa [optionalAip, hsw, bind, Except.bind] using hv

/-- The exception: these are all rejected. -/
theorem C66_aip {s : Settings} (hs : s.ubTricks = true) {t : QTy} {i : Inst} (h : compile P (.aip t none) = .ok i) {b : List Byte}
    (hb : i.manip = .bits b) : compile (withSettings P s) (.aip t none) = .error .missingSentinel := by
  obtain ⟨a, h1, h2⟩ := optionalAip_ok (P := P) (t := t) (s := none) h
  rcases h2 with h2 | ⟨_, h2⟩
  · cases h2
  · obtain ⟨sel, h3, h4⟩ := optionalSentinelViaType_ok h1
    rcases swallowing_ok h2 with ⟨rfl, hc⟩ | ⟨hc, r, sgn, _, _, rfl⟩
    · obtain ⟨r, hr, hr', hx', hy⟩ := custom_off hs hc
      simp only [fromConstants, NTTP.toSentinel, selectDecomposition, pick_default, hc, Except.map, bind, Except.bind, SentTy.isDefault,
        if_true, Specialisation.body, Except.ok.injEq] at h3
      subst h3
      have him := (inst_parts h4).1
      rw [hb] at him
      simp only [instantiateManip, hr] at him
      cases r with
      | nothing => simp at him
      | user id => simp only at him; have := (ite_ok him).2; cases this
      | bits b' =>
        obtain ⟨_, _, hk, _⟩ := flagManipulator_bits hr
        have hkind : swallowingDefaultSentinel (withSettings P s) t.kind = .error .missingSentinel := by
          unfold unusedBitsKnown at hk
          unfold swallowingDefaultSentinel
          cases hn : P.set.noBits
          · cases ht : t.kind <;> simp [hn, ht] at hk ⊢
          · simp [hn] at hk
        change optionalAip (withSettings P s) t none = _
        simp [optionalAip, selectSentinelValueWithSwallowing, hy, off, hkind, bind, Except.bind]
    · simp only [fromConstants, NTTP.toSentinel, selectDecomposition, pick_default, hc, Except.map, bind, Except.bind, SentTy.isDefault,
        Specialisation.body] at h3
      simp at h3
      subst h3
      have him := (inst_parts h4).1
      rw [hb] at him
      simp only [instantiateManip] at him
      split at him
      · split at him <;> simp at him
      · simp at him

/-- No additional value becomes reserved: what may be stored with the tricks may be stored without them. -/
theorem C66_no_reserve {i : Inst} {v : V} (h : MayStore S i v) : MayStore S (withoutTricks i) v := by
  obtain ⟨t, d, m⟩ := i
  cases d <;> cases m <;> first | exact h | simp [MayStore, withoutTricks]

private def offConfig (c : Config V) : Config V :=
  match c.decomp, c.manip with
  | .viaMember _, _ => ⟨c.size, c.repr, .separate, .separate, c.ndebug⟩
  | _, .memcpy _ => ⟨c.size, c.repr, .separate, .separate, c.ndebug⟩
  | _, _ => c

private theorem config_off (i : Inst) (nd : Bool) : S.config (withoutTricks i) nd = offConfig (S.config i nd) := by
  obtain ⟨t, d, m⟩ := i
  cases d <;> cases m <;> rfl

theorem progEnv_off {i : Nat → Inst} {ops : Nat → Ops V G} {nd : Bool} (x y : Nat) (e : progEnv S i ops nd x = progEnv S i ops nd y) :
    progEnv S (fun x => withoutTricks (i x)) ops nd x = progEnv S (fun x => withoutTricks (i x)) ops nd y := by
  simp only [progEnv, Ty.mk.injEq, config_off] at e ⊢
  exact ⟨congrArg offConfig e.1, e.2⟩

theorem opOK_off {i : Nat → Inst} {ops : Nat → Ops V G} {nd : Bool} {op : Op V G} (h : OpOK (progEnv S i ops nd) op) :
    OpOK (progEnv S (fun x => withoutTricks (i x)) ops nd) op := by
  have hc := progEnv_off (S := S) (i := i) (ops := ops) (nd := nd)
  cases op <;> first | exact h | exact hc _ _ h | exact ⟨hc _ _ h.1, h.2⟩

theorem Compiled.withoutTricks {P' : Model.Prog} {e : Nat → Entry} {i : Nat → Inst} (hc : Compiled P S e i)
    (hacc : ∀ x, compile P' (e x) = .ok (Props.withoutTricks (i x))) : Compiled P' S e (fun x => Props.withoutTricks (i x)) := by
  refine ⟨hacc, hc.valid, fun x => ?_⟩
  have := hc.reflexive x
  revert this
  obtain ⟨t, d, m⟩ := i x
  cases d <;> cases m <;> first | exact id | exact fun _ => trivial

/-- C66, at run time. Every history that is legal with the tricks (`s` aside) has the same results without them, and the optionals
hold the same values after it. -/
theorem C66_same {s : Settings} (hs : s.ubTricks = true) (hS : S.Lawful P) (hS' : S.Lawful (withSettings P s)) {e : Nat → Entry} {i : Nat → Inst}
    (hc : Compiled P S e i) (hx : ∀ x t, e x = .aip t none → ∀ b, (i x).manip ≠ .bits b) {ops : Nat → Ops V G} (hops : ∀ x, (ops x).Lawful)
    (nd : Bool) {g : G} {h : List (Op V G)} {rs sw} (hop : ∀ op ∈ h, OpOK (progEnv S i ops nd) op)
    (hr : specRun ops h (.init g) = some (rs, sw)) (hst : ∀ p ∈ sw.trace, MayStore S (i p.1) p.2)
    (h17 : ∀ p ∈ h.zip rs, StepOK p.1 p.2) :
    ∃ i', (∀ x, compile (withSettings P s) (e x) = .ok (i' x)) ∧
      (run (progEnv S i' ops nd) h (.init g)).1 = (run (progEnv S i ops nd) h (.init g)).1 ∧
      Sees (progEnv S i ops nd) (run (progEnv S i ops nd) h (.init g)).2 sw ∧
      Sees (progEnv S i' ops nd) (run (progEnv S i' ops nd) h (.init g)).2 sw := by
  have hacc : ∀ x, compile (withSettings P s) (e x) = .ok (withoutTricks (i x)) := fun x =>
    C66_compiles_partial hs (hc.accepted x) (hx x)
  have hc' := hc.withoutTricks hacc
  obtain ⟨r1, s1, _⟩ := C49_drop_in hS hc hops nd hop hr hst h17
  obtain ⟨r2, s2, _⟩ := C49_drop_in hS' hc' hops nd (fun op ho => opOK_off (hop op ho)) hr (fun p hp => C66_no_reserve (hst p hp)) h17
  exact ⟨_, hacc, r2.trans r1.symm, s1, s2⟩

/-- Settings with `TINY_OPTIONAL_USE_SEPARATE_BOOL_INSTEAD_OF_UB_TRICKS`, on a platform that is neither x86 nor x64. -/
abbrev portable : Settings := ⟨true, false, false, .other⟩

/-- The example program of C49: `optional<S, &S::b>`, `optional<int, -1>`, `optional<int>`, `optional<double>`. The first and the last
get a separate `bool`, the others stay. -/
example : (∀ x, compile (exProg exSettings) (exEntries x) = .ok (exInsts x)) ∧ (∀ x t, exEntries x ≠ .aip t none) ∧
    withoutTricks (exInsts 0) = ⟨(Kind.cls 7).plain, .separate, .separate⟩ ∧ withoutTricks (exInsts 1) = exInsts 1 ∧
    withoutTricks (exInsts 2) = exInsts 2 ∧ withoutTricks (exInsts 3) = ⟨(Kind.flt 1).plain, .separate, .separate⟩ ∧
    compile (withSettings (exProg exSettings) portable) (exEntries 3) = .ok ⟨(Kind.flt 1).plain, .separate, .separate⟩ :=
  ⟨fun | 0 | 1 | 2 | _ + 3 => rfl, fun | 0, _ | 1, _ | 2, _ | _ + 3, _ => nofun, rfl, rfl, rfl, rfl, rfl⟩

/-- Its types are lawful for both settings. -/
theorem lawful_portable (h : exSem.Lawful (exProg exSettings)) : exSem.Lawful (withSettings (exProg exSettings) portable) :=
  ⟨h.ok, h.clsExtent, h.clsRepr, h.bool, h.float, h.double, nofun, nofun⟩

example := C66_compiles_partial (P := exProg exSettings) (s := portable) rfl (e := exEntries 0) (i := exInsts 0) rfl nofun

example := C66_aip (P := exProg exSettings) (s := portable) rfl (t := (Kind.flt 1).plain)
  (i := ⟨(Kind.flt 1).plain, .inplace, .bits (bytesLE 8 sentinelDouble)⟩) rfl rfl

example : MayStore exSem (withoutTricks (exInsts 1)) (fun _ => 5#64) := C66_no_reserve (by show exSem.eq _ _ _ = false; rfl)

/-- The history of C49. -/
example : ∃ i', (∀ x, compile (withSettings (exProg exSettings) portable) (exEntries x) = .ok (i' x)) ∧
    (run (progEnv exSem i' (fun _ => scalarOps) false) endHistory (.init ())).1 =
      (run (progEnv exSem exInsts (fun _ => scalarOps) false) endHistory (.init ())).1 := by
  obtain ⟨sw, hop, hr, hst, h17⟩ := endHistory_legal
  obtain ⟨i', h1, h2, _⟩ := C66_same (s := portable) rfl (exSem_lawful exSettings rfl) (lawful_portable (exSem_lawful exSettings rfl)) ex_compiled
    (fun | 0, _ | 1, _ | 2, _ | _ + 3, _ => nofun) (fun _ => scalarOps_lawful) false hop hr hst h17
  exact ⟨i', h1, h2⟩

/-- C66 without the exception is false: `optional_aip<double>` stops to compile. -/
theorem C66_false : compile (exProg exSettings) (.aip (Kind.flt 1).plain none) =
      .ok ⟨(Kind.flt 1).plain, .inplace, .bits (bytesLE 8 sentinelDouble)⟩ ∧
    compile (withSettings (exProg exSettings) portable) (.aip (Kind.flt 1).plain none) = .error .missingSentinel :=
  ⟨rfl, rfl⟩

/-- The converse is false, too: `optional<S, &S::x>` with an `int` member (no unused bits) compiles only without the tricks. -/
theorem C66_converse_false : compile (exProg exSettings) (.optional (Kind.cls 7).plain (.memPtr ⟨7, exInt.plain, 0, false, 0⟩) (.useDefault 0)) =
      .error .memberNeedsSentinel ∧
    compile (withSettings (exProg exSettings) portable) (.optional (Kind.cls 7).plain (.memPtr ⟨7, exInt.plain, 0, false, 0⟩) (.useDefault 0)) =
      .ok ⟨(Kind.cls 7).plain, .separate, .separate⟩ :=
  ⟨rfl, rfl⟩

/-- It needs this macro: with only `TINY_OPTIONAL_USE_SEPARATE_BOOL_INSTEAD_OF_UNUSED_BITS` (optional.h:78-85, not documented),
`optional<S, &S::b>` with a `bool` member stops to compile. -/
theorem C66_unused_bits_false : compile (exProg exSettings) (exEntries 0) = .ok (exInsts 0) ∧
    compile (withSettings (exProg exSettings) ⟨false, true, false, .x64⟩) (exEntries 0) = .error .memberNeedsSentinel :=
  ⟨rfl, rfl⟩

/-- Contrary to README:670, the member pointer is not ignored: of a class with a manipulator, `optional<S>` stays in place, but
`optional<S, &S::b>` gets a separate `bool`. -/
theorem C66_ignored_false : ∃ P : Model.Prog, P.set = portable ∧
    compile P (.optional (Kind.cls 7).plain (.useDefault 0) (.useDefault 0)) = .ok ⟨(Kind.cls 7).plain, .inplace, .user 0⟩ ∧
    compile P (exEntries 0) = .ok ⟨(Kind.cls 7).plain, .separate, .separate⟩ :=
  ⟨{ exProg portable with full := fun t => if t = (Kind.cls 7).plain then some 0 else none, manipNoexcept := fun _ => true }, rfl, rfl, rfl⟩

end Verif.Props
