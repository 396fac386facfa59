import Verif.Lemmas.Qualified
import Verif.Props.Integral

/-! # C80: `const` and `volatile` payloads and flags -/

namespace Verif.Props
open Verif Verif.Model Verif.Spec.Qualified Verif.Model.Qualified Verif.Lemmas.Qualified

/-- C80. For every optional that the library compiles, with any qualifiers of the payload and of the member that holds the flag: the references in
the storage layer bind without a cast, so `GetPayload` and the flag manipulators of the library compile. (Manipulators of the user: `C80_user`.) -/
theorem C80_compiles {P : Model.Prog} {e : Entry} {i : Inst} (h : compile P e = .ok i)
    (user : Nat → Quals) (hu : ∀ id, i.manip ≠ .user id) : ∀ b ∈ bindings user i, b.wellFormed := by
  rcases i with ⟨⟨k, c, v⟩, d, m⟩
  rcases compile_shape h with ⟨rfl, rfl⟩ | ⟨rfl, hm⟩ | ⟨p, rfl, hp, hm⟩
  · cases c <;> cases v <;> simp [bindings, accessors, calls, param, argument, flagType, member, quals, Quals.none, Binding.wellFormed, Quals.le, Quals.addConst]
  · cases m with
    | separate => exact absurd rfl hm
    | user id => exact absurd rfl (hu id)
    | bits s => cases c <;> cases v <;> simp [bindings, accessors, calls, param, argument, flagType, manipType, member, quals, Binding.wellFormed, Quals.le, Quals.addConst]
    | assign k n => cases c <;> cases v <;> simp [bindings, accessors, calls, param, argument, flagType, manipType, member, quals, Binding.wellFormed, Quals.le, Quals.addConst]
  · rcases p with ⟨cls, ⟨k', c', v'⟩, idx, nul, ty⟩
    injection hp with _ hp
    injection hp with h1 h2
    subst h1 h2
    cases m with
    | separate => exact absurd rfl hm
    | user id => exact absurd rfl (hu id)
    | bits s => cases c' <;> cases v' <;> simp [bindings, accessors, calls, param, argument, flagType, manipType, member, quals, Quals.union, Binding.wellFormed, Quals.le, Quals.addConst]
    | assign k n => cases c' <;> cases v' <;> simp [bindings, accessors, calls, param, argument, flagType, manipType, member, quals, Quals.union, Binding.wellFormed, Quals.le, Quals.addConst]

/-- C80. The functions of a manipulator of the user, given to `optional_inplace`, with a parameter `Q T &` (`Q T const &` for `is_empty`):
they accept the flag exactly if the payload is `volatile` only where `Q` is. A payload may be `const` in any case, because its storage is not. -/
theorem C80_user {P : Model.Prog} {t : QTy} {id : Nat} {i : Inst} (h : compile P (.inplace t id) = .ok i) (user : Nat → Quals) :
    (∀ b ∈ bindings user i, b.wellFormed) ↔ (t.cv.v = true → (user id).volatile = true) := by
  obtain ⟨h1, h2, h3⟩ := inplace_ok h
  rcases i with ⟨⟨k, c, v⟩, d, m⟩
  simp only at h1 h2 h3
  subst h1 h2 h3
  rcases hq : user id with ⟨qc, qv⟩
  cases c <;> cases v <;>
    simp [bindings, accessors, calls, param, argument, flagType, member, quals, Binding.wellFormed, Quals.le, Quals.addConst, hq]

/-- The object that holds the flag of an optional with a value is `volatile`: the payload, or the member. -/
def VolatileFlag (i : Inst) : Prop :=
  (i.decomp = .inplace ∧ i.payload.cv.v = true) ∨ ∃ p, i.decomp = .viaMember p ∧ p.var.cv.v = true

/-- C80. `has_value()` reads the flag as the language allows, for every optional that the library compiles, with or without a value, unless the flag is
`volatile` and marked by unused bits: so for flags next to the payload and for explicit sentinels with any qualifiers. The part of the claim that holds; missing are
`volatile` flags marked by unused bits (`C80_false`). -/
theorem C80_reads_partial {P : Model.Prog} {e : Entry} {i : Inst} (h : compile P e = .ok i) (hb : (∀ s, i.manip ≠ .bits s) ∨ ¬ VolatileFlag i)
    (full : Bool) (r : Read) (hr : hasValueReads i full = some r) : r.defined := by
  rcases i with ⟨⟨k, c, v⟩, d, m⟩
  have key : ∀ (q : Quals) (o : Quals), some (Read.mk o q) = some r → (o.volatile = true → q.volatile = true) → r.defined := by
    intro q o hqo hvol
    injection hqo with hqo
    subst hqo
    exact hvol
  rcases compile_shape h with ⟨rfl, rfl⟩ | ⟨rfl, hm⟩ | ⟨p, rfl, hp, hm⟩
  · cases full <;> exact key _ _ hr (by simp [flagOfValue, Quals.none])
  · cases m with
    | separate => exact absurd rfl hm
    | user id => simp [hasValueReads, isEmptyReads] at hr
    | bits s =>
      cases full with
      | false => simp [hasValueReads, isEmptyReads, flagOfEmpty] at hr
      | true =>
        have hv : v = false := by
          rcases hb with hb | hb
          · exact absurd rfl (hb s)
          · cases v with
            | false => rfl
            | true => exact absurd (.inl ⟨rfl, rfl⟩) hb
        subst hv
        exact key _ _ hr (by simp [flagOfValue, payloadObject, quals])
    | assign k n => cases full <;> exact key _ _ hr (by simp [flagOfValue, payloadObject, quals, manipType, Quals.addConst])
  · injection hp with _ hp
    injection hp with h1 h2
    subst h1 h2
    cases m with
    | separate => exact absurd rfl hm
    | user id => simp [hasValueReads, isEmptyReads] at hr
    | bits s =>
      cases full with
      | false => simp [hasValueReads, isEmptyReads, flagOfEmpty] at hr
      | true =>
        have hv : p.var.cv.v = false := by
          rcases hb with hb | hb
          · exact absurd rfl (hb s)
          · cases hv : p.var.cv.v with
            | false => rfl
            | true => exact absurd (.inr ⟨p, rfl, hv⟩) hb
        exact key _ _ hr (by simp [flagOfValue, payloadObject, quals, Quals.union, hv])
    | assign k n =>
      cases full <;> exact key _ _ hr (by simp [flagOfValue, payloadObject, quals, manipType, Quals.addConst, Quals.union])

/-- C80. The condition is needed: the read of the flag of an optional with a value is undefined exactly if the flag is `volatile` and marked by unused bits. -/
theorem C80_reads_exact {P : Model.Prog} {e : Entry} {i : Inst} (h : compile P e = .ok i) :
    (∃ r, hasValueReads i true = some r ∧ ¬ r.defined) ↔ (∃ s, i.manip = .bits s) ∧ VolatileFlag i := by
  constructor
  · rintro ⟨r, hr, hn⟩
    refine ⟨?_, ?_⟩
    · refine Classical.byContradiction fun hb => hn (C80_reads_partial h (.inl fun s hs => hb ⟨s, hs⟩) true r hr)
    · exact Classical.byContradiction fun hb => hn (C80_reads_partial h (.inr hb) true r hr)
  · rintro ⟨⟨s, hs⟩, hv⟩
    rcases hv with ⟨hd, hv⟩ | ⟨p, hd, hv⟩
    · exact ⟨⟨quals i.payload, .none⟩, by simp [hasValueReads, isEmptyReads, flagOfValue, payloadObject, hs, hd],
        by simp [Read.defined, quals, hv, Quals.none]⟩
    · exact ⟨⟨(quals i.payload).union (quals p.var), .none⟩, by simp [hasValueReads, isEmptyReads, flagOfValue, payloadObject, hs, hd],
        by simp [Read.defined, Quals.union, quals, hv, Quals.none]⟩

/-- C80. With the text of C++20, the expression in `GetPayload` refers to the payload that was constructed last, after every history of an optional whose flag is
no member of the payload, with any qualifiers. -/
theorem C80_named_cpp20 (i : Inst) (hasConstMember : Bool) (events : List StorageEvent) : payloadNamed .cpp20 i hasConstMember events = true := by
  simp [payloadNamed, nameRefers, Created.replaceable]

/-- C80. With the text of C++17, which has no exception for subobjects and for which the library is written, this holds for all histories exactly if neither the payload nor one of its
members is `const` (or a reference): there is no `std::launder` in the library. -/
theorem C80_named_cpp17 (i : Inst) (hasConstMember : Bool) :
    (∀ events, payloadNamed .cpp17 i hasConstMember events = true) ↔ i.payload.cv.c = false ∧ hasConstMember = false := by
  constructor
  · intro h
    have h := h [.fills, .fills]
    rcases i with ⟨⟨k, c, v⟩, d, m⟩
    simpa [payloadNamed, nameRefers, creates, Created.replaceable, payloadObject, quals] using h
  · rintro ⟨hc, hm⟩ events
    rw [payloadNamed, nameRefers, List.all_eq_true]
    intro o ho
    have ho := List.dropLast_subset _ ho
    obtain ⟨ev, _, hev⟩ := List.mem_filterMap.1 ho
    rcases i with ⟨⟨k, c, v⟩, d, m⟩
    simp only at hc
    subst hc hm
    cases ev with
    | fills => simp only [creates, Option.some.injEq] at hev; subst hev; rfl
    | empties =>
      cases d <;> cases m <;> simp only [creates, Option.some.injEq, reduceCtorEq] at hev
      subst hev; rfl

/-- C80. The specialisations of `optional_flag_manipulator` are looked up with the qualifiers of the payload: if none is given for the qualified type, a class has a separate flag, whatever
is given for the unqualified type. -/
theorem C80_lookup {P : Model.Prog} {n : Nat} {cv : Cv} (hf : P.full ⟨.cls n, cv⟩ = none) (hp : P.partials ⟨.cls n, cv⟩ = []) {i : Inst}
    (h : compile P (.optional ⟨.cls n, cv⟩ (.useDefault 0) (.useDefault 0)) = .ok i) : i.decomp = .separate ∧ i.manip = .separate := by
  have hk : unusedBitsKnown P ⟨.cls n, cv⟩ = false := by unfold unusedBitsKnown; split <;> rfl
  have hc : flagManipulator P ⟨.cls n, cv⟩ = .ok .nothing := by simp [flagManipulator, hf, hp, hk]
  obtain ⟨sel, hs, hi⟩ := optionalSentinelViaType_ok h
  obtain ⟨_, _, _, hd, _, hm⟩ := instantiate_ok hi
  obtain ⟨_, hcase⟩ := selectDecomposition_ok hs
  rcases hcase with ⟨h1, h2, _⟩ | ⟨_, _, h2⟩ | ⟨p, _, h1, _⟩
  · rw [h2] at hm
    exact ⟨hd.trans h1, hm⟩
  · rcases h2 with ⟨h2, _⟩ | ⟨c, _, h2⟩
    · rw [h2] at hm
      rcases hm with ⟨b, hb, _⟩ | ⟨id, hb, _⟩ <;> simp [fromConstants, hc] at hb
    · simp [fromConstants, NTTP.toSentinel] at h2
  · simp [fromConstants] at h1

/-! ### Instances -/

/-- A program on x64 with the defaults. Class 0 has a `bool volatile`, an `int volatile` and an `int const`; manipulator 1 is registered for class 1. -/
private def qProg : Prog where
  dm := lp64
  set := ⟨false, false, false, .x64⟩
  shortRank := 2
  longRank := 4
  llongRank := 5
  full t := if t = (Kind.cls 1).plain then some 1 else none
  partials _ := []
  manipNoexcept _ := true
  eqNoexcept _ := true
  payloadOK _ := true

private def qInt : Kind := .int ⟨3, true, 0⟩
private def doubleVolatile : QTy := ⟨.flt 1, ⟨false, true⟩⟩
private def flagMember : NTTP := .memPtr ⟨0, ⟨.bool, ⟨false, true⟩⟩, 0, false, 0⟩

/-- C80. The claim is false for `volatile` flags that are marked by unused bits: `optional<double volatile>`, which the tests of the library exercise
(tests/ExerciseTinyOptionalPayload2.cpp:38-41), compiles, and `has_value()` of one with a value has undefined behaviour. The same for a `bool volatile` member. -/
theorem C80_false :
    (∃ P i r, compile P (.optional doubleVolatile (.useDefault 0) (.useDefault 0)) = .ok i ∧ hasValueReads i true = some r ∧ ¬ r.defined) ∧
    (∃ P i r, compile P (.optional (Kind.cls 0).plain flagMember (.useDefault 0)) = .ok i ∧ hasValueReads i true = some r ∧ ¬ r.defined) :=
  ⟨⟨qProg, _, _, rfl, rfl, by decide⟩, ⟨qProg, _, _, rfl, rfl, by decide⟩⟩

/-- `optional<int const volatile, 42>` compiles, and its references bind. -/
example := C80_compiles (P := qProg) (e := .optional ⟨qInt, ⟨true, true⟩⟩ (.const ⟨qInt, 42⟩) (.useDefault 0)) (i := ⟨⟨qInt, ⟨true, true⟩⟩, .inplace, .assign qInt 42⟩)
  rfl (fun _ => .none) (fun _ h => by cases h)

/-- `optional<double volatile>` compiles as well. -/
example := C80_compiles (P := qProg) (e := .optional doubleVolatile (.useDefault 0) (.useDefault 0)) (i := _) rfl (fun _ => .none) (fun _ h => by cases h)

/-- So does an optional with the flag in a `volatile` or `const` member. -/
example := C80_compiles (P := qProg) (e := .optional (Kind.cls 0).plain flagMember (.useDefault 0)) (i := _) rfl (fun _ => .none) (fun _ h => by cases h)
example := C80_compiles (P := qProg) (e := .optional (Kind.cls 0).plain (.memPtr ⟨0, ⟨qInt, ⟨true, false⟩⟩, 2, false, 1⟩) (.const ⟨qInt, 42⟩)) (i := _) rfl
  (fun _ => .none) (fun _ h => by cases h)

/-- The references are not trivial: the flag of `optional<int const, 42>` is an lvalue of the type `int`, the parameters are `int const &`. -/
example : calls (fun _ => .none) ⟨⟨qInt, ⟨true, false⟩⟩, .inplace, .assign qInt 42⟩ =
    [⟨⟨true, false⟩, ⟨true, false⟩⟩, ⟨⟨false, false⟩, ⟨true, false⟩⟩, ⟨⟨false, false⟩, ⟨true, false⟩⟩] := rfl

/-- A manipulator with functions for `T const &` and `T &` fits `T const`, not `T volatile`. -/
example : ∀ b ∈ bindings (fun _ => .none) ⟨⟨.cls 1, ⟨true, false⟩⟩, .inplace, .user 3⟩, b.wellFormed :=
  (C80_user (P := qProg) (t := ⟨.cls 1, ⟨true, false⟩⟩) (id := 3) rfl _).2 (by decide)
example : ¬ ∀ b ∈ bindings (fun _ => .none) ⟨⟨.cls 1, ⟨false, true⟩⟩, .inplace, .user 3⟩, b.wellFormed :=
  fun h => absurd ((C80_user (P := qProg) (t := ⟨.cls 1, ⟨false, true⟩⟩) (id := 3) rfl _).1 h) (by decide)

/-- The flag of `optional<int volatile, 42>` is read as the language allows, with and without a value; that of `optional<double const>` too. -/
example (full : Bool) : (Read.mk ⟨false, true⟩ ⟨true, true⟩).defined :=
  C80_reads_partial (P := qProg) (e := .optional ⟨qInt, ⟨false, true⟩⟩ (.const ⟨qInt, 42⟩) (.useDefault 0)) rfl
    (.inl fun _ h => by cases h) full _ (by cases full <;> rfl)
example : (Read.mk ⟨true, false⟩ .none).defined :=
  C80_reads_partial (P := qProg) (e := .optional ⟨.flt 1, ⟨true, false⟩⟩ (.useDefault 0) (.useDefault 0)) rfl
    (.inr fun h => by rcases h with ⟨_, h⟩ | ⟨_, h, _⟩ <;> cases h) true _ rfl

example := (C80_reads_exact (P := qProg) (e := .optional doubleVolatile (.useDefault 0) (.useDefault 0)) rfl).2 ⟨⟨_, rfl⟩, .inl ⟨rfl, rfl⟩⟩

/-- `optional<int const, 42>` after one `emplace`, `optional<int const>` after a second one: by the text of C++17 the name does not refer to the new object. -/
example : payloadNamed .cpp17 ⟨⟨qInt, ⟨true, false⟩⟩, .inplace, .assign qInt 42⟩ false [.empties, .fills] = false ∧
    payloadNamed .cpp17 ⟨⟨qInt, ⟨true, false⟩⟩, .separate, .separate⟩ false [.empties, .fills] = true ∧
    payloadNamed .cpp17 ⟨⟨qInt, ⟨true, false⟩⟩, .separate, .separate⟩ false [.empties, .fills, .empties, .fills] = false ∧
    payloadNamed .cpp17 ⟨⟨qInt, ⟨false, false⟩⟩, .inplace, .assign qInt 42⟩ false [.empties, .fills, .empties, .fills] = true := by decide

/-- The manipulator 1 is registered for class 1, not for `const` objects of class 1. -/
example : (∃ i, compile qProg (.optional (Kind.cls 1).plain (.useDefault 0) (.useDefault 0)) = .ok i ∧ i.manip = .user 1) ∧
    ∃ i, compile qProg (.optional ⟨.cls 1, ⟨true, false⟩⟩ (.useDefault 0) (.useDefault 0)) = .ok i ∧ i.decomp = .separate ∧ i.manip = .separate :=
  ⟨⟨_, rfl, rfl⟩, ⟨_, rfl, C80_lookup (P := qProg) (n := 1) (cv := ⟨true, false⟩) rfl rfl rfl⟩⟩

end Verif.Props
