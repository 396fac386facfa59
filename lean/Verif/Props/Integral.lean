import Verif.Lemmas.Integral

/-!
# C26, C27: sentinel constants
-/

namespace Verif.Props
open Verif.Model Verif.Spec

variable {dm : DataModel}

/-- C26. For every data model and all integer types: the range check accepts a constant iff it is representable in the
target type. -/
theorem C26_range_check (target source : IntTy) {v : Int} (hv : source.Has dm v) :
    isIntegralInRange dm target source v = true ↔ target.Has dm v :=
  isIntegralInRange_iff hv

/-- C26. An integral constant for an integral flag compiles iff it is representable, and then the reserved value is that
number. -/
theorem C26_convert (target source : IntTy) {v : Int} (hv : source.Has dm v) :
    (∀ r, convertSentinel dm (.int target) ⟨.int source, v⟩ = some r → r = v) ∧
    (convertSentinel dm (.int target) ⟨.int source, v⟩ = none ↔ ¬ target.Has dm v) := by
  have h := C26_range_check (dm := dm) target source hv
  simp only [convertSentinel, reduceCtorEq, or_self, if_false]
  by_cases ht : target.Has dm v
  · simp only [h.2 ht, if_true, cast_id ht, Option.some.injEq, reduceCtorEq, ht, not_true_eq_false, and_true]
    exact fun r h => h.symm
  · have : ¬ isIntegralInRange dm target source v = true := fun hc => ht (h.1 hc)
    simp [this, ht]

/-- The data model of x64 Linux: `char` 8, `short` 16, `int` 32, `long` 64 bits (ranks 1 to 4), 128-bit integers above. -/
def lp64 : DataModel where
  bits r := if r ≤ 1 then 8 else if r = 2 then 16 else if r = 3 then 32 else if r ≤ 5 then 64 else 128
  intRank := 3
  pos r := by repeat' split
              all_goals omega
  mono r s h := by repeat' split
                   all_goals omega

/-- `int` literals are values of `int`. -/
theorem lp64_int {v : Int} (h1 : -2147483648 ≤ v) (h2 : v ≤ 2147483647) : (⟨3, true, 0⟩ : IntTy).Has lp64 v :=
  ⟨h1, h2⟩

/-- -1 is a value of `int` but not of `unsigned` (rejected); 300 is not a value of `unsigned char`; 42 is. -/
example : isIntegralInRange lp64 ⟨3, false, 0⟩ ⟨3, true, 0⟩ (-1) = false ∧
    convertSentinel lp64 (.int ⟨3, false, 0⟩) ⟨.int ⟨3, true, 0⟩, -1⟩ = none ∧
    convertSentinel lp64 (.int ⟨1, false, 0⟩) ⟨.int ⟨3, true, 0⟩, 300⟩ = none ∧
    convertSentinel lp64 (.int ⟨1, false, 0⟩) ⟨.int ⟨3, true, 0⟩, 42⟩ = some 42 :=
  ⟨Bool.eq_false_iff.2 fun h => absurd ((C26_range_check ⟨3, false, 0⟩ _ (lp64_int (v := -1) (by decide) (by decide))).1 h).1 (by decide),
    (C26_convert ⟨3, false, 0⟩ _ (lp64_int (v := -1) (by decide) (by decide))).2.2 fun h => absurd h.1 (by decide),
    (C26_convert ⟨1, false, 0⟩ _ (lp64_int (v := 300) (by decide) (by decide))).2.2 fun h => absurd h.2 (by decide), by decide⟩

/-- C27. False in general: the unscoped enumeration constant `enum E { big = 300 }` as sentinel of an `unsigned char` is
accepted and silently becomes 44. -/
theorem C27_false : ∃ (dm : DataModel) (flag : Kind) (c : Const) (r : Int),
    convertSentinel dm flag c = some r ∧ r ≠ c.val :=
  ⟨lp64, .int ⟨1, false, 0⟩, ⟨.enumUnscoped 0 ⟨3, false, 0⟩, 300⟩, 44, by decide, by decide⟩

/-- C27, partial: for every flag type and every constant that is not an unscoped enumerator used for an integer flag (and,
for numeric kinds, is a value of its type), an accepted constant is not changed. Missing: exactly that combination, see
`C27_enum`. (`nullptr` converts to the null pointer, or null pointer to member, value 0.) -/
theorem C27_unchanged_partial {flag : Kind} {c : Const} {r : Int}
    (hval : ∀ t, c.kind = .int t → t.Has dm c.val) (hnull : c.kind = .nullptr → c.val = 0)
    (hne : ∀ t id u, ¬ (flag = .int t ∧ c.kind = .enumUnscoped id u)) (h : convertSentinel dm flag c = some r) : r = c.val := by
  obtain ⟨k, v⟩ := c
  simp only [] at hval hnull hne ⊢
  unfold convertSentinel at h
  split at h
  · split at h
    · simp only [Option.some.injEq] at h; exact h.symm
    · simp at h
  · cases flag <;> cases k <;> simp only [implicitConv, reduceCtorEq, if_false] at h
    case int.int =>
      rename_i t s _
      have hc := (C26_convert (dm := dm) t s (hval s rfl)).1 r
      apply hc
      simp only [convertSentinel, reduceCtorEq, or_self, if_false]
      exact h
    case ptr.nullptr | memPtr.nullptr =>
      simp only [Option.some.injEq] at h
      rw [hnull rfl, ← h]
    case int.enumUnscoped => exact absurd ⟨rfl, rfl⟩ (hne _ _ _)
    all_goals
      split at h
      · simp only [Option.some.injEq] at h; exact h.symm
      · simp at h

/-- The hypotheses hold e.g. for `42` as sentinel of an `unsigned char`, and for a scoped enumerator of the payload type. -/
example : (∀ t, (⟨.int ⟨3, true, 0⟩, 42⟩ : Const).kind = .int t → t.Has lp64 42) ∧
    convertSentinel lp64 (.int ⟨1, false, 0⟩) ⟨.int ⟨3, true, 0⟩, 42⟩ = some 42 ∧
    convertSentinel lp64 (.enumScoped 7 ⟨3, true, 0⟩) ⟨.enumScoped 7 ⟨3, true, 0⟩, 5⟩ = some 5 :=
  ⟨fun t h => by
    simp only [Kind.int.injEq] at h
    subst h
    exact ⟨by decide, by decide⟩, by decide, by decide⟩

example (r : Int) (h : convertSentinel lp64 (.int ⟨1, false, 0⟩) ⟨.int ⟨3, true, 0⟩, 42⟩ = some r) : r = 42 :=
  C27_unchanged_partial (c := ⟨.int ⟨3, true, 0⟩, 42⟩) (fun t h => by cases h; exact lp64_int (by decide) (by decide))
    (by intro h; cases h) (by rintro t id u ⟨_, h⟩; cases h) h

/-- C27, the remaining combination exactly: an unscoped enumerator for an integer flag is always accepted, and unchanged iff
it is representable. -/
theorem C27_enum (t : IntTy) (id : Nat) (u : IntTy) (v : Int) :
    ∃ r, convertSentinel dm (.int t) ⟨.enumUnscoped id u, v⟩ = some r ∧ (r = v ↔ t.Has dm v) :=
  ⟨t.cast dm v, by simp [convertSentinel, implicitConv], cast_eq_iff⟩

/-- Kinds that do not fit together are rejected: if one is `bool`, both must be; likewise for floating point types; pointers,
enumerations and classes accept no integers. -/
theorem C27_rejected (flag : Kind) (c : Const) :
    ((flag = .bool ∨ c.kind = .bool) → flag ≠ c.kind → convertSentinel dm flag c = none) ∧
    (∀ a, (flag = .flt a ∨ c.kind = .flt a) → flag ≠ c.kind → convertSentinel dm flag c = none) ∧
    ((∃ s, c.kind = .int s) → (∀ t, flag ≠ .int t) → convertSentinel dm flag c = none) ∧
    ((∃ t, flag = .int t) → (∃ id u, c.kind = .enumScoped id u) → convertSentinel dm flag c = none) := by
  obtain ⟨k, v⟩ := c
  refine ⟨?_, ?_, ?_, ?_⟩
  · intro h1 h2
    simp only [convertSentinel, if_pos h1, if_neg h2]
  · intro a h1 h2
    rcases h1 with rfl | rfl
    · cases k <;> simp_all [convertSentinel]
    · cases flag <;> simp_all [convertSentinel]
  · rintro ⟨s, rfl⟩ h2
    cases flag <;> simp_all [convertSentinel, implicitConv]
  · rintro ⟨t, rfl⟩ ⟨id, u, rfl⟩
    simp [convertSentinel, implicitConv]

/-- The constants that can mark the empty state of a flag: of the same type; integers (other than `bool`) that are values of the flag's integer
type; unscoped enumerators for integers; `nullptr` for pointers and pointers to members. -/
inductive Accepted (dm : DataModel) : Kind → Const → Prop
  | same (k : Kind) (v : Int) : (∀ t, k ≠ .int t) → Accepted dm k ⟨k, v⟩
  | integer (t s : IntTy) (v : Int) : t.Has dm v → Accepted dm (.int t) ⟨.int s, v⟩
  | enumerator (t : IntTy) (id : Nat) (u : IntTy) (v : Int) : Accepted dm (.int t) ⟨.enumUnscoped id u, v⟩
  | null (id : Nat) (v : Int) : Accepted dm (.ptr id) ⟨.nullptr, v⟩
  | nullMember (id : Nat) (v : Int) : Accepted dm (.memPtr id) ⟨.nullptr, v⟩

/-- C27. Exactly these constants are accepted, for all flag types. -/
theorem C27_accepted (flag : Kind) (c : Const) (hval : ∀ t, c.kind = .int t → t.Has dm c.val) :
    (∃ r, convertSentinel dm flag c = some r) ↔ Accepted dm flag c := by
  obtain ⟨k, v⟩ := c
  simp only [] at hval
  constructor
  · rintro ⟨r, h⟩
    unfold convertSentinel at h
    split at h
    · rename_i hb
      split at h
      · rename_i e
        simp only [] at e hb
        subst e
        exact .same _ _ (by rintro t rfl; simp at hb)
      · cases h
    · cases flag <;> cases k <;> simp only [implicitConv, reduceCtorEq, if_false] at h
      case int.int =>
        rename_i t s _
        refine .integer t s v ?_
        by_cases hh : t.Has dm v
        · exact hh
        · have hn := (C26_convert (dm := dm) t s (hval s rfl)).2.2 hh
          simp only [convertSentinel, reduceCtorEq, or_self, if_false] at hn
          rw [hn] at h
          cases h
      case int.enumUnscoped => exact .enumerator ..
      case ptr.nullptr => exact .null ..
      case memPtr.nullptr => exact .nullMember ..
      case nullptr.nullptr => exact .same _ _ nofun
      case bool.bool hb => exact absurd (.inl rfl) hb
      all_goals first | (cases h; done) | skip
      all_goals
        split at h
        · rename_i e
          simp only [Kind.flt.injEq, Kind.ptr.injEq, Kind.enumUnscoped.injEq, Kind.enumScoped.injEq, Kind.memPtr.injEq, Kind.cls.injEq] at e
          first
          | (subst e; exact .same _ _ nofun)
          | (obtain ⟨rfl, rfl⟩ := e; exact .same _ _ nofun)
        · cases h
  · intro h
    cases h with
    | same hk =>
      refine ⟨v, ?_⟩
      cases flag <;> simp_all [convertSentinel, implicitConv]
    | integer t s _ hh =>
      exact Option.isSome_iff_exists.1 (Option.isSome_iff_ne_none.2 fun e => (C26_convert (dm := dm) t s (hval s rfl)).2.1 e hh)
    | enumerator => exact ⟨_, by simp [convertSentinel, implicitConv]; rfl⟩
    | null => exact ⟨0, by simp [convertSentinel, implicitConv]⟩
    | nullMember => exact ⟨0, by simp [convertSentinel, implicitConv]⟩

/-- `optional<int C::*, nullptr>` compiles; `optional<int C::*, 0>` does not. -/
example : (∃ r, convertSentinel lp64 (.memPtr 1) ⟨.nullptr, 0⟩ = some r) ∧ ¬ ∃ r, convertSentinel lp64 (.memPtr 1) ⟨.int ⟨3, true, 0⟩, 0⟩ = some r :=
  ⟨(C27_accepted _ _ (by intro t e; cases e)).2 (.nullMember ..), fun h => by
    cases (C27_accepted _ ⟨.int ⟨3, true, 0⟩, 0⟩ fun t e => by cases e; exact lp64_int (by decide) (by decide)).1 h⟩

end Verif.Props
