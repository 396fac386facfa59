import Verif.Model.Constexpr
import Verif.Model.Select
import Verif.Props.Integral

/-! # C81: constant evaluation, and optionals with static storage duration -/

namespace Verif.Props
open Verif Verif.Model Verif.Spec.Constexpr Verif.Model.Constexpr

/-- The functions that the library itself evaluates at compile time, and accesses to the storage. -/
def compileTimeHelpers : List Fn := [.user, .isTinyOptionalHelper, .isIntegralInRange, .convertSentinel, .decompFlag, .decompPayload]

private theorem usable_constexpr {k : ManipKind} {f : Fn} (h : (functions k).Usable f) : isConstexpr f = true := by
  cases h with
  | mk _ _ hc => exact hc

/-- C81. With every flag manipulator, the functions that can be called in a constant expression are exactly the helpers for the selection of types and for sentinels; no constructor, no
destructor, no observer, modifier, comparison, hash or monadic function of an optional, even if all functions of the user are `constexpr`. -/
theorem C81_usable (k : ManipKind) (f : Fn) : (functions k).Usable f ↔ f ∈ compileTimeHelpers := by
  constructor
  · intro h
    have hc := usable_constexpr h
    cases h with
    | mk _ calls _ he hu =>
      have key : ∀ g ∈ calls, isConstexpr g = true := fun g hg => usable_constexpr (hu g hg)
      clear hu
      simp only [functions] at he
      cases f <;> simp only [isConstexpr, Bool.false_eq_true] at hc <;> try decide
      all_goals
        exfalso
        simp only [executions, List.mem_cons, List.not_mem_nil, or_false] at he
        rcases he with rfl | rfl | rfl <;> simp [isConstexpr] at key
  · intro h
    have leaf : ∀ g, isConstexpr g = true → executions k g = [[]] → (functions k).Usable g := by
      intro g h1 h2
      exact .mk g [] h1 (by simp [functions, h2]) (by simp)
    simp only [compileTimeHelpers, List.mem_cons, List.not_mem_nil, or_false] at h
    rcases h with rfl | rfl | rfl | rfl | rfl | rfl
    · exact leaf _ rfl rfl
    · exact leaf _ rfl rfl
    · exact leaf _ rfl rfl
    · refine .mk _ [.isIntegralInRange] rfl (by simp [functions, executions]) ?_
      intro g hg
      simp only [List.mem_cons, List.not_mem_nil, or_false] at hg
      subst hg
      exact leaf _ rfl rfl
    · exact leaf _ rfl rfl
    · exact leaf _ rfl rfl

/-- C81. Three functions are declared `constexpr` all the same, and the destructor and the special member functions are defaulted; none can be called in a constant expression. -/
theorem C81_in_vain (k : ManipKind) (f : Fn) (h : f = .andThen ∨ f = .transform ∨ f = .orElse) :
    isConstexpr f = true ∧ ¬ (functions k).Usable f := by
  rw [C81_usable]
  rcases h with rfl | rfl | rfl <;> exact ⟨rfl, by decide⟩

/-- C81. An optional is not a literal type, neither in C++17 nor in C++20. So `transform` and `or_else`, which return optionals, do not meet the requirements for `constexpr` functions
with any arguments ([dcl.constexpr], until C++20). -/
theorem C81_not_literal (e : Edition) : optionalClass.literal e = false := by cases e <;> rfl

/-- C81. An optional with static storage duration is not initialised at compile time, but by a call of its constructor at run time. -/
theorem C81_static_init (k : ManipKind) : staticInit k = .zeroThenDynamic := by
  unfold staticInit
  rw [if_neg]
  rw [C81_usable]
  decide

/-- C81. Before its constructor has run (for example when the constructor of a global variable in another translation unit looks at it), an optional with static storage duration
and a separate flag answers that it has a value. -/
theorem C81_zero_separate {V : Type} (c : Config V) (zero : V) (h : c.manip = .separate) : c.isEmpty (zeroed c zero) = .ok false := by
  simp [Config.isEmpty, h, zeroed, readBool]

private theorem memcmp_zero (off : Nat) (s : List Byte) : memcmpEq (fun _ => some 0#8) off s = .ok (s.all (· == 0#8)) := by
  induction s generalizing off with
  | nil => rfl
  | cons b s ih =>
    simp only [memcmpEq, ih, List.all_cons]
    congr 2
    exact Bool.beq_comm

/-- C81. The same if the flag is marked by unused bits, for every bit pattern of the library. -/
theorem C81_zero_bits {V : Type} (P : Model.Prog) (t : Kind) (s : List Byte) (hs : unusedBitsSentinel P t = some s) (c : Config V) (zero : V)
    (h : c.manip = .memcpy s) (hsize : c.loc.off + s.length ≤ c.size) : c.isEmpty (zeroed c zero) = .ok false := by
  have hz : s.all (· == 0#8) = false := by
    unfold unusedBitsSentinel at hs
    split at hs
    · injection hs with hs; subst hs; decide
    · injection hs with hs; subst hs; decide
    · injection hs with hs; subst hs; decide
    · split at hs
      · injection hs with hs; subst hs; decide
      · injection hs with hs; subst hs; decide
      · cases hs
    · cases hs
  simp only [Config.isEmpty, h, hsize, if_true]
  simp only [zeroed, memcmp_zero, hz]

/-- C81. With an explicit sentinel it answers that it is empty exactly if zero equals the sentinel. -/
theorem C81_zero_sentinel {V : Type} (c : Config V) (zero sentinel : V) (eq : V → V → Bool) (h : c.manip = .assign sentinel eq) :
    c.isEmpty (zeroed c zero) = .ok (eq zero sentinel) := by
  simp [Config.isEmpty, Config.readFlag, h, zeroed]

/-! ### Instances -/

/-- The functions that are evaluated at compile time are there: the conversion of a sentinel calls the check of its range. -/
example : (functions .assign).Usable .convertSentinel := (C81_usable _ _).2 (by decide)
example : ¬ (functions .user).Usable .hasValue := fun h => absurd ((C81_usable _ _).1 h) (by decide)
example := C81_in_vain .user .andThen (.inl rfl)

private def zProg : Prog where
  dm := lp64
  set := ⟨false, false, false, .x64⟩
  shortRank := 2
  longRank := 4
  llongRank := 5
  full _ := none
  partials _ := []
  manipNoexcept _ := true
  eqNoexcept _ := true
  payloadOK _ := true

private def zSep : Config Int := ⟨4, fun _ _ => some 0#8, .separate, .separate, false⟩
private def zBits : Config Int := ⟨1, fun _ _ => some 0#8, .inplace, .memcpy (bytesLE 1 sentinelBool), false⟩
private def zSent (n : Int) : Config Int := ⟨4, fun _ _ => some 0#8, .inplace, .assign n (· == ·), false⟩

example : zSep.isEmpty (zeroed zSep 0) = .ok false := C81_zero_separate _ _ rfl
example : zBits.isEmpty (zeroed zBits 0) = .ok false := C81_zero_bits zProg .bool _ rfl _ _ rfl (by decide)
/-- `optional<int, 42>` looks like the value 0, `optional<int, 0>` is empty. -/
example : (zSent 42).isEmpty (zeroed (zSent 42) 0) = .ok false ∧ (zSent 0).isEmpty (zeroed (zSent 0) 0) = .ok true :=
  ⟨C81_zero_sentinel (zSent 42) 0 42 (· == ·) rfl, C81_zero_sentinel (zSent 0) 0 0 (· == ·) rfl⟩

end Verif.Props
