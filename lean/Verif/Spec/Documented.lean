import Verif.Model.Select

/-!
# What the README says about the choice of the storage

README "Using `tiny::optional` as `std::optional` replacement", "Using a sentinel value", "Storing the empty state in a
member variable", "The full signature of `tiny::optional`", "Disabling platform specific tricks". Stated on the template
arguments and user specialisations, without the library's traits.
-/

namespace Verif.Model
open Verif.Spec

variable (P : Prog)

/-- "float, double, bool or a pointer/function pointer", unless the tricks are disabled. cv-qualifiers do not matter. -/
def Builtin (t : QTy) : Prop :=
  P.set.noBits = false ∧ (t.kind = .bool ∨ t.kind = .flt 0 ∨ t.kind = .flt 1 ∨ ∃ id, t.kind = .ptr id)

/-- `std::float16_t` and the like: floating point types that are none of `float`, `double`, `long double`. The README does
not mention them. -/
def Extended (t : QTy) : Prop := P.set.noBits = false ∧ ∃ id, t.kind = .flt (id + 3)

/-- The type whose manipulator matters: that of the member, or the payload. -/
def flagTy (t : QTy) : NTTP → QTy
  | .memPtr p => p.var
  | _ => t

/-- The emptiness flag of a `t` can be stored in the `t` without a sentinel: `optional_flag_manipulator` is specialised
by the user (unambiguously), or by the library. -/
def Knows (t : QTy) : Prop :=
  (∃ id, P.full t = some id) ∨
  (P.full t = none ∧ (∃ id, P.partials t = [id]) ∧ ¬ Builtin P t) ∨
  (P.full t = none ∧ P.partials t = [] ∧ Builtin P t)

/-- No way is known to store a flag in a `t`. -/
def Plain (t : QTy) : Prop :=
  P.full t = none ∧ P.partials t = [] ∧ ¬ Builtin P t

/-- The sentinel given by the third argument. -/
def ThirdSentinel : NTTP → Option Const
  | .useDefault _ => none
  | .memPtr p => some ⟨.memPtr p.ty, p.idx⟩
  | .const c => some c

/-- The documented storage of `tiny::optional<t, a, b>`. -/
inductive Documented (t : QTy) : NTTP → NTTP → Selected → Prop where
  /-- no arguments, no unused bits known: like `std::optional` -/
  | std {u b} : Plain P t → Documented t (.useDefault u) b ⟨t, .separate, .separate⟩
  /-- unused bits or a user's manipulator -/
  | bits {u b} : Knows P t → Documented t (.useDefault u) b ⟨t, .inplace, .registered t⟩
  /-- a sentinel; it takes precedence over a manipulator; the third argument is irrelevant -/
  | sentinel {c b} : Knows P t ∨ Plain P t → Documented t (.const c) b ⟨t, .inplace, .assign t c⟩
  /-- the flag is in the member `p` of `t` -/
  | member {p b} : P.set.noMem = false → t = ⟨.cls p.cls, ⟨false, false⟩⟩ → Knows P p.var → ThirdSentinel b = none →
      Documented t (.memPtr p) b ⟨t, .viaMember p, .registered p.var⟩
  /-- the flag is in the member `p` of `t`, with a sentinel -/
  | memberSentinel {p b c} : P.set.noMem = false → t = ⟨.cls p.cls, ⟨false, false⟩⟩ → Knows P p.var ∨ Plain P p.var →
      ThirdSentinel b = some c → Documented t (.memPtr p) b ⟨t, .viaMember p, .assign p.var c⟩
  /-- with the macro the member pointer (and a sentinel for it) is ignored -/
  | memberIgnored {p b} : P.set.noMem = true → t = ⟨.cls p.cls, ⟨false, false⟩⟩ → Knows P p.var ∨ Plain P p.var →
      Documented t (.memPtr p) b ⟨t, .separate, .separate⟩

end Verif.Model
