import Verif.Spec.Base
import Verif.Spec.IEEE754

/-!
# Specification: copies of floating point values on x86

A compiler may copy a `double` or `float` with integer (or SSE) instructions, which keep all bits, or load it into a register of the x87 FPU
and store it from there. A load of a 32 or 64 bit value converts it to the 80 bit format, which makes a signalling NaN quiet
(Intel SDM vol. 1, 4.8.3.6 and 8.3.4; vol. 2, FLD). All other values survive.
-/

namespace Verif.Spec
variable {W : Nat} {G : Type}

/-- `a` may be the result of copying `v`, once or several times. -/
def Fmt.Copied (f : Fmt) (v a : BitVec W) : Prop := a = v ∨ f.IsNaN v ∧ a = f.quiet v

instance (f : Fmt) (v a : BitVec W) : Decidable (f.Copied v a) := inferInstanceAs (Decidable (_ ∨ _))

/-- The special operations of the type `double` or `float`. How a copy is made, may depend on everything: `G` may contain whatever
decides it. -/
structure CopiesFloats (f : Fmt) (o : Ops (BitVec W) G) : Prop where
  copyCtor : ∀ v g, ∃ a, (o.copyCtor v g).1 = .ok a ∧ f.Copied v a
  moveCtor : ∀ v g, (o.moveCtor v g).2.1 = v ∧ ∃ a, (o.moveCtor v g).1 = .ok a ∧ f.Copied v a
  copyAssign : ∀ d s g, (o.copyAssign d s g).1 = none ∧ f.Copied s (o.copyAssign d s g).2.1
  moveAssign : ∀ d s g, (o.moveAssign d s g).1 = none ∧ f.Copied s (o.moveAssign d s g).2.1 ∧ (o.moveAssign d s g).2.2.1 = s
  selfCopyAssign : ∀ v g, (o.selfCopyAssign v g).1 = none ∧ f.Copied v (o.selfCopyAssign v g).2.1
  selfMoveAssign : ∀ v g, (o.selfMoveAssign v g).1 = none ∧ f.Copied v (o.selfMoveAssign v g).2.1
  swap : ∀ a b g, (o.swap a b g).1 = none ∧ f.Copied b (o.swap a b g).2.1 ∧ f.Copied a (o.swap a b g).2.2.1
  selfSwap : ∀ v g, (o.selfSwap v g).1 = none ∧ f.Copied v (o.selfSwap v g).2.1

end Verif.Spec
