import Verif.SpecRange
import Verif.SpecNumbers

/-! # Specification of a power function for the automatic corrections (C126) -/

namespace D10.Spec
variable [Libm b32]

/-- Zero to a positive power is zero on this platform. -/
def PowOfZero : Prop := ∀ x y : F32, x.fin = true → x.val = 0 → (Scalar.lit 0 <. y) = true →
  (Scalar.powf x y).fin = true ∧ (Scalar.powf x y).val = 0

/-- `tanh` of the platform gives numbers between -1 and 1 for finite 64-bit numbers. -/
def TanhInUnit [Libm b64] : Prop := ∀ x : FP b64, x.fin = true →
  (Scalar.tanh x).fin = true ∧ |(Scalar.tanh x).val| ≤ 1

end D10.Spec
