import Verif.SpecAccuracy

/-! # Specification of operations that keep the order of brightness (C93) -/

namespace D10.Spec
variable [Libm b32]

/-- No colour channel of `c` is above the one of `d` (as `<=` of 32-bit floats decides it). -/
structure Darker (c d : Col F32) : Prop where
  c0 : (c.c0 <=. d.c0) = true
  c1 : (c.c1 <=. d.c1) = true
  c2 : (c.c2 <=. d.c2) = true

/-- The `powf` of the platform, with the exponent `p`, keeps [0, 1] and the order in it. -/
structure PowOrdered (p : F32) : Prop where
  range : ∀ x : F32, x.fin = true ∧ 0 ≤ x.val ∧ x.val ≤ 1 →
    (Scalar.powf x p).fin = true ∧ 0 ≤ (Scalar.powf x p).val ∧ (Scalar.powf x p).val ≤ 1
  mono : ∀ x y : F32, x.fin = true ∧ 0 ≤ x.val ∧ x.val ≤ 1 → y.fin = true ∧ 0 ≤ y.val ∧ y.val ≤ 1 →
    (x <=. y) = true → (Scalar.powf x p <=. Scalar.powf y p) = true

end D10.Spec
