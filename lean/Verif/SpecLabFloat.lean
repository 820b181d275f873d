import Verif.SpecAccuracy
import Verif.SpecLab

/-!
# Specification of the accuracy of the 32-bit Lab and LCh conversions (C112)
-/

namespace D10.Spec

/-- `powf` of the platform is within `δ` of the real power, for bases in [0, 1.4] and exponents in
(0, 3]. -/
def PowNear [Libm b32] (δ : ℝ) : Prop :=
  ∀ x y : F32, x.fin = true → y.fin = true → 0 ≤ x.val → x.val ≤ 1.4 → 0 < y.val → y.val ≤ 3 →
    Close (Scalar.powf x y) ((x.val : ℝ) ^ (y.val : ℝ)) δ

/-- The first three channels are finite and in [-0.0001, 1.1], as the XYZ values of every RGB colour are;
alpha is finite. -/
structure XyzRange (c : Col F32) : Prop where
  c0 : c.c0.fin = true ∧ -0.0001 ≤ (c.c0.val : ℝ) ∧ (c.c0.val : ℝ) ≤ 1.1
  c1 : c.c1.fin = true ∧ -0.0001 ≤ (c.c1.val : ℝ) ∧ (c.c1.val : ℝ) ≤ 1.1
  c2 : c.c2.fin = true ∧ -0.0001 ≤ (c.c2.val : ℝ) ∧ (c.c2.val : ℝ) ≤ 1.1
  alpha : c.alpha.fin = true

/-- `sqrt` of the platform has a relative error of at most 1/16000000 for numbers up to 64, apart from 10^-30.
(IEEE 754 demands 1/16777216.) -/
def SqrtNear [Libm b32] : Prop :=
  ∀ x : F32, x.fin = true → 0 ≤ x.val → x.val ≤ 64 →
    Close (Scalar.sqrt x) (Real.sqrt x.val) (Real.sqrt x.val / 16000000 + 1 / 10 ^ 30)

/-- `θ` is the direction of the point (x, y): the polar angle, in [-π, π]. For the origin every angle is, and for
points on the negative x-axis both π and -π are, as the sign of a zero decides between them. -/
def Direction (x y θ : ℝ) : Prop :=
  |θ| ≤ Real.pi ∧ Real.sqrt (x ^ 2 + y ^ 2) * Real.cos θ = x ∧ Real.sqrt (x ^ 2 + y ^ 2) * Real.sin θ = y

/-- `sin` and `cos` (for angles up to 4) of the platform are within `δ`, and `atan2` is within `δ` of the direction
of the point. -/
structure TrigNear [Libm b32] (δ : ℝ) : Prop where
  cos : ∀ x : F32, x.fin = true → |x.val| ≤ 4 → Close (Scalar.cos x) (Real.cos x.val) δ
  sin : ∀ x : F32, x.fin = true → |x.val| ≤ 4 → Close (Scalar.sin x) (Real.sin x.val) δ
  atan2 : ∀ y x : F32, y.fin = true → x.fin = true →
    ∃ θ, Direction x.val y.val θ ∧ Close (Scalar.atan2 y x) θ δ

/-- A Lab colour with lightness in [0, 1] and |a|, |b| ≤ 2 whose scaled X and Z have cube roots of at most 1.3,
as those of every RGB colour have. -/
structure LabRange (c : Col F32) : Prop where
  c0 : c.c0.fin = true ∧ 0 ≤ c.c0.val ∧ c.c0.val ≤ 1
  c1 : c.c1.fin = true ∧ |c.c1.val| ≤ 2
  c2 : c.c2.fin = true ∧ |c.c2.val| ≤ 2
  alpha : c.alpha.fin = true
  x : (100 * c.c0.val + 16) / 116 + 128 * c.c1.val / 500 ≤ 1.3
  z : (100 * c.c0.val + 16) / 116 - 128 * c.c2.val / 200 ≤ 1.3

end D10.Spec
