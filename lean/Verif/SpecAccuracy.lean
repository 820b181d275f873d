import Verif.Lemmas.Exact
import Verif.Float.FP
import Verif.Float.Real

/-!
# Specification of the accuracy of binary32 results (C86)
-/

namespace D10.Spec

/-- `x` is a finite number within `e` of `q`. -/
structure Close (x : F32) (q e : ℝ) : Prop where
  fin : x.fin = true
  err : |(x.val : ℝ) - q| ≤ e

/-- All four channels are finite and within `e`. -/
structure CloseCol (e : ℝ) (c : Col F32) (d : Col ℝ) : Prop where
  c0 : Close c.c0 d.c0 e
  c1 : Close c.c1 d.c1 e
  c2 : Close c.c2 d.c2 e
  alpha : Close c.alpha d.alpha e

/-- The exact numbers held by the channels. -/
def exact (c : Col F32) : Col ℝ := ⟨c.c0.val, c.c1.val, c.c2.val, c.alpha.val⟩

/-- All four channels are finite numbers in [0, 1]. -/
structure UnitCol (c : Col F32) : Prop where
  c0 : c.c0.fin = true ∧ 0 ≤ c.c0.val ∧ c.c0.val ≤ 1
  c1 : c.c1.fin = true ∧ 0 ≤ c.c1.val ∧ c.c1.val ≤ 1
  c2 : c.c2.fin = true ∧ 0 ≤ c.c2.val ∧ c.c2.val ≤ 1
  alpha : c.alpha.fin = true ∧ 0 ≤ c.alpha.val ∧ c.alpha.val ≤ 1

/-- `powf` of the platform is within `δ` of the real power, for bases in [0, 1] and positive exponents. -/
def PowWithin [Libm b32] (δ : ℝ) : Prop :=
  ∀ x y : F32, x.fin = true → y.fin = true → 0 ≤ x.val → x.val ≤ 1 → 0 < y.val →
    Close (Scalar.powf x y) ((x.val : ℝ) ^ (y.val : ℝ)) δ

end D10.Spec
