import Verif.Model.Color
import Mathlib.Data.Real.Basic
import Mathlib.Algebra.Order.Group.Abs

/-!
# Specification of the HSL colours (C102)
-/

namespace D10.Spec

/-- The greatest minus the least channel of the colour with saturation `s` and lightness `l`. -/
noncomputable def span (s l : ℝ) : ℝ := s * (1 - |2 * l - 1|)

/-- `x` and `y` differ by at most `e` in every channel and agree in alpha. -/
def Apart (e : ℝ) (x y : Col ℝ) : Prop :=
  |x.c0 - y.c0| ≤ e ∧ |x.c1 - y.c1| ≤ e ∧ |x.c2 - y.c2| ≤ e ∧ x.alpha = y.alpha

end D10.Spec
