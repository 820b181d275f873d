import Verif.Float.Real
import Verif.Model.Color

/-!
# Independent specification of CIE 1976 L*a*b* and L*C*h

Textbook formulas over the real numbers. Lightness is scaled to 0..1, `a` and `b` are divided by 128.
-/

namespace D10.Spec

/-- The white points (X, Y, Z) of the illuminants for the 2° and the 10° observer. -/
noncomputable def whitePoint : Illuminant → Observer → ℝ × ℝ × ℝ
  | .D50, .O2 => (0.964212, 1, 0.8251883)
  | .D50, .O10 => (0.9672063, 1, 0.81428015)
  | .D65, .O2 => (0.95047, 1, 1.08883)
  | .D65, .O10 => (0.9480967, 1, 1.0730513)
  | .E, .O2 => (1, 1, 1)
  | .E, .O10 => (1, 1, 1)

/-- The cube root with its linear part near zero. -/
noncomputable def cieCurve (t : ℝ) : ℝ := if t < 0.008856 then (903.3 * t + 16) / 116 else t ^ (1 / 3 : ℝ)

/-- Its inverse. -/
noncomputable def cieCurveInv (u : ℝ) : ℝ := if 0.20689303 < u then u ^ 3 else (u - 16 / 116) / 7.787

/-- XYZ to Lab. -/
noncomputable def cieLab (wp : ℝ × ℝ × ℝ) (c : Col ℝ) : Col ℝ where
  c0 := (116 * cieCurve (c.c1 / wp.2.1) - 16) / 100
  c1 := 500 * (cieCurve (c.c0 / wp.1) - cieCurve (c.c1 / wp.2.1)) / 128
  c2 := 200 * (cieCurve (c.c1 / wp.2.1) - cieCurve (c.c2 / wp.2.2)) / 128
  alpha := c.alpha

/-- Lab to XYZ. -/
noncomputable def cieXyz (wp : ℝ × ℝ × ℝ) (c : Col ℝ) : Col ℝ where
  c0 := wp.1 * cieCurveInv ((100 * c.c0 + 16) / 116 + 128 * c.c1 / 500)
  c1 := wp.2.1 * cieCurveInv ((100 * c.c0 + 16) / 116)
  c2 := wp.2.2 * cieCurveInv ((100 * c.c0 + 16) / 116 - 128 * c.c2 / 200)
  alpha := c.alpha

end D10.Spec
