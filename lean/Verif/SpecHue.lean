import Verif.SpecTonal

/-!
# Specification of turning the hue (C134)
-/

namespace D10.Spec

/-- How much of the way from the darkest to the brightest channel the green channel has at hue `t` of the colour wheel.
Hues repeat after 1: red is at 0, green at 1/3 and blue at 2/3. -/
noncomputable def shareAt (t : ℝ) : ℝ := max 0 (min 1 (2 - 6 * |Int.fract t - 1 / 3|))

/-- The colour on the wheel at hue `t`, where channels reach from `m` to `M`. -/
noncomputable def onWheel (m M t alpha : ℝ) : Col ℝ :=
  ⟨m + (M - m) * shareAt (t + 1 / 3), m + (M - m) * shareAt t, m + (M - m) * shareAt (t - 1 / 3), alpha⟩

/-- The darkest and the brightest channel of a colour. -/
noncomputable def darkest (c : Col ℝ) : ℝ := min c.c0 (min c.c1 c.c2)
noncomputable def brightest (c : Col ℝ) : ℝ := max c.c0 (max c.c1 c.c2)

end D10.Spec
