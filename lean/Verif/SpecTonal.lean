import Verif.Model.Color
import Verif.Lemmas.Exact

/-!
# Specification of the tonal operations (C83)

Every operation as a formula in exact arithmetic.
-/

namespace D10.Spec

/-- `v` limited to [0, 1]. -/
noncomputable def limit (v : ℝ) : ℝ := max 0 (min 1 v)

/-- A colour with `f` applied to its colour channels. -/
def eachChannel (f : ℝ → ℝ) (c : Col ℝ) : Col ℝ := ⟨f c.c0, f c.c1, f c.c2, c.alpha⟩

/-- Exponent `1 / gamma`, so gammas above 1 brighten. -/
noncomputable def gammaCurve (gamma v : ℝ) : ℝ := limit v ^ (1 / gamma)

/-- Two gamma curves in the upper and the lower half: gammas above 1 brighten what is bright and darken
what is dark. -/
noncomputable def splitGamma (gamma v : ℝ) : ℝ :=
  if 1 / 2 < v then limit (2 * (v - 1 / 2)) ^ (1 / gamma) / 2 + 1 / 2 else limit (2 * v) ^ gamma / 2

/-- Black goes to 0, white to 1, then a gamma curve. -/
noncomputable def levelCurve (black white gamma v : ℝ) : ℝ :=
  limit ((v - black) / (white - black)) ^ (1 / gamma)

/-- A colour with changed hue, saturation and lightness (HSL). -/
noncomputable def viaHsl [Junk] (f : ℝ → ℝ → ℝ → ℝ × ℝ × ℝ) (c : Col ℝ) : Col ℝ :=
  let hsl := to_hsl .rgb c
  let (h, s, l) := f hsl.c0 hsl.c1 hsl.c2
  to_rgb .hsl ⟨h, s, l, c.alpha⟩

/-- The constant used for π. -/
noncomputable def piConst : ℝ := 3.14159265358979323846264338327950288

end D10.Spec
