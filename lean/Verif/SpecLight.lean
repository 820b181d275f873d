import Verif.SpecFade
import Verif.SpecHsl

/-!
# Specification of changing the lightness and of adding saturation (C137)
-/

namespace D10.Spec

/-- How far apart the greatest and the least channel are. -/
noncomputable def spread (c : Col ℝ) : ℝ := max c.c0 (max c.c1 c.c2) - min c.c0 (min c.c1 c.c2)

/-- How far apart they can be if the middle between them is `m`: both have to be in [0, 1]. -/
noncomputable def room (m : ℝ) : ℝ := 2 * min m (1 - m)

/-- The middle moves from `m` to `k m`, limited to [0, 1], and the distances from it grow or shrink like the room. -/
noncomputable def relight (k : ℝ) (c : Col ℝ) : Col ℝ :=
  eachChannel (fun v => limit (k * midpoint c) + room (limit (k * midpoint c)) / room (midpoint c) * (v - midpoint c)) c

/-- The distances from the middle grow by the factor `k`, or as far as there is room. -/
noncomputable def boost (k : ℝ) (c : Col ℝ) : Col ℝ := fade (min k (room (midpoint c) / spread c)) c

/-- A gray. -/
def plainGray (v a : ℝ) : Col ℝ := ⟨v, v, v, a⟩

end D10.Spec
