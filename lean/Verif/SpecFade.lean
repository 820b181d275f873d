import Verif.SpecTonal

/-!
# Specification of taking away saturation (C133)
-/

namespace D10.Spec

/-- The lightness of a colour: halfway between its least and its greatest channel. -/
noncomputable def midpoint (c : Col ℝ) : ℝ := (max c.c0 (max c.c1 c.c2) + min c.c0 (min c.c1 c.c2)) / 2

/-- Every channel keeps the part `k` of its distance from the lightness. -/
noncomputable def fade (k : ℝ) (c : Col ℝ) : Col ℝ := eachChannel (fun v => midpoint c + k * (v - midpoint c)) c

end D10.Spec
