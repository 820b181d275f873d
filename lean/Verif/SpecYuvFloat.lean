import Verif.SpecLabFloat

/-! # YUV with 32-bit numbers: specification -/

namespace D10.Spec

open D10

/-- The channels are finite and in the range that YUV values of colours have, with some room. -/
structure YuvRange (c : Col F32) : Prop where
  c0 : c.c0.fin = true ∧ |(c.c0.val : ℝ)| ≤ 1.01
  c1 : c.c1.fin = true ∧ |(c.c1.val : ℝ)| ≤ 0.45
  c2 : c.c2.fin = true ∧ |(c.c2.val : ℝ)| ≤ 0.65
  alpha : c.alpha.fin = true ∧ 0 ≤ c.alpha.val ∧ c.alpha.val ≤ 1

/-- The YUV colour is one that a screen can show: its red, green and blue parts (still with the sRGB curve) are in
[0, 1]. -/
structure Showable (y u v : ℝ) : Prop where
  red : 0 ≤ y + 1.139883 * v ∧ y + 1.139883 * v ≤ 1
  green : 0 ≤ y - 0.39464232 * u - 0.58062184 * v ∧ y - 0.39464232 * u - 0.58062184 * v ≤ 1
  blue : 0 ≤ y + 2.0320618 * u ∧ y + 2.0320618 * u ≤ 1

end D10.Spec
