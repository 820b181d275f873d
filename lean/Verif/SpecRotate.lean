import Verif.SpecAccuracy
import Verif.SpecSample

/-!
# Specification of the accuracy of rotating (C105)
-/

namespace D10.Spec

/-- `sin` and `cos` of the platform are within `δ` of the real ones, for arguments up to 16. -/
def SinCosWithin [Libm b32] (δ : ℝ) : Prop :=
  ∀ x : F32, x.fin = true → |x.val| ≤ 16 →
    Close (Scalar.sin x) (Real.sin x.val) δ ∧ Close (Scalar.cos x) (Real.cos x.val) δ

/-- How far a rotated-back position may be off in binary32, in pixels, if `sin` and `cos` are within
`δ`. -/
noncomputable def rotateError (δ : ℝ) (w h : Nat) : ℝ := ((w : ℝ) + h) * (δ / 2 + 37 / 2 ^ 25)

/-- The position is inside the area covered by the pixels of a `w x h` picture, at least `m` away from
the border. (The pixel `(x, y)` covers the square of side 1 with the middle `(x, y)`.) -/
def ClearlyInside (w h : Nat) (m : ℝ) (p : ℝ × ℝ) : Prop :=
  (-1 / 2 + m < p.1 ∧ p.1 < w - 1 / 2 - m) ∧ -1 / 2 + m < p.2 ∧ p.2 < h - 1 / 2 - m

/-- The position is outside that area, at least `m` away from it in one direction. -/
def ClearlyOutside (w h : Nat) (m : ℝ) (p : ℝ × ℝ) : Prop :=
  (p.1 < -1 / 2 - m ∨ w - 1 / 2 + m < p.1) ∨ p.2 < -1 / 2 - m ∨ h - 1 / 2 + m < p.2

end D10.Spec
