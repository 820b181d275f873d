import Verif.SpecAccuracy
import Verif.Spec
import Mathlib.Algebra.BigOperators.Group.Finset.Basic
import Mathlib.Analysis.SpecialFunctions.Exp

/-!
# Specification of blurring, sharpening and edge detection in binary32 (C95)

What is assumed of the two library functions used, and the exact results the computed ones are
compared with.
-/

namespace D10.Spec

/-- `exp` of the platform, on numbers up to 0, is a number in [0, 1] within `δ` of the real one. -/
def ExpWithin [Libm b32] (δ : ℝ) : Prop :=
  ∀ x : F32, x.fin = true → x.val ≤ 0 →
    Close (Scalar.exp x) (Real.exp x.val) δ ∧ 0 ≤ (Scalar.exp x).val ∧ (Scalar.exp x).val ≤ 1

/-- `sqrt` of the platform has a relative error of at most `2^-23` (a correctly rounded square root
has half of that). -/
def SqrtWithin [Libm b32] : Prop :=
  ∀ x : F32, x.fin = true → 0 ≤ x.val →
    Close (Scalar.sqrt x) (Real.sqrt x.val) (Real.sqrt x.val / 8388608) ∧ 0 ≤ (Scalar.sqrt x).val

/-- Widths of the bell for which its values do not leave the range of binary32. -/
structure SigmaOK (σ : F32) : Prop where
  fin : σ.fin = true
  lo : 1 / 2 ^ 40 ≤ (σ.val : ℝ)
  hi : (σ.val : ℝ) ≤ 2 ^ 40

/-- The exact weighted sum of one channel of the pixels around `(x, y)`; the weight in column `i`,
row `j` of the table belongs to the pixel at `(x + i - W/2, y + j - H/2)`, outside the image to the
nearest one. -/
noncomputable def exactSum (w h : Nat) (px : Nat → Nat → Col F32) (W H : Nat)
    (wt : Nat → Nat → ℝ) (x y : Nat) (ch : Col F32 → F32) : ℝ :=
  ∑ j ∈ Finset.range H, ∑ i ∈ Finset.range W,
    wt i j * (ch (px (nearest w (x + i - (W / 2 : Nat))) (nearest h (y + j - (H / 2 : Nat))))).val

/-- A colour each of whose four channels is computed by the same recipe from the pixels. -/
def channelwise (g : (Col F32 → F32) → ℝ) : Col ℝ := ⟨g Col.c0, g Col.c1, g Col.c2, g Col.alpha⟩

/-- The Gaussian bell at column `i`, row `j` of an `N x N` table. -/
noncomputable def bellReal (N : Nat) (σ : ℝ) (i j : Nat) : ℝ :=
  Real.exp (-(((i : ℝ) - (N / 2 : Nat)) ^ 2 + ((j : ℝ) - (N / 2 : Nat)) ^ 2) / (2 * σ ^ 2))

/-- The share of one entry of the table in its total. -/
noncomputable def bellShare (N : Nat) (σ : ℝ) (i j : Nat) : ℝ :=
  bellReal N σ i j / ∑ l ∈ Finset.range N, ∑ k ∈ Finset.range N, bellReal N σ k l

end D10.Spec
