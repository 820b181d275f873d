import Verif.SpecSample
import Verif.SpecAccuracy

/-!
# Specification of accurate Lanczos filters (C128)
-/

namespace D10.Spec

/-- The platform's `sin` is accurate relative to its argument on the numbers the filters ask for. A function
that returns the binary32 number nearest to the sine, and small numbers as they are, has this with `δ = 2^-22`. -/
def SinNear [Libm b32] (δ : ℝ) : Prop :=
  ∀ x : F32, x.fin = true → 0 < x.val → x.val ≤ 10 → Close (Scalar.sin x) (Real.sin x.val) (δ * x.val)

/-- What a Lanczos filter with `N` rows and columns may be off, if `sin` is within `δ`. -/
noncomputable def lanczosError (δ : ℝ) (N : Nat) : ℝ := 200 * δ + (72 + 3 * N) / 2 ^ 18

end D10.Spec
