import Verif.Lemmas.FP
import Verif.Model.Color

/-! # Lemmas about clamping and colours, for floats and exact numbers alike -/

namespace D10
open Scalar LawfulScalar

variable {F : Type} [Scalar F] [LawfulScalar F]

theorem le_of_lit {q r : ℚ} (h : q ≤ r) : ((lit q : F) <=. lit r) = true := lit_mono q r h

/-- Clamped values are NaN or in [0, 1]. -/
theorem clamp01_range (x : F) :
    isNan (clamp01 x) = true ∨ ((lit 0 <=. clamp01 x) = true ∧ (clamp01 x <=. lit 1) = true) := by
  unfold clamp01 clamp
  split
  · exact .inr ⟨le_of_lit (by norm_num), le_of_lit (by norm_num)⟩
  · split
    · exact .inr ⟨le_of_lit (by norm_num), le_of_lit (by norm_num)⟩
    · rename_i h1 h2
      cases hn : isNan x
      · exact .inr ⟨total _ _ hn (lit_isNan 0) (by simpa using h1),
          total _ _ (lit_isNan 1) hn (by simpa using h2)⟩
      · exact .inl rfl

/-- Values in [0, 1] are not changed by clamping. -/
theorem clamp01_id {x : F} (h0 : (lit 0 <=. x) = true) (h1 : (x <=. lit 1) = true) :
    clamp01 x = x := by
  unfold clamp01 clamp
  rw [LawfulScalar.not_lt _ _ h0, LawfulScalar.not_lt _ _ h1]; rfl

/-- NaN stays NaN. -/
theorem clamp01_nan {x : F} (h : isNan x = true) : clamp01 x = x := by
  unfold clamp01 clamp
  rw [lt_nan_left _ _ h, lt_nan_right _ _ h]; rfl

end D10
