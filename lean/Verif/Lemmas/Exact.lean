import Verif.Lemmas.Color

/-! # Reducing the model to plain real arithmetic -/

namespace D10

/-- Replace the number operations of the model by those of `ℝ`. Divisions by literals are included;
other divisions need `Exact.div` with a proof that the divisor is not zero. -/
macro "ex_simp" loc:(Lean.Parser.Tactic.location)? : tactic =>
  `(tactic| simp (disch := first | norm_num; done | assumption) only [Exact.add, Exact.sub, Exact.mul, Exact.neg, Exact.abs,
    Exact.lt, Exact.eq, Exact.le, Exact.max, Exact.min, Exact.floor, Exact.ceil, Exact.exp,
    Exact.sin, Exact.cos, Exact.tanh, Exact.div, Exact.lit, Rat.cast_ofNat, Rat.cast_one,
    Rat.cast_zero, Rat.cast_ofScientific, Rat.cast_neg, Rat.cast_div, Rat.cast_natCast,
    Rat.cast_intCast] $[$loc]?)

variable [Junk]

protected theorem Exact.EPSILON : (EPSILON : ℝ) = 1 / 32768 := by
  unfold EPSILON; ex_simp

protected theorem Exact.f32_EPSILON : (f32_EPSILON : ℝ) = 1 / 8388608 := by
  unfold f32_EPSILON; ex_simp

protected theorem Exact.clamp01 (x : ℝ) : clamp01 x = max 0 (min 1 x) := by
  unfold clamp01
  rw [Exact.clamp]
  · ex_simp
  · ex_simp; norm_num

theorem Exact.clamp01_id {x : ℝ} (h0 : 0 ≤ x) (h1 : x ≤ 1) : clamp01 x = x := by
  rw [Exact.clamp01, min_eq_right h1, max_eq_right h0]

/-- Colour equality in exact arithmetic. -/
theorem Exact.col_eq (a b : Col ℝ) : Col.eq a b = true ↔
    |a.c0 - b.c0| ≤ 1 / 32768 ∧ |a.c1 - b.c1| ≤ 1 / 32768 ∧ |a.c2 - b.c2| ≤ 1 / 32768 ∧
    |a.alpha - b.alpha| ≤ 1 / 32768 := by
  unfold Col.eq
  simp only [Bool.and_eq_true, Bool.not_eq_true', ← Bool.not_eq_true, Exact.lt, Exact.EPSILON,
    Exact.abs, Exact.sub, not_lt, and_assoc]

theorem Exact.col_eq_of_eq {a b : Col ℝ} (h : a = b) : Col.eq a b = true := by
  subst h; rw [Exact.col_eq]; norm_num

end D10
