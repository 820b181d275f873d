import Verif.Model.Scalar
import Mathlib.Analysis.SpecialFunctions.Pow.Real
import Mathlib.Analysis.SpecialFunctions.Complex.Arg
import Mathlib.Analysis.SpecialFunctions.Trigonometric.Basic
import Mathlib.Algebra.Order.Archimedean.Real.Basic

/-!
# Exact arithmetic

The second reading of the model: numbers are real numbers and no operation rounds. Literals are the
decimal numbers written in the source.

Where the program would produce NaN or an infinity (division by zero, root or power of a negative
number) real arithmetic has no answer. Mathlib would silently return 0 there; to avoid theorems that
are true only because of that, the result is an arbitrary number `Junk.junk ..` instead.
-/

namespace D10

/-- Results of undefined operations: arbitrary. -/
class Junk where
  junk : ℝ → ℝ → ℝ

open Classical in
noncomputable instance [Junk] : Scalar ℝ where
  add a b := a + b
  sub a b := a - b
  mul a b := a * b
  div a b := if b = 0 then Junk.junk a b else a / b
  neg a := -a
  abs a := |a|
  lt a b := decide (a < b)
  eq a b := decide (a = b)
  lit q := (q : ℝ)
  floor a := ⌊a⌋
  ceil a := ⌈a⌉
  round a := if a < 0 then ⌈a - 1 / 2⌉ else ⌊a + 1 / 2⌋
  toInt lo hi a := max lo (min hi (if a < 0 then ⌈a⌉ else ⌊a⌋))
  sqrt a := if a < 0 then Junk.junk a 0 else Real.sqrt a
  exp := Real.exp
  sin := Real.sin
  cos := Real.cos
  tanh := Real.tanh
  powf a b :=
    if 0 < a then a ^ b else
    if a = 0 ∧ 0 < b then 0 else
    if b = 0 then 1 else Junk.junk a b
  atan2 y x := Complex.arg ⟨x, y⟩

section
variable [Junk]

protected theorem Exact.add (a b : ℝ) : (a +. b) = a + b := rfl
protected theorem Exact.sub (a b : ℝ) : (a -. b) = a - b := rfl
protected theorem Exact.mul (a b : ℝ) : (a *. b) = a * b := rfl
protected theorem Exact.div {a b : ℝ} (h : b ≠ 0) : (a /. b) = a / b := if_neg h
protected theorem Exact.neg (a : ℝ) : Scalar.neg a = -a := rfl
protected theorem Exact.abs (a : ℝ) : Scalar.abs a = |a| := rfl
protected theorem Exact.lt (a b : ℝ) : (a <. b) = true ↔ a < b := by
  show decide _ = true ↔ _; simp
protected theorem Exact.eq (a b : ℝ) : (a ==. b) = true ↔ a = b := by
  show decide _ = true ↔ _; simp
protected theorem Exact.le (a b : ℝ) : (a <=. b) = true ↔ a ≤ b := by
  unfold Scalar.le; rw [Bool.or_eq_true, Exact.lt, Exact.eq]; exact le_iff_lt_or_eq.symm
protected theorem Exact.lit (q : ℚ) : (D10.lit q : ℝ) = (q : ℝ) := rfl
protected theorem Exact.isNan (a : ℝ) : Scalar.isNan a = false := by
  unfold Scalar.isNan
  have : (a ==. a) = true := (Exact.eq a a).2 rfl
  rw [this]; rfl
protected theorem Exact.max (a b : ℝ) : Scalar.max a b = max a b := by
  unfold Scalar.max
  rw [Exact.isNan, Exact.isNan]
  simp only [Bool.false_eq_true, if_false, Exact.lt]
  split
  · rw [max_eq_right]; linarith
  · rw [max_eq_left]; linarith
protected theorem Exact.min (a b : ℝ) : Scalar.min a b = min a b := by
  unfold Scalar.min
  rw [Exact.isNan, Exact.isNan]
  simp only [Bool.false_eq_true, if_false, Exact.lt]
  split
  · rw [min_eq_right]; linarith
  · rw [min_eq_left]; linarith
protected theorem Exact.floor (a : ℝ) : Scalar.floor a = ((⌊a⌋ : Int) : ℝ) := rfl
protected theorem Exact.ceil (a : ℝ) : Scalar.ceil a = ((⌈a⌉ : Int) : ℝ) := rfl
protected theorem Exact.sqrt {a : ℝ} (h : 0 ≤ a) : Scalar.sqrt a = Real.sqrt a := if_neg (not_lt.2 h)
protected theorem Exact.exp (a : ℝ) : Scalar.exp a = Real.exp a := rfl
protected theorem Exact.sin (a : ℝ) : Scalar.sin a = Real.sin a := rfl
protected theorem Exact.cos (a : ℝ) : Scalar.cos a = Real.cos a := rfl
protected theorem Exact.tanh (a : ℝ) : Scalar.tanh a = Real.tanh a := rfl
protected theorem Exact.powf_pos {a : ℝ} (b : ℝ) (h : 0 < a) : Scalar.powf a b = a ^ b := if_pos h
protected theorem Exact.powf_zero {b : ℝ} (h : 0 < b) : Scalar.powf (0 : ℝ) b = 0 := by
  show (if _ then _ else _) = _
  rw [if_neg (lt_irrefl _), if_pos ⟨rfl, h⟩]
protected theorem Exact.atan2 (a b : ℝ) : Scalar.atan2 a b = Complex.arg ⟨b, a⟩ := rfl
protected theorem Exact.clamp (lo hi v : ℝ) (h : lo ≤ hi) : Scalar.clamp lo hi v = max lo (min hi v) := by
  unfold Scalar.clamp
  simp only [Exact.lt]
  split
  · rename_i h1; rw [max_eq_left]; exact le_trans (min_le_right _ _) h1.le
  · split
    · rename_i h1 h2; rw [min_eq_left h2.le, max_eq_right h]
    · rename_i h1 h2; rw [min_eq_right (not_lt.1 h2), max_eq_right (not_lt.1 h1)]

end
end D10
