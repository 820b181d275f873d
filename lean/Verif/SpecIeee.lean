import Verif.Float.FP
import Mathlib.Data.EReal.Operations

/-!
# Specification of binary floating point arithmetic

What IEEE 754 says about a binary format, in terms of numbers `m * 2^e` and distances only. `f.prec`
is the number of significand bits (24 for binary32), `f.emin` the exponent of the least positive
number (-149), and the finite numbers are below `2^f.emax` (`2^128`).
-/

namespace D10.Spec
variable {f : Fmt}

/-- A number with a significand of at most `prec` bits (of any size upward). -/
def Representable (f : Fmt) (q : ℚ) : Prop :=
  ∃ m e : ℤ, |m| < 2 ^ f.prec ∧ f.emin ≤ e ∧ q = m * (2 : ℚ) ^ e

/-- The last bit of the significand of `q` is 0. The significand is the one with all its bits used
(`2^(prec-1) ≤ |m|`), except for the numbers below the normal range. -/
def EvenSignificand (f : Fmt) (q : ℚ) : Prop :=
  ∃ m e : ℤ, |m| < 2 ^ f.prec ∧ f.emin ≤ e ∧ (2 ^ (f.prec - 1) ≤ |m| ∨ e = f.emin) ∧
    q = m * (2 : ℚ) ^ e ∧ Even m

/-- `v` is the representable number nearest to `q`; if two are equally near, the even one. -/
structure Nearest (f : Fmt) (q v : ℚ) : Prop where
  representable : Representable f v
  near : ∀ r, Representable f r → |v - q| ≤ |r - q|
  even : ∀ r, Representable f r → r ≠ v → |r - q| = |v - q| → EvenSignificand f v

/-- The largest finite number of the format. -/
def largest (f : Fmt) : ℚ := (2 ^ f.prec - 1) * (2 : ℚ) ^ (f.emax - f.prec)

/-- Half a unit in the last place above the largest finite number, or more. -/
def TooLarge (f : Fmt) (q : ℚ) : Prop := largest f + (2 : ℚ) ^ (f.emax - f.prec) / 2 ≤ |q|

/-- The float `x` is the number `q ≠ 0` rounded to nearest, ties to even: the nearest finite number
(with the sign of `q`, even if it is a zero), or the infinity of the sign of `q`. -/
structure RoundsTo (q : ℚ) (x : FP f) : Prop where
  infinite : TooLarge f q → x = .inf (decide (q < 0))
  finite : ¬ TooLarge f q → x.fin = true ∧ Nearest f q x.val ∧ x.isNeg = decide (q < 0)

/-- The value of a float as an extended real number; NaN has none. -/
noncomputable def ext : FP f → Option EReal
  | .nan => none
  | .inf true => some ⊥
  | .inf false => some ⊤
  | .zero _ => some 0
  | .num q _ => some ((q : ℝ) : EReal)

/-- Value of a bit pattern of binary32: sign bit, 8 bits of exponent, 23 bits of fraction. -/
noncomputable def decode32 (n : Nat) : Option EReal :=
  let sign : ℝ := if n / 2 ^ 31 % 2 = 1 then -1 else 1
  let exponent : Nat := n / 2 ^ 23 % 2 ^ 8
  let fraction : Nat := n % 2 ^ 23
  if exponent = 255 then
    if fraction = 0 then some (if sign = 1 then ⊤ else ⊥) else none
  else if exponent = 0 then some ((sign * fraction * 2 ^ (-149 : ℤ) : ℝ) : EReal)
  else some ((sign * (2 ^ 23 + fraction) * 2 ^ ((exponent : ℤ) - 150) : ℝ) : EReal)

end D10.Spec
