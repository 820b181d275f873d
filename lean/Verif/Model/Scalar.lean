import Mathlib.Data.Rat.Defs
import Mathlib.Data.Rat.Init

/-!
# Number operations used by the code

The colour and filter code computes with `f32` (and in a few places `f64`). The model of that code
is written once, for any type `F` with the operations below, and is then read in two ways:

* `FP b32` / `FP b64` (`Verif/Float/FP.lean`): IEEE 754 floating point numbers, with rounding,
  infinities and NaN. Theorems about these are about the program's own arithmetic.
* `ℝ` (`Verif/Float/Real.lean`): exact arithmetic. Theorems about these say that the formulas of
  the program are right if rounding is ignored.

The operations have their own symbols (`+.`, `*.`, `<.`, ...) so that no law of real arithmetic can
be used on them by accident.
-/

namespace D10

/-- The operations of a Rust float type that the code uses. -/
class Scalar (F : Type) where
  add : F → F → F
  sub : F → F → F
  mul : F → F → F
  div : F → F → F
  neg : F → F
  abs : F → F
  /-- `<` -/
  lt : F → F → Bool
  /-- `==` -/
  eq : F → F → Bool
  /-- a literal, or the conversion of an integer -/
  lit : ℚ → F
  floor : F → F
  ceil : F → F
  /-- `round`: half way cases away from zero -/
  round : F → F
  /-- `as` cast to an integer type with the given least and greatest value: toward zero,
  saturating, NaN becomes 0 -/
  toInt : Int → Int → F → Int
  sqrt : F → F
  exp : F → F
  sin : F → F
  cos : F → F
  tanh : F → F
  powf : F → F → F
  atan2 : F → F → F

export Scalar (lit)

infixl:65 " +. " => Scalar.add
infixl:65 " -. " => Scalar.sub
infixl:70 " *. " => Scalar.mul
infixl:70 " /. " => Scalar.div
infix:50 " <. " => Scalar.lt
infix:50 " ==. " => Scalar.eq

namespace Scalar
variable {F : Type} [Scalar F]

/-- `<=` of Rust floats: `<` or `==` (false if one is NaN). -/
def le (a b : F) : Bool := lt a b || eq a b

/-- `f32::is_nan` -/
def isNan (a : F) : Bool := !(eq a a)

/-- `f32::max`: the other operand if one is NaN. -/
def max (a b : F) : F := if isNan a then b else if isNan b then a else if lt a b then b else a

/-- `f32::min`: the other operand if one is NaN. -/
def min (a b : F) : F := if isNan a then b else if isNan b then a else if lt b a then b else a

/-- `f32::clamp`: NaN is returned as it is. (The panic of `clamp` for `lo > hi` or NaN bounds cannot
happen here: it is only called with the literals 0 and 1.) -/
def clamp (lo hi v : F) : F := if lt v lo then lo else if lt hi v then hi else v

/-- `x as u8` -/
def asU8 (a : F) : Nat := (toInt 0 255 a).toNat
/-- `x as u16` -/
def asU16 (a : F) : Nat := (toInt 0 65535 a).toNat
/-- `x as u32` -/
def asU32 (a : F) : Nat := (toInt 0 4294967295 a).toNat
/-- `x as usize` (64 bit) -/
def asUsize (a : F) : Nat := (toInt 0 18446744073709551615 a).toNat
/-- `x as i32` -/
def asI32 (a : F) : Int := toInt (-2147483648) 2147483647 a
/-- `n as f32` for an integer -/
def ofNat (n : Nat) : F := lit (n : ℚ)
/-- `n as f32` for an integer -/
def ofInt (n : Int) : F := lit (n : ℚ)

end Scalar

infix:50 " <=. " => Scalar.le

end D10
