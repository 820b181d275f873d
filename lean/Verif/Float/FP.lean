import Verif.Float.Round
import Verif.Model.Scalar

/-!
# IEEE 754 binary floating point numbers

`FP b32` models Rust's `f32`, `FP b64` models `f64`: NaN (one value; payloads and the sign of NaN
are not modelled), two infinities, two zeros and the non-zero finite numbers. `+ - * /`, casts and
literals are the exact result rounded to nearest, ties to even.

The library functions `sqrt`, `exp`, `sin`, `cos`, `tanh`, `powf` and `atan2` are not defined by
IEEE 754 (or not used in a way where their exact value matters): they are arbitrary functions
(`Libm`), so every theorem holds whatever they return.
-/

namespace D10

/-- A floating point number of the format `f`. -/
inductive FP (f : Fmt) where
  | nan
  | inf (neg : Bool)
  | zero (neg : Bool)
  | num (q : ℚ) (h : q ≠ 0 ∧ IsRep f q ∧ |q| < pow2 f.emax)
deriving DecidableEq

/-- `f32` -/
abbrev F32 := FP b32
/-- `f64` -/
abbrev F64 := FP b64

namespace FP
variable {f : Fmt}

/-- Is this a finite number? -/
def fin : FP f → Bool
  | nan | inf _ => false
  | zero _ | num _ _ => true

/-- Value of a finite number (0 for the others, which are never asked). -/
def val : FP f → ℚ
  | num q _ => q
  | _ => 0

/-- Sign bit. -/
def isNeg : FP f → Bool
  | nan => false
  | inf s | zero s => s
  | num q _ => decide (q < 0)

/-- Round a rational number to the format. `s` is the sign of the zero if `q = 0`. -/
def ofRat (f : Fmt) (s : Bool) (q : ℚ) : FP f :=
  if h0 : rn f q = 0 then zero (if q = 0 then s else decide (q < 0))
  else if h1 : |rn f q| < pow2 f.emax then num (rn f q) ⟨h0, rn_isRep f q, h1⟩
  else inf (decide (q < 0))

def neg : FP f → FP f
  | nan => nan
  | inf s => inf (!s)
  | zero s => zero (!s)
  | num q h => num (-q) ⟨neg_ne_zero.2 h.1, h.2.1.neg, by rw [abs_neg]; exact h.2.2⟩

def abs (x : FP f) : FP f := if x.isNeg then x.neg else x

def add : FP f → FP f → FP f
  | nan, _ => nan
  | _, nan => nan
  | inf a, inf b => if a = b then inf a else nan
  | inf a, _ => inf a
  | _, inf b => inf b
  | x, y => ofRat f (x.isNeg && y.isNeg) (x.val + y.val)

def sub (x y : FP f) : FP f := add x y.neg

def mul : FP f → FP f → FP f
  | nan, _ => nan
  | _, nan => nan
  | inf a, y => match y with
    | zero _ => nan
    | y => inf (a ^^ y.isNeg)
  | x, inf b => match x with
    | zero _ => nan
    | x => inf (x.isNeg ^^ b)
  | x, y => ofRat f (x.isNeg ^^ y.isNeg) (x.val * y.val)

def div : FP f → FP f → FP f
  | nan, _ => nan
  | _, nan => nan
  | inf _, inf _ => nan
  | inf a, y => inf (a ^^ y.isNeg)
  | x, inf b => zero (x.isNeg ^^ b)
  | zero _, zero _ => nan
  | x, zero b => inf (x.isNeg ^^ b)
  | x, y => ofRat f (x.isNeg ^^ y.isNeg) (x.val / y.val)

def lt : FP f → FP f → Bool
  | nan, _ => false
  | _, nan => false
  | inf a, inf b => a && !b
  | inf a, _ => a
  | _, inf b => !b
  | x, y => decide (x.val < y.val)

def eq : FP f → FP f → Bool
  | nan, _ => false
  | _, nan => false
  | inf a, inf b => a == b
  | inf _, _ => false
  | _, inf _ => false
  | x, y => decide (x.val = y.val)

/-- Apply a rounding-to-integer function. -/
def integral (g : ℚ → Int) : FP f → FP f
  | num q _ => ofRat f (decide (q < 0)) (g q)
  | x => x

/-- Round half away from zero. -/
def roundAway (q : ℚ) : Int := if q < 0 then ⌈q - 1 / 2⌉ else ⌊q + 1 / 2⌋

/-- Toward zero. -/
def trunc (q : ℚ) : Int := if q < 0 then ⌈q⌉ else ⌊q⌋

def toInt (lo hi : Int) : FP f → Int
  | nan => 0
  | inf true => lo
  | inf false => hi
  | x => max lo (min hi (trunc x.val))

/-- Conversion between formats (`as f32`, `as f64`). -/
def cast (g : Fmt) : FP f → FP g
  | nan => nan
  | inf s => inf s
  | x => ofRat g x.isNeg x.val

end FP

/-- The library functions on floats: any functions. -/
class Libm (f : Fmt) where
  sqrt : FP f → FP f
  exp : FP f → FP f
  sin : FP f → FP f
  cos : FP f → FP f
  tanh : FP f → FP f
  powf : FP f → FP f → FP f
  atan2 : FP f → FP f → FP f

instance {f : Fmt} [Libm f] : Scalar (FP f) where
  add := FP.add
  sub := FP.sub
  mul := FP.mul
  div := FP.div
  neg := FP.neg
  abs := FP.abs
  lt := FP.lt
  eq := FP.eq
  lit := FP.ofRat f false
  floor := FP.integral Int.floor
  ceil := FP.integral Int.ceil
  round := FP.integral FP.roundAway
  toInt := FP.toInt
  sqrt := Libm.sqrt
  exp := Libm.exp
  sin := Libm.sin
  cos := Libm.cos
  tanh := Libm.tanh
  powf := Libm.powf
  atan2 := Libm.atan2

/-- An instance, only to show that `Libm` can be instantiated. -/
@[reducible] def Libm.trivial (f : Fmt) : Libm f :=
  ⟨id, id, id, id, id, fun x _ => x, fun x _ => x⟩

example : (FP.ofRat b32 false (1/10)).val = 13421773 / 134217728 := by decide +kernel
example : FP.div (FP.ofRat b32 false 1) (FP.ofRat b32 false 3) = FP.ofRat b32 true (1/3) := by decide +kernel

end D10
