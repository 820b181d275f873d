import Verif.Spec
import Verif.Model.Kernel

/-!
# Independent specification of convolution and sampling

What "convolving an image with a table of weights" means, written down without reference to the
code. `F` is the number type (binary32 or exact, see `Verif/Model/Scalar.lean`); in binary32 the
order of the additions matters, so it is part of the specification.
-/

namespace D10.Spec

variable {F : Type} [Scalar F]

/-- The terms `t i j` (column `i`, row `j`) added one after the other, row by row, starting at 0. -/
def total (W H : Nat) (t : Nat → Nat → F) : F := (rows W H t).foldl (· +. ·) (lit 0)

/-- A colour each of whose four channels is computed by the same recipe. -/
def perChannel (g : (Col F → F) → F) : Col F :=
  ⟨g Col.c0, g Col.c1, g Col.c2, g Col.alpha⟩

/-- The weighted sum of the pixels around `(x, y)`: the weight in column `i`, row `j` of the table
belongs to the pixel at `(x + i - W/2, y + j - H/2)`; outside the image the nearest pixel counts. -/
def conv (w h : Nat) (px : Nat → Nat → Col F) (W H : Nat) (wt : Nat → Nat → F) (x y : Nat) :
    Col F :=
  perChannel fun ch => total W H fun i j =>
    wt i j *. ch (px (nearest w (x + i - (W / 2 : Nat))) (nearest h (y + j - (H / 2 : Nat))))

/-- The Gaussian bell (not normalised) at distance `(dx, dy)` from the centre, as the program
computes it: `exp(-r²/(2σ²)) / (π·2σ²)` with `r = √(dx² + dy²)`. -/
def bell (sigma : F) (dx dy : Int) : F :=
  let s := lit 2 *. sigma *. sigma
  let r := Scalar.sqrt (lit (dx : ℚ) *. lit (dx : ℚ) +. lit (dy : ℚ) *. lit (dy : ℚ))
  Scalar.exp (Scalar.neg (r *. r) /. s) /. (lit 3.14159265358979323846264338327950288 *. s)

/-- The sum by which Gaussian weights are divided (added column by column). -/
def bellSum (N : Nat) (sigma : F) : F :=
  total N N fun i j => bell sigma ((j : Int) - (N / 2 : Nat)) ((i : Int) - (N / 2 : Nat))

/-- The weight in column `x`, row `y` of the `N x N` Gaussian table. -/
def gaussWeight (N : Nat) (sigma : F) (x y : Nat) : F :=
  bell sigma ((x : Int) - (N / 2 : Nat)) ((y : Int) - (N / 2 : Nat)) /. bellSum N sigma

end D10.Spec

namespace D10
variable {F : Type}

/-- The weights of a static kernel as a function of column and row. -/
def Kernel.Holds (k : Kernel F) (N : Nat) (wt : Nat → Nat → F) : Prop :=
  k.data = (List.range N).map fun y => (List.range N).map fun x => wt x y

/-- The weights of a dynamic kernel as a function of column and row. -/
structure KernelDyn.Holds (k : KernelDyn F) (W H : Nat) (wt : Nat → Nat → F) : Prop where
  width : k.width = W
  height : k.height = H
  data : k.data = Spec.rows W H wt

end D10
