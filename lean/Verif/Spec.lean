import Verif.Model.PixelBuffer

/-!
# Independent specification of images

An image, for a reader who does not know the code: a width, a height and a colour for every
coordinate. `Shows b w h px` says that the buffer `b` stores that image. The only fact about the
code used here is the layout of the record `PixelBuffer` (width, height, list of pixels).
-/

namespace D10.Spec

/-- The sizes an image may have: nothing at all, or at least one pixel in both directions and at
most `i32::MAX / 2 = 1073741823` pixels in total. -/
def ValidSize (w h : Nat) : Prop :=
  (w = 0 ∧ h = 0) ∨ (0 < w ∧ 0 < h ∧ w * h ≤ 1073741823)

/-- The pixels of the image with colour `px x y` at column `x` and row `y`, row by row. -/
def rows (w h : Nat) (px : Nat → Nat → T) : List T :=
  (List.range h).flatMap (fun y => (List.range w).map (fun x => px x y))

/-- The buffer stores the `w × h` image with colour `px x y` at column `x`, row `y`. -/
structure Shows (b : PixelBuffer T) (w h : Nat) (px : Nat → Nat → T) : Prop where
  width : b.width = w
  height : b.height = h
  size : ValidSize w h
  pixels : b.data = rows w h px

/-- The buffer stores some image. -/
def WellFormed (b : PixelBuffer T) : Prop :=
  ValidSize b.width b.height ∧ b.data.length = b.width * b.height

/-- The coordinate nearest to `v` among `0 .. n-1`. -/
def nearest (n : Nat) (v : Int) : Nat := (max 0 (min v (n - 1))).toNat

/-- The `N x N` window around `(x, y)`: row `ty`, column `tx` holds the pixel at
`(x + tx - N/2, y + ty - N/2)`, positions outside the image replaced by the nearest pixel. -/
def window {T : Type} (w h : Nat) (px : Nat → Nat → T) (N : Nat) (x y : Int) : List (List T) :=
  (List.range N).map fun (ty : Nat) => (List.range N).map fun (tx : Nat) =>
    px (nearest w (x + tx - (N / 2 : Nat))) (nearest h (y + ty - (N / 2 : Nat)))

/-- Position `(x', y')` comes before `(x, y)` in row-major order. -/
def Before (x' y' x y : Nat) : Prop := y' < y ∨ (y' = y ∧ x' < x)

/-- Visit the list from left to right, threading a state (what an `FnMut` closure that is called
once per element, in order, computes). -/
def visit (f : σ → α → β × σ) : σ → List α → List β × σ
  | s, [] => ([], s)
  | s, a :: as =>
    let r := f s a
    let rest := visit f r.2 as
    (r.1 :: rest.1, rest.2)

/-- The trace of calls of a closure: it records its argument, then answers `f`. -/
def traced {T U : Type} {E : Type} (f : T → Except E U) (c : T) : StateM (List T) (Except E U) :=
  fun st => (f c, st ++ [c])

end D10.Spec
