import Verif.SpecOps
import Verif.Model.Filters

/-!
# Independent specification of sampling

What it means to read an image at a position between its pixels, by each of the filters. As in
`SpecOps.lean` the order of the operations is part of the specification, because it matters in
binary32; `Props/Sample.lean` also gives the familiar formulas these become in exact arithmetic.
-/

namespace D10.Spec
open Scalar (floor ofNat ofInt)

variable {F : Type} [Scalar F]

/-- The pixel at an integer position; outside the image the nearest pixel. -/
def at' (w h : Nat) (px : Nat → Nat → Col F) (x y : Int) : Col F := px (nearest w x) (nearest h y)

/-- The pixel position at or before `v`. -/
def base (v : F) : Int := Scalar.asI32 (floor v)
/-- How far `v` is behind that position. -/
def frac (v : F) : F := v -. floor v

/-- On the way from `a` to `b`, at `t`. -/
def lerp (a b t : F) : F := a +. (b -. a) *. t

/-- Bilinear sample: along the two rows, then between the rows. -/
def bilinear (w h : Nat) (px : Nat → Nat → Col F) (x y : F) : Col F :=
  perChannel fun ch =>
    let row := fun dy : Int =>
      lerp (ch (at' w h px (base x) (base y + dy))) (ch (at' w h px (base x + 1) (base y + dy))) (frac x)
    clamp01 (lerp (row 0) (row 1) (frac y))

/-- The cubic through `b` and `c` whose slopes there are those of the chords `a c` and `b d`. -/
def cubic (a b c d t : F) : F :=
  (Scalar.neg a /. lit 2 +. (lit 3 *. b) /. lit 2 -. (lit 3 *. c) /. lit 2 +. d /. lit 2) *. t *. t *. t
    +. (a -. (lit 5 *. b) /. lit 2 +. lit 2 *. c -. d /. lit 2) *. t *. t
    +. (Scalar.neg a /. lit 2 +. c /. lit 2) *. t +. b

/-- Bicubic sample: along the four rows, then across. -/
def bicubic (w h : Nat) (px : Nat → Nat → Col F) (x y : F) : Col F :=
  perChannel fun ch =>
    let row := fun dy : Int =>
      let p := fun dx : Int => ch (at' w h px (base x + dx) (base y + dy))
      cubic (p (-1)) (p 0) (p 1) (p 2) (frac x)
    clamp01 (cubic (row (-1)) (row 0) (row 1) (row 2) (frac y))

/-- Sum of `f 0, ..., f (n - 1)`, from left to right. -/
def sum (n : Nat) (f : Nat → F) : F := (List.range n).foldl (fun s i => s +. f i) (lit 0)

/-- Separable window sample with `N` weights `wx` along the rows and `wy` across; the middle weight
belongs to the base position. -/
def windowed (w h : Nat) (px : Nat → Nat → Col F) (N : Nat) (wx wy : Nat → F) (x y : F) : Col F :=
  perChannel fun ch =>
    sum N fun j => (sum N fun i =>
      ch (at' w h px (base x + i - (N / 2 : Nat)) (base y + j - (N / 2 : Nat))) *. wx i) *. wy j

/-- The normalised cardinal sine `sin(πv)/(πv)`. -/
def cardinalSine (v : F) : F :=
  if v ==. lit 0 then lit 1
  else Scalar.sin (v *. lit 3.14159265358979323846264338327950288)
    /. (v *. lit 3.14159265358979323846264338327950288)

/-- The Lanczos window with three lobes. -/
def lanczos3 (v : F) : F :=
  if v <. lit 3 then cardinalSine v *. cardinalSine (v /. lit 3) else lit 0

/-- The Lanczos window stretched to `size` pixels on each side. -/
def lanczosScaled (size v : F) : F :=
  if v /. size *. lit 3 <. lit 3 then
    cardinalSine (v /. size *. lit 3) *. cardinalSine (v /. size *. lit 3 /. lit 3) *. (lit 3 /. size)
  else lit 0

/-- Weight of column (row) `i` in the fixed-size Lanczos filter with `N` taps for a position `t`
behind the middle tap. -/
def lanczosTap (N : Nat) (t : F) (i : Nat) : F :=
  let v := Scalar.abs (ofNat i -. (ofNat N -. lit 1) /. lit 2 -. t)
  if N = 7 then lanczos3 v else lanczosScaled (ofNat N) v

/-- Weight of column (row) `i` in the Lanczos filter that reaches `size` pixels in each direction. -/
def lanczosDynTap (size : Nat) (t : F) (i : Nat) : F :=
  lanczosScaled (ofNat size) (Scalar.abs (ofInt ((i : Int) - size) -. t))

/-- Lanczos sample with `N` taps in each direction. -/
def lanczosAt (w h : Nat) (px : Nat → Nat → Col F) (N : Nat) (x y : F) : Col F :=
  windowed w h px N (lanczosTap N (frac x)) (lanczosTap N (frac y)) x y

/-- Lanczos sample that reaches `size` pixels in each direction. -/
def lanczosDynAt (w h : Nat) (px : Nat → Nat → Col F) (size : Nat) (x y : F) : Col F :=
  windowed w h px (size * 2 + 1) (lanczosDynTap size (frac x)) (lanczosDynTap size (frac y)) x y

/-- Position in a line of `m` pixels of the middle of pixel `x` of `n`. -/
def scaledPos (m n x : Nat) : F := (ofNat x +. lit 0.5) /. (ofNat n /. ofNat m) -. lit 0.5

/-- Position in a line of `m` pixels of the start of pixel `x` of `n`, rounded. -/
def scaledNearest (F : Type) [Scalar F] (m n x : Nat) : Int :=
  Scalar.asI32 (floor (ofNat x /. (ofNat n /. ofNat m) +. lit 0.5 : F))

/-- Where the pixel `(x, y)` of an image rotated by `angle` degrees comes from. -/
def rotatedFrom (w h : Nat) (angle : F) (x y : Nat) : F × F :=
  let r := angle /. lit (-180) *. lit 3.14159265358979323846264338327950288
  let cx := ofNat (w + 1) /. lit 2
  let cy := ofNat (h + 1) /. lit 2
  let a := ofNat x +. lit 1 -. cx
  let b := ofNat y +. lit 1 -. cy
  (a *. Scalar.cos r -. b *. Scalar.sin r +. cx -. lit 1,
   a *. Scalar.sin r +. b *. Scalar.cos r +. cy -. lit 1)

/-- Is the pixel nearest to the position `(x, y)` a pixel of the image? -/
def inside (w h : Nat) (x y : F) : Prop :=
  0 ≤ Scalar.asI32 (Scalar.round x) ∧ Scalar.asI32 (Scalar.round x) < w ∧
  0 ≤ Scalar.asI32 (Scalar.round y) ∧ Scalar.asI32 (Scalar.round y) < h

/-- How many pixels the automatic filter reaches in each direction when it reduces `w x h` to
`nw x nh`: twice the larger reduction factor, rounded up, but at least 3. -/
def autoWindow (F : Type) [Scalar F] (w h nw nh : Nat) : Nat :=
  Scalar.asUsize (Scalar.ceil (Scalar.max
    (lit 1 /. Scalar.min (ofNat nw /. ofNat w) (ofNat nh /. ofNat h) *. lit 2) (lit 3) : F))

/-- The pixel `(x, y)` of the `w x h` image `px` resized to `nw x nh`. -/
def resized (filter : FilterMode) (w h : Nat) (px : Nat → Nat → Col F) (nw nh x y : Nat) : Col F :=
  match filter with
  | .Nearest => at' w h px (scaledNearest F w nw x) (scaledNearest F h nh y)
  | .Bilinear => bilinear w h px (scaledPos w nw x) (scaledPos h nh y)
  | .Bicubic => bicubic w h px (scaledPos w nw x) (scaledPos h nh y)
  | .Lanczos3 => lanczosAt w h px 7 (scaledPos w nw x) (scaledPos h nh y)
  | .Auto =>
    if w ≤ nw ∨ h ≤ nh then bicubic w h px (scaledPos w nw x) (scaledPos h nh y)
    else
      let size := autoWindow F w h nw nh
      if size ≤ 6 then lanczosAt w h px (2 * size + 1) (scaledPos w nw x) (scaledPos h nh y)
      else lanczosDynAt w h px size (scaledPos w nw x) (scaledPos h nh y)

open Classical in
/-- The pixel `(x, y)` of the `w x h` image `px` rotated by `angle` degrees. -/
noncomputable def rotated (filter : FilterMode) (w h : Nat) (px : Nat → Nat → Col F) (angle : F)
    (bg : Col F) (x y : Nat) : Col F :=
  let p := rotatedFrom w h angle x y
  if inside w h p.1 p.2 then
    match filter with
    | .Nearest => px (Scalar.asI32 (Scalar.round p.1)).toNat (Scalar.asI32 (Scalar.round p.2)).toNat
    | .Bilinear => bilinear w h px p.1 p.2
    | .Bicubic | .Auto => bicubic w h px p.1 p.2
    | .Lanczos3 => lanczosAt w h px 7 p.1 p.2
  else bg

end D10.Spec
