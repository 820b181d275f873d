import Verif.Model.Ops
import Verif.Model.Geometry

/-!
# Drawing effect and simulated JPEG quality

d10-ops/src/drawing.rs and jpeg_quality.rs.
-/

namespace D10
open Scalar (lit abs)

variable {F : Type} [Scalar F]

/-- drawing.rs:8-13 `DrawingMode`. -/
inductive DrawingMode | Gray | Colored | ReducedColors
deriving DecidableEq, Repr

/-- drawing.rs:66-68, the closure `c`. -/
def drawingRatio (v1 v2 : F) : F := abs (v1 /. Scalar.min (lit 1 -. v2 +. lit 0.01) (lit 1))

/-- The closure of drawing.rs:45-83 on the pixels `c1`, `c2`. The vectors `v1` and `v2` always have
the same length; they are one list of pairs here. -/
def drawingPixel (c1 c2 : Col F) : Col F :=
  let v : List (F × F) := []
  let g1 := grayAverage c1
  let g2 := grayAverage c2
  let v := if (lit 0.05 <. g1) || (g2 <. lit 0.95) then v ++ [(g1, g2)] else v
  let v := [(c1.c0, c2.c0), (c1.c1, c2.c1), (c1.c2, c2.c2)].foldl (fun v (p : F × F) =>
    if (lit 0.8 <. p.1) || (p.2 <. lit 0.2) then v ++ [p] else v) v
  let diff := (v.map fun p => drawingRatio p.1 p.2).foldl Scalar.min (lit 1)
  let diff := if lit 0.8 <. diff then lit 1 else Scalar.max ((diff -. lit 0.5) *. lit 1.2) (lit 0)
  Rgb.new diff diff diff

/-- `compose([&a, &b], Rgb::NONE, |_, _, [c1, c2]| f(c1, c2))`: compose.rs:30-40 calls the closure
with exactly two pixels. -/
def compose2 (a b : PixelBuffer (Col F)) (f : Col F → Col F → Col F) : R (PixelBuffer (Col F)) :=
  compose_slice (m := R) [a, b] Rgb.NONE fun _ _ l => match l with
    | [c1, c2] => .ok (f c1 c2)
    | _ => .error .index

/-- drawing.rs:94-101 `merge_color`. -/
def merge_color (drawing orig : PixelBuffer (Col F)) : R (PixelBuffer (Col F)) :=
  compose2 drawing orig fun d o =>
    let d := Rgb.to_hsl d
    let o := Rgb.to_hsl o
    Hsl.to_rgb { o with c2 := Scalar.min o.c2 d.c2 }

/-- drawing.rs:104-111: the closure that reduces the colours. -/
def reduceColor (c : Col F) : Col F :=
  let c := Rgb.to_hsv c
  let c := { c with c1 := (c.c1 *. lit 6) /. lit 12 }
  let c := { c with c2 := Scalar.min ((c.c2 *. lit 6.5 +. lit 0.2) /. lit 4.5) (lit 1) }
  Hsv.to_rgb c

/-- drawing.rs:103-141 `merge_color_reduced`. -/
def merge_color_reduced (drawing orig : PixelBuffer (Col F)) : R (PixelBuffer (Col F)) := do
  let reduced_color := orig.map_colors reduceColor
  let out1 ← compose2 drawing (← gaussian_blur reduced_color 2 none) fun c1 c2 =>
    Hsv.to_rgb { Rgb.to_hsv c1 with c1 := (Rgb.to_hsv c2).c1 }
  let out1 ← compose2 out1 (← gaussian_blur orig 3 none) fun c1 c2 =>
    Hsv.to_rgb { Rgb.to_hsv c1 with c0 := (Rgb.to_hsv c2).c0 }
  let out1 ← compose2 out1 (← gaussian_blur orig 4 none) fun c1 c2 =>
    let c := Rgb.to_hsv c1
    Hsv.to_rgb { c with c2 := c.c2 *. (Rgb.to_hsv c2).c2 }
  let out ← unsharp out1 3 (lit 1.5) none
  return out.map_colors fun x =>
    Rgb.with_vibrance (Rgb.with_gamma (Rgb.with_saturation x (lit 1.3)) (lit 1.1)) (lit 0.3)

/-- drawing.rs:28-92 `drawing`. -/
def drawing (buffer : PixelBuffer (Col F)) (radius : Nat) (mode : DrawingMode) :
    R (PixelBuffer (Col F)) := do
  let lightened := buffer.map_colors fun c =>
    Rgb.map_channels c fun v => v *. lit 0.8 +. lit 0.2
  let b ← gaussian_blur lightened 1 none
  let b ← unsharp b 4 (lit 4) (some (lit 5))
  let b1 := b.map_colors fun c => Rgb.with_contrast c (lit 1.05)
  let b ← gaussian_blur lightened radius none
  let b2 := b.map_colors Rgb.invert
  let drawing ← compose2 b1 b2 drawingPixel
  let drawing ← unsharp drawing 2 (lit 1) none
  let drawing ← despeckle drawing (lit 0.15) 1
  match mode with
  | .Gray => return drawing
  | .Colored => merge_color drawing buffer
  | .ReducedColors => merge_color_reduced drawing buffer

/-- jpeg_quality.rs:22-28: the loop that copies the alpha values; `zip` stops at the shorter list,
the remaining pixels of `out` are kept. -/
def copyAlpha : List (Col F) → List (Col F) → List (Col F)
  | c_in :: ins, c_out :: outs => { c_out with alpha := c_in.alpha } :: copyAlpha ins outs
  | _, outs => outs

/-- jpeg_quality.rs:8-31 `jpeg_quality`. Encoding and decoding are the parameter `codec`: the decoded
buffer, or `none` if one of the two `expect`s fails. -/
def jpeg_quality (codec : PixelBuffer (Col F) → Nat → Option (PixelBuffer (Col F)))
    (buffer : PixelBuffer (Col F)) (quality : Nat) (preserve_alpha : Bool) :
    R (PixelBuffer (Col F)) :=
  match codec buffer quality with
  | none => .error .unwrap
  | some out =>
    if preserve_alpha then .ok { out with data := copyAlpha buffer.data out.data } else .ok out

end D10
