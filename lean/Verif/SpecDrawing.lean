import Verif.SpecOps
import Verif.SpecPixel

/-!
# Specification of the drawing effect (C74)

Pictures are functions from column and row to a colour, of width `w` and height `h`.
-/

namespace D10.Spec
open Scalar (lit)

variable {F : Type} [Scalar F]

/-- Gaussian blur with radius `r`; without a given width of the bell it is a quarter of the diameter
`2r`. -/
def blurred (w h : Nat) (px : Nat → Nat → Col F) (r : Nat) (sigma : Option F) (x y : Nat) : Col F :=
  conv w h px (2 * r + 1) (2 * r + 1)
    (gaussWeight (2 * r + 1) (sigma.getD ((lit ((2 * r + 1 : Nat) : ℚ) -. lit 1) /. lit 4))) x y

/-- Unsharp masking: the difference to the blurred picture is added `amount` times. -/
def sharpened (w h : Nat) (px : Nat → Nat → Col F) (r : Nat) (amount : F) (sigma : Option F)
    (x y : Nat) : Col F :=
  perChannel fun ch => Scalar.clamp (lit 0) (lit 1)
    (ch (px x y) +. (ch (px x y) -. ch (blurred w h px r sigma x y)) *. amount)

/-- The pairs of values of the two pictures that count for the ink: the gray values, unless the first
is nearly black and the second nearly white, and of each channel unless the first is not bright and
the second is not dark. -/
def counted (c1 c2 : Col F) : List (F × F) :=
  ([(gray c1, gray c2)].filter fun p => (lit 0.05 <. p.1) || (p.2 <. lit 0.95)) ++
  ([(c1.c0, c2.c0), (c1.c1, c2.c1), (c1.c2, c2.c2)].filter fun p => (lit 0.8 <. p.1) || (p.2 <. lit 0.2))

/-- The brightness of a drawn pixel: the smallest quotient of the counted pairs, at most 1; white
above 0.8, otherwise stretched. -/
def ink (c1 c2 : Col F) : F :=
  let d := ((counted c1 c2).map fun p =>
    Scalar.abs (p.1 /. Scalar.min (lit 1 -. p.2 +. lit 0.01) (lit 1))).foldl Scalar.min (lit 1)
  if lit 0.8 <. d then lit 1 else Scalar.max ((d -. lit 0.5) *. lit 1.2) (lit 0)

/-- The gray drawing. -/
def sketch (w h : Nat) (px : Nat → Nat → Col F) (r : Nat) : Nat → Nat → Col F :=
  let light := fun x y => Rgb.map_channels (px x y) fun v => v *. lit 0.8 +. lit 0.2
  let first := fun x y =>
    Rgb.with_contrast (sharpened w h (blurred w h light 1 none) 4 (lit 4) (some (lit 5)) x y) (lit 1.05)
  let second := fun x y => Rgb.invert (blurred w h light r none x y)
  let drawn := fun x y => let d := ink (first x y) (second x y); Rgb.new d d d
  despeckled w h (sharpened w h drawn 2 (lit 1) none) (lit 0.15) 1

/-- The pixel of the colored drawing: the original with the lesser of the two HSL lightnesses. -/
def colored (d o : Col F) : Col F :=
  let c := convert .rgb .hsl o
  to_rgb .hsl ⟨c.c0, c.c1, Scalar.min c.c2 (convert .rgb .hsl d).c2, c.alpha⟩

/-- An original pixel with half the HSV saturation and a brighter value. -/
def paled (o : Col F) : Col F :=
  let c := convert .rgb .hsv o
  to_rgb .hsv ⟨c.c0, (c.c1 *. lit 6) /. lit 12, Scalar.min ((c.c2 *. lit 6.5 +. lit 0.2) /. lit 4.5) (lit 1),
    c.alpha⟩

/-- The drawing `d` of the picture `px` in reduced colours: saturation of the blurred paled picture,
then hue of the blurred original, then value times that of the blurred original; sharpened and
post-processed. -/
def reduced (w h : Nat) (d px : Nat → Nat → Col F) : Nat → Nat → Col F :=
  let hsv := fun (c : Col F) => convert .rgb .hsv c
  let a := fun x y => to_rgb .hsv { hsv (d x y) with
    c1 := (hsv (blurred w h (fun x y => paled (px x y)) 2 none x y)).c1 }
  let b := fun x y => to_rgb .hsv { hsv (a x y) with c0 := (hsv (blurred w h px 3 none x y)).c0 }
  let c := fun x y => to_rgb .hsv { hsv (b x y) with
    c2 := (hsv (b x y)).c2 *. (hsv (blurred w h px 4 none x y)).c2 }
  fun x y => Rgb.with_vibrance (Rgb.with_gamma (Rgb.with_saturation
    (sharpened w h c 3 (lit 1.5) none x y) (lit 1.3)) (lit 1.1)) (lit 0.3)

end D10.Spec
