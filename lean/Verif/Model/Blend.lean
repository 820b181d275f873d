import Verif.Model.PixelBuffer
import Verif.Model.Color

/-!
# Blending two images

d10-ops/src/blend.rs.
-/

namespace D10
open Scalar

variable {F : Type} [Scalar F]

/-- blend.rs:10-12 `apply_intensity`. -/
def apply_intensity (v1 v2 intensity : F) : F := v1 *. (lit 1 -. intensity) +. v2 *. intensity

/-- blend.rs:14-28 `blend_color`. -/
def blend_color (c1 c2 : Col F) (intensity : F) (func : F → F → F) : Col F :=
  let intensity := intensity *. c2.alpha
  let blend_values := fun v1 v2 => apply_intensity v1 (func v1 v2) intensity
  Rgb.new_with_alpha
    (blend_values c1.c0 c2.c0)
    (blend_values c1.c1 c2.c1)
    (blend_values c1.c2 c2.c2)
    c2.alpha

/-- blend.rs:30-53 `blend_image_with_func`. -/
def blend_image_with_func (img1 img2 : PixelBuffer (Col F)) (intensity : F)
    (func : Col F → Col F → F → Col F) : R (PixelBuffer (Col F)) :=
  let width := Max.max img1.width img2.width
  let height := Max.max img1.height img2.height
  PixelBuffer.new_from_func width height fun x y => do
    let c1 ← img1.get_pixel_optional (D10.asI32 x) (D10.asI32 y)
    let c2 ← img2.get_pixel_optional (D10.asI32 x) (D10.asI32 y)
    match c1, c2 with
    | some c1, some c2 => return func c1 c2 intensity
    | some c1, none => return c1
    | none, some c2 => return c2
    | none, none => return Rgb.NONE

/-- blend.rs:56-69 `BlendOp`. -/
inductive BlendOp
  | Normal | Addition | Subtract | Darken | Lighten | HslDarken | HslLighten | LchDarken | LchLighten
  | LchHue | LchSaturation | LchColor
deriving DecidableEq, Repr

/-- blend.rs:118-120 `blend_normal`. -/
def blend_normal (c1 c2 : Col F) (intensity : F) : Col F :=
  Rgb.alpha_blend c1 (c2.with_alpha (c2.alpha *. intensity))

/-- blend.rs:122-124 `blend_addition`. -/
def blend_addition (c1 c2 : Col F) (intensity : F) : Col F :=
  blend_color c1 c2 intensity fun v1 v2 => v1 +. v2

/-- blend.rs:126-128 `blend_subtract`. -/
def blend_subtract (c1 c2 : Col F) (intensity : F) : Col F :=
  blend_color c1 c2 intensity fun v1 v2 => v1 -. v2

/-- blend.rs:130-132 `blend_darken`. -/
def blend_darken (c1 c2 : Col F) (intensity : F) : Col F :=
  blend_color c1 c2 intensity fun v1 v2 => Scalar.min v1 v2

/-- blend.rs:134-136 `blend_lighten`. -/
def blend_lighten (c1 c2 : Col F) (intensity : F) : Col F :=
  blend_color c1 c2 intensity fun v1 v2 => Scalar.max v1 v2

/-- blend.rs:138-148 `blend_hsl_darken`. -/
def blend_hsl_darken (c1 c2 : Col F) (intensity : F) : Col F :=
  let c1 := Rgb.to_hsl c1
  let c2 := Rgb.to_hsl c2
  let l1 := c1.c2
  let l2 := Scalar.min c1.c2 c2.c2
  let l := apply_intensity l1 l2 intensity
  Hsl.to_rgb { c1 with c2 := l }

/-- blend.rs:150-160 `blend_hsl_lighten`. -/
def blend_hsl_lighten (c1 c2 : Col F) (intensity : F) : Col F :=
  let c1 := Rgb.to_hsl c1
  let c2 := Rgb.to_hsl c2
  let l1 := c1.c2
  let l2 := Scalar.max c1.c2 c2.c2
  let l := apply_intensity l1 l2 intensity
  Hsl.to_rgb { c1 with c2 := l }

/-- `to_lch::<D65, O2>()` of an RGB colour. -/
def Rgb.lch (c : Col F) : Col F := to_lch .D65 .O2 .rgb c
/-- `to_rgb()` of an `Lch<D65, O2>`. -/
def Lch.rgb (c : Col F) : Col F := to_rgb (.lch .D65 .O2) c

/-- blend.rs:162-172 `blend_lch_darken`. -/
def blend_lch_darken (c1 c2 : Col F) (intensity : F) : Col F :=
  let c1 := Rgb.lch c1
  let c2 := Rgb.lch c2
  let l1 := c1.c0
  let l2 := Scalar.min c1.c0 c2.c0
  let l := apply_intensity l1 l2 intensity
  Lch.rgb { c1 with c0 := l }

/-- blend.rs:174-184 `blend_lch_lighten`. -/
def blend_lch_lighten (c1 c2 : Col F) (intensity : F) : Col F :=
  let c1 := Rgb.lch c1
  let c2 := Rgb.lch c2
  let l1 := c1.c0
  let l2 := Scalar.max c1.c0 c2.c0
  let l := apply_intensity l1 l2 intensity
  Lch.rgb { c1 with c0 := l }

/-- The hue computed by `blend_lch_hue`: blend.rs:190-209. -/
def blended_hue (h1 h2 intensity : F) : F :=
  let diff := abs (h1 -. h2)
  if PI <. diff then
    let h :=
      if h1 <. lit 0 then apply_intensity (h1 +. lit 2 *. PI) h2 intensity
      else apply_intensity h1 (h2 +. lit 2 *. PI) intensity
    if PI <. h then h -. lit 2 *. PI else h
  else apply_intensity h1 h2 intensity

/-- blend.rs:186-213 `blend_lch_hue`. -/
def blend_lch_hue (c1 c2 : Col F) (intensity : F) : Col F :=
  let c1 := Rgb.lch c1
  let c2 := Rgb.lch c2
  let h1 := c1.c2
  let h2 := c2.c2
  Lch.rgb { c1 with c2 := blended_hue h1 h2 intensity }

/-- blend.rs:215-221 `blend_lch_saturation`. -/
def blend_lch_saturation (c1 c2 : Col F) (intensity : F) : Col F :=
  let c1 := Rgb.lch c1
  let c2 := Rgb.lch c2
  Lch.rgb { c1 with c1 := apply_intensity c1.c1 c2.c1 intensity }

/-- blend.rs:223-230 `blend_lch_color`. -/
def blend_lch_color (c1 c2 : Col F) (intensity : F) : Col F :=
  let c1 := Rgb.lch c1
  let c2 := Rgb.lch c2
  Lch.rgb { c1 with
    c1 := apply_intensity c1.c1 c2.c1 intensity
    c2 := apply_intensity c1.c2 c2.c2 intensity }

/-- blend.rs:94-116 `blend_image`. -/
def blend_image (img1 img2 : PixelBuffer (Col F)) (blend_op : BlendOp) (intensity : F) :
    R (PixelBuffer (Col F)) :=
  match blend_op with
  | .Normal => blend_image_with_func img1 img2 intensity blend_normal
  | .Addition => blend_image_with_func img1 img2 intensity blend_addition
  | .Subtract => blend_image_with_func img1 img2 intensity blend_subtract
  | .Darken => blend_image_with_func img1 img2 intensity blend_darken
  | .Lighten => blend_image_with_func img1 img2 intensity blend_lighten
  | .HslDarken => blend_image_with_func img1 img2 intensity blend_hsl_darken
  | .HslLighten => blend_image_with_func img1 img2 intensity blend_hsl_lighten
  | .LchDarken => blend_image_with_func img1 img2 intensity blend_lch_darken
  | .LchLighten => blend_image_with_func img1 img2 intensity blend_lch_lighten
  | .LchHue => blend_image_with_func img1 img2 intensity blend_lch_hue
  | .LchSaturation => blend_image_with_func img1 img2 intensity blend_lch_saturation
  | .LchColor => blend_image_with_func img1 img2 intensity blend_lch_color

end D10
