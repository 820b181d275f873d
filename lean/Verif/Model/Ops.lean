import Verif.Model.Kernel

/-!
# Palette, despeckle, noise and symmetric nearest neighbour

d10-ops/src/{apply_palette,despeckle,symmetric_nearest_neighbor}.rs and the four noise files.
Also the conversions of whole buffers, d10-core/src/pixelbuffer.rs:328-400.
-/

namespace D10
open Scalar (lit abs sqrt ofNat)

variable {F : Type} [Scalar F]

/-! ## Buffer conversions -/

/-- pixelbuffer.rs:328-330 `has_transparency`. -/
def PixelBuffer.has_transparency (b : PixelBuffer (Col F)) : Bool := b.data.any Col.has_transparency

/-- pixelbuffer.rs:398-400 `is_grayscale`. -/
def PixelBuffer.is_grayscale (b : PixelBuffer (Col F)) : Bool := b.data.all Rgb.is_grayscale

/-- pixelbuffer.rs:332-394: `to_rgb`, `to_srgb`, `to_hsl`, `to_hsv`, `to_yuv`, `to_xyz`, `to_lab`,
`to_lch` of a buffer of colours of the type `src`. The iterator adapters of color/iter.rs call the
colour's own conversion on every item. -/
def PixelBuffer.convert (src dst : Space) (b : PixelBuffer (Col F)) : PixelBuffer (Col F) :=
  { width := b.width, height := b.height, data := b.data.map (D10.convert src dst) }

/-! ## apply_palette.rs -/

/-- apply_palette.rs:37-43 `get_delta_e`. -/
def labDeltaE (c1 c2 : Col F) : F :=
  let dl := c1.c0 -. c2.c0
  let da := c1.c1 -. c2.c1
  let db := c1.c2 -. c2.c2
  sqrt (dl *. dl +. da *. da +. db *. db)

/-- `f32::MAX` -/
def f32_MAX : F := lit 340282346638528859811704183484516925440

/-- The loop of apply_palette.rs:21-32: the best entry so far and its distance. -/
def paletteStep (test_c : Col F) (s : Option (Col F) × F) (pal_c : Col F) : Option (Col F) × F :=
  let diff := labDeltaE test_c pal_c
  if diff <. s.2 then (some pal_c, diff) else s

/-- apply_palette.rs:20-35 `get_color_from_palette`; the default colour is `Rgb.NONE` (four zeros),
which is also the default of `Lab`. -/
def get_color_from_palette (palette : PixelBuffer (Col F)) (c : Col F) : Col F :=
  let test_c := to_lab .D65 .O2 .rgb c
  let s := palette.data.foldl (paletteStep test_c) (none, f32_MAX)
  to_rgb (.lab .D65 .O2) (s.1.getD Rgb.NONE)

/-- apply_palette.rs:6-12 `apply_palette`; `space` is the colour type of the palette. -/
def apply_palette (buffer : PixelBuffer (Col F)) (space : Space) (palette : PixelBuffer (Col F)) :
    PixelBuffer (Col F) :=
  let palette := palette.convert space (.lab .D65 .O2)
  buffer.map_colors fun c => get_color_from_palette palette c

/-- apply_palette.rs:14-17 `apply_palette_in_place`. -/
def apply_palette_in_place (buffer : PixelBuffer (Col F)) (space : Space)
    (palette : PixelBuffer (Col F)) : PixelBuffer (Col F) :=
  let palette := palette.convert space (.lab .D65 .O2)
  buffer.mod_colors fun c => get_color_from_palette palette c

/-! ## despeckle.rs -/

/-- `c.to_gray_with_intensity(Intensity::Average).red()` -/
def grayAverage (c : Col F) : F := (Rgb.to_gray_with_intensity c .Average).c0

/-- despeckle.rs:4-36 `despeckle`. `count` is a `u8` (it is compared with `amount`); it is at most 9,
so `9 - count` does not overflow, which is checked. `>=` is `<=` with swapped operands. -/
def despeckle (img : PixelBuffer (Col F)) (threshold : F) (amount : Nat) : R (PixelBuffer (Col F)) :=
  img.map_colors_enumerated fun x y c => do
    if grayAverage c <. threshold then
      let k ← img.get_kernel 3 (asI32 x) (asI32 y)
      let count := k.flatten.foldl (fun n c => if grayAverage c <. threshold then n + 1 else n) 0
      if count ≤ amount then
        let data := k.flatten.foldl (fun (d : F × F × F) c =>
          if threshold <=. grayAverage c then (d.1 +. c.c0, d.2.1 +. c.c1, d.2.2 +. c.c2) else d)
          (lit 0, lit 0, lit 0)
        let sum := ofNat (← usub 9 count)
        return Rgb.new_with_alpha (data.1 /. sum) (data.2.1 /. sum) (data.2.2 /. sum) c.alpha
    return c

/-! ## symmetric_nearest_neighbor.rs -/

/-- symmetric_nearest_neighbor.rs:4-5 `PAIRS`. -/
def PAIRS : List (Int × Int × Int × Int) :=
  [(-1, -1, 1, 1), (0, -1, 0, 1), (1, -1, -1, 1), (-1, 0, 1, 0)]

/-- symmetric_nearest_neighbor.rs:7-13 `get_delta_e`. -/
def rgbDeltaE (c1 c2 : Col F) : F :=
  let dr := c1.c0 -. c2.c0
  let dg := c1.c1 -. c2.c1
  let db := c1.c2 -. c2.c2
  sqrt (dr *. dr +. dg *. dg +. db *. db)

/-- The loop `for (i, value) in accumulate.iter_mut().enumerate() { *value += c.data[i] }`. -/
def Col.accumulate (a c : Col F) : Col F :=
  ⟨a.c0 +. c.c0, a.c1 +. c.c1, a.c2 +. c.c2, a.alpha +. c.alpha⟩

/-- symmetric_nearest_neighbor.rs:15-67 `symmetric_nearest_neighbor`. `(1..=radius as i32)` is empty
if the cast is not positive. -/
def symmetric_nearest_neighbor (buffer : PixelBuffer (Col F)) (radius : Nat) (with_center : Bool) :
    R (PixelBuffer (Col F)) :=
  PixelBuffer.new_from_func buffer.width buffer.height fun x y => do
    let center ← buffer.get_pixel x y
    let x := asI32 x
    let y := asI32 y
    let colors ← (List.range (asI32 radius).toNat).mapM fun (i : Nat) =>
      PAIRS.mapM fun (x1, y1, x2, y2) => do
        let current_radius : Int := i + 1
        let c1 ← buffer.get_pixel_clamped (← i32 (x + (← i32 (x1 * current_radius))))
          (← i32 (y + (← i32 (y1 * current_radius))))
        let c2 ← buffer.get_pixel_clamped (← i32 (x + (← i32 (x2 * current_radius))))
          (← i32 (y + (← i32 (y2 * current_radius))))
        return if rgbDeltaE c1 center <. rgbDeltaE c2 center then c1 else c2
    let colors := colors.flatten
    let accumulate : Col F := ⟨lit 0, lit 0, lit 0, lit 0⟩
    let len := ofNat colors.length
    let len := if with_center then len +. lit 1 else len
    let accumulate := if with_center then accumulate.accumulate center else accumulate
    let accumulate := colors.foldl Col.accumulate accumulate
    return Rgb.new_with_alpha (accumulate.c0 /. len) (accumulate.c1 /. len) (accumulate.c2 /. len)
      (accumulate.alpha /. len)

/-! ## Noise

The random generator is an arbitrary state machine: a state `σ` and, for each kind of draw, a
function from the state to the value drawn and the next state. -/

/-- What the noise functions ask of `rand::thread_rng()`. -/
structure Rng (σ F : Type) where
  /-- `gen_range(0.0..=1.0)` -/
  unit : σ → F × σ
  /-- `gen_range(-1.0..=1.0)` -/
  symmetric : σ → F × σ
  /-- `sample(StandardNormal)` -/
  normal : σ → F × σ
  /-- `gen_range(0..3)` -/
  three : σ → Nat × σ

variable {σ : Type}

/-- The closure in random_noise.rs:12-15 and L26-29, gaussian_noise.rs:13-16 and L27-30, with the
noise already drawn by `draw`. -/
def noiseChannel (draw : σ → F × σ) (alpha v : F) : StateT σ R F := do
  let noise ← modifyGetThe σ draw
  return noise *. alpha +. (lit 1 -. alpha) *. v

/-- random_noise.rs:5-17 `random_noise` for a buffer of colours of the type `space`. -/
def random_noise (g : Rng σ F) (space : Space) (buffer : PixelBuffer (Col F)) (alpha : F) :
    StateT σ R (PixelBuffer (Col F)) :=
  buffer.map_colorsM fun c => try_map_color_channels space c (noiseChannel g.symmetric alpha)

/-- random_noise.rs:19-31 `add_random_noise`. -/
def add_random_noise (g : Rng σ F) (space : Space) (buffer : PixelBuffer (Col F)) (alpha : F) :
    StateT σ R (PixelBuffer (Col F)) :=
  buffer.mod_colorsM fun c => try_map_color_channels space c (noiseChannel g.symmetric alpha)

/-- gaussian_noise.rs:6-18 `gaussian_noise`. -/
def gaussian_noise (g : Rng σ F) (space : Space) (buffer : PixelBuffer (Col F)) (alpha : F) :
    StateT σ R (PixelBuffer (Col F)) :=
  buffer.map_colorsM fun c => try_map_color_channels space c (noiseChannel g.normal alpha)

/-- gaussian_noise.rs:20-32 `add_gaussian_noise`. -/
def add_gaussian_noise (g : Rng σ F) (space : Space) (buffer : PixelBuffer (Col F)) (alpha : F) :
    StateT σ R (PixelBuffer (Col F)) :=
  buffer.mod_colorsM fun c => try_map_color_channels space c (noiseChannel g.normal alpha)

/-- rgb_noise.rs:5-20 `rgb_noise_for_pixel`. -/
def rgb_noise_for_pixel (g : Rng σ F) (c : Col F) (threshold : F) : StateT σ R (Col F) := do
  let value ← modifyGetThe σ g.unit
  if value <. threshold then
    match ← modifyGetThe σ g.three with
    | 0 => return { c with c0 := lit 1 }
    | 1 => return { c with c1 := lit 1 }
    | _ => return { c with c2 := lit 1 }
  else
    return c

/-- rgb_noise.rs:22-26 `rgb_noise`. -/
def rgb_noise (g : Rng σ F) (buffer : PixelBuffer (Col F)) (threshold : F) :
    StateT σ R (PixelBuffer (Col F)) :=
  buffer.map_colorsM fun c => rgb_noise_for_pixel g c threshold

/-- rgb_noise.rs:28-32 `add_rgb_noise`. -/
def add_rgb_noise (g : Rng σ F) (buffer : PixelBuffer (Col F)) (threshold : F) :
    StateT σ R (PixelBuffer (Col F)) :=
  buffer.mod_colorsM fun c => rgb_noise_for_pixel g c threshold

/-- salt_n_pepper_noise.rs:5-18 `salt_n_pepper`. -/
def salt_n_pepper (g : Rng σ F) (c : Col F) (threshold : F) : StateT σ R (Col F) := do
  let value ← modifyGetThe σ g.unit
  if value <. threshold then
    return Rgb.BLACK
  else if lit 1 -. threshold <. value then
    return Rgb.WHITE
  else
    return c

/-- salt_n_pepper_noise.rs:20-24 `salt_n_pepper_noise`. -/
def salt_n_pepper_noise (g : Rng σ F) (buffer : PixelBuffer (Col F)) (threshold : F) :
    StateT σ R (PixelBuffer (Col F)) :=
  buffer.map_colorsM fun c => salt_n_pepper g c threshold

/-- salt_n_pepper_noise.rs:26-30 `add_salt_n_pepper_noise`. -/
def add_salt_n_pepper_noise (g : Rng σ F) (buffer : PixelBuffer (Col F)) (threshold : F) :
    StateT σ R (PixelBuffer (Col F)) :=
  buffer.mod_colorsM fun c => salt_n_pepper g c threshold

end D10
