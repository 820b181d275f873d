import Verif.Model.Kernel

/-!
# Sampling filters, resize and free rotation

d10-ops/src/filters.rs, d10-ops/src/resize.rs, d10-ops/src/rotate.rs.
-/

namespace D10
open Scalar (floor ceil sqrt sin cos ofNat ofInt asUsize)

variable {F : Type} [Scalar F]

/-- filters.rs:9-16 `FilterMode`. -/
inductive FilterMode | Nearest | Bilinear | Bicubic | Lanczos3 | Auto
deriving DecidableEq, Repr

/-- filters.rs:33-35 `linear_interpolate`. -/
def linear_interpolate (v1 v2 t : F) : F := v1 +. (v2 -. v1) *. t

/-- filters.rs:38-42 `get_base_and_offset`. -/
def get_base_and_offset (pos : F) : Int × F :=
  let pos_b := floor pos
  let offset := pos -. pos_b
  (Scalar.asI32 pos_b, offset)

/-- filters.rs:45-63 `get_pixel_bilinear`. The closure `calc` takes the channel (a projection)
instead of its number. -/
def get_pixel_bilinear (buffer : PixelBuffer (Col F)) (x y : F) : R (Col F) := do
  let (x, tx) := get_base_and_offset x
  let (y, ty) := get_base_and_offset y
  let c1 ← buffer.get_pixel_clamped x y
  let c2 ← buffer.get_pixel_clamped (← i32 (x + 1)) y
  let c3 ← buffer.get_pixel_clamped x (← i32 (y + 1))
  let c4 ← buffer.get_pixel_clamped (← i32 (x + 1)) (← i32 (y + 1))
  let value := fun i : Col F → F =>
    linear_interpolate
      (linear_interpolate (i c1) (i c2) tx)
      (linear_interpolate (i c3) (i c4) tx)
      ty
  return Rgb.new_with_alpha (value Col.c0) (value Col.c1) (value Col.c2) (value Col.alpha)

/-- filters.rs:65-72 `cubic_hermite_interpolate`. -/
def cubic_hermite_interpolate (v1 v2 v3 v4 t : F) : F :=
  let o1 := Scalar.neg v1 /. lit 2 +. (lit 3 *. v2) /. lit 2 -. (lit 3 *. v3) /. lit 2 +. v4 /. lit 2
  let o2 := v1 -. (lit 5 *. v2) /. lit 2 +. lit 2 *. v3 -. v4 /. lit 2
  let o3 := Scalar.neg v1 /. lit 2 +. v3 /. lit 2
  let o4 := v2
  o1 *. t *. t *. t +. o2 *. t *. t +. o3 *. t +. o4

/-- filters.rs:75-110 `get_pixel_bicubic`. -/
def get_pixel_bicubic (buffer : PixelBuffer (Col F)) (x y : F) : R (Col F) := do
  let (x, tx) := get_base_and_offset x
  let (y, ty) := get_base_and_offset y
  let c00 ← buffer.get_pixel_clamped (← i32 (x - 1)) (← i32 (y - 1))
  let c10 ← buffer.get_pixel_clamped x (← i32 (y - 1))
  let c20 ← buffer.get_pixel_clamped (← i32 (x + 1)) (← i32 (y - 1))
  let c30 ← buffer.get_pixel_clamped (← i32 (x + 2)) (← i32 (y - 1))
  let c01 ← buffer.get_pixel_clamped (← i32 (x - 1)) y
  let c11 ← buffer.get_pixel_clamped x y
  let c21 ← buffer.get_pixel_clamped (← i32 (x + 1)) y
  let c31 ← buffer.get_pixel_clamped (← i32 (x + 2)) y
  let c02 ← buffer.get_pixel_clamped (← i32 (x - 1)) (← i32 (y + 1))
  let c12 ← buffer.get_pixel_clamped x (← i32 (y + 1))
  let c22 ← buffer.get_pixel_clamped (← i32 (x + 1)) (← i32 (y + 1))
  let c32 ← buffer.get_pixel_clamped (← i32 (x + 2)) (← i32 (y + 1))
  let c03 ← buffer.get_pixel_clamped (← i32 (x - 1)) (← i32 (y + 2))
  let c13 ← buffer.get_pixel_clamped x (← i32 (y + 2))
  let c23 ← buffer.get_pixel_clamped (← i32 (x + 1)) (← i32 (y + 2))
  let c33 ← buffer.get_pixel_clamped (← i32 (x + 2)) (← i32 (y + 2))
  let value := fun i : Col F → F =>
    cubic_hermite_interpolate
      (cubic_hermite_interpolate (i c00) (i c10) (i c20) (i c30) tx)
      (cubic_hermite_interpolate (i c01) (i c11) (i c21) (i c31) tx)
      (cubic_hermite_interpolate (i c02) (i c12) (i c22) (i c32) tx)
      (cubic_hermite_interpolate (i c03) (i c13) (i c23) (i c33) tx)
      ty
  return Rgb.new_with_alpha (value Col.c0) (value Col.c1) (value Col.c2) (value Col.alpha)

/-- filters.rs:113-120 `sinc`. -/
def sinc (v : F) : F :=
  if v ==. lit 0 then lit 1
  else
    let v := v *. PI
    sin v /. v

/-- filters.rs:123-141 `lanczos::<N>`. -/
def lanczos (N : Nat) (v : F) : F :=
  let v := Scalar.abs v
  if N == 7 then
    if v <. lit 3 then sinc v *. sinc (v /. lit 3) else lit 0
  else
    let size := ofNat N
    let v := v /. size *. lit 3
    if v <. lit 3 then (sinc v *. sinc (v /. lit 3)) *. (lit 3 /. size) else lit 0

/-- The loops `for i in 0..=3 { acc[i] += v[i] * scale }` of filters.rs:173-176 and L183-186. -/
def Col.addScaled (acc v : Col F) (scale : F) : Col F :=
  ⟨acc.c0 +. v.c0 *. scale, acc.c1 +. v.c1 *. scale, acc.c2 +. v.c2 *. scale,
    acc.alpha +. v.alpha *. scale⟩

/-- The two loops shared by filters.rs:166-188 and L227-246: `row_scale` are the horizontal
weights, `col_scale y` is the vertical weight of row `y`. -/
def lanczosSum (N : Nat) (kernel : List (List (Col F))) (row_scale : List F) (col_scale : Nat → F) :
    R (Col F) := do
  let rows ← forRange N (List.replicate N (Rgb.NONE : Col F)) fun y rows =>
    forRange N rows fun x rows => do
      let scale ← index row_scale x
      let v ← index (← index kernel y) x
      let r ← index rows y
      setIndex rows y (r.addScaled v scale)
  forRange N (Rgb.NONE : Col F) fun y data => do
    let scale := col_scale y
    let v ← index rows y
    return data.addScaled v scale

/-- filters.rs:153-189 `get_pixel_lanczos::<N>`. -/
def get_pixel_lanczos (N : Nat) (buffer : PixelBuffer (Col F)) (x y : F) : R (Col F) := do
  let (x, tx) := get_base_and_offset x
  let (y, ty) := get_base_and_offset y
  let kernel ← buffer.get_kernel N x y
  let size := (ofNat N -. lit 1) /. lit 2
  let row_scale := (List.range N).map fun (i : Nat) =>
    let pos := ofNat i -. size
    lanczos N (pos -. tx)
  lanczosSum N kernel row_scale fun y => lanczos N (ofNat y -. size -. ty)

/-- filters.rs:146-148 `get_pixel_lanczos3`. -/
def get_pixel_lanczos3 (buffer : PixelBuffer (Col F)) (x y : F) : R (Col F) :=
  get_pixel_lanczos 7 buffer x y

/-- filters.rs:191-203 `lanczos_dyn`. -/
def lanczos_dyn (v : F) (size : Nat) : F :=
  let size := ofNat size
  let v := Scalar.abs v
  let v := v /. size *. lit 3
  if v <. lit 3 then (sinc v *. sinc (v /. lit 3)) *. (lit 3 /. size) else lit 0

/-- filters.rs:208-247 `get_pixel_lanczos_dyn`. `usize`/`isize` arithmetic is checked only for the
doubling, which overflows for the size computed from an infinite scale. -/
def get_pixel_lanczos_dyn (buffer : PixelBuffer (Col F)) (x y : F) (size : Nat) : R (Col F) := do
  let (x, tx) := get_base_and_offset x
  let (y, ty) := get_base_and_offset y
  let rowsize := size * 2 + 1
  if rowsize < 2 ^ 64 then
    let kernel ← buffer.get_kernel_dyn x y rowsize
    let row_scale := (List.range rowsize).map fun (i : Nat) =>
      lanczos_dyn (ofInt ((i : Int) - size) -. tx) size
    lanczosSum rowsize kernel row_scale fun y => lanczos_dyn (ofInt ((y : Int) - size) -. ty) size
  else
    .error .overflow

/-! ## resize.rs -/

/-- resize.rs:7-22 `resize_with_fn`. -/
def resize_with_fn (buffer : PixelBuffer (Col F)) (new_width new_height : Nat)
    (func : PixelBuffer (Col F) → Nat → Nat → F → F → R (Col F)) : R (PixelBuffer (Col F)) :=
  let scale_x := ofNat new_width /. ofNat buffer.width
  let scale_y := ofNat new_height /. ofNat buffer.height
  PixelBuffer.new_from_func new_width new_height fun x y => func buffer x y scale_x scale_y

/-- resize.rs:24-34 `resize_pixel_nearest`. -/
def resize_pixel_nearest (buffer : PixelBuffer (Col F)) (x y : Nat) (scale_x scale_y : F) :
    R (Col F) :=
  let x2 := Scalar.asI32 (floor (ofNat x /. scale_x +. lit 0.5))
  let y2 := Scalar.asI32 (floor (ofNat y /. scale_y +. lit 0.5))
  buffer.get_pixel_clamped x2 y2

/-- resize.rs:36-46 `resize_pixel_bilinear`. -/
def resize_pixel_bilinear (buffer : PixelBuffer (Col F)) (x y : Nat) (scale_x scale_y : F) :
    R (Col F) :=
  let gx := (ofNat x +. lit 0.5) /. scale_x -. lit 0.5
  let gy := (ofNat y +. lit 0.5) /. scale_y -. lit 0.5
  get_pixel_bilinear buffer gx gy

/-- resize.rs:48-58 `resize_pixel_bicubic`. -/
def resize_pixel_bicubic (buffer : PixelBuffer (Col F)) (x y : Nat) (scale_x scale_y : F) :
    R (Col F) :=
  let gx := (ofNat x +. lit 0.5) /. scale_x -. lit 0.5
  let gy := (ofNat y +. lit 0.5) /. scale_y -. lit 0.5
  get_pixel_bicubic buffer gx gy

/-- resize.rs:60-70 `resize_pixel_lanczos::<N>`. -/
def resize_pixel_lanczos (N : Nat) (buffer : PixelBuffer (Col F)) (x y : Nat)
    (scale_x scale_y : F) : R (Col F) :=
  let gx := (ofNat x +. lit 0.5) /. scale_x -. lit 0.5
  let gy := (ofNat y +. lit 0.5) /. scale_y -. lit 0.5
  get_pixel_lanczos N buffer gx gy

/-- resize.rs:76: the window size of the automatic filter. -/
def autoSize (scale_x scale_y : F) : Nat :=
  asUsize (ceil (Scalar.max (lit 1 /. Scalar.min scale_x scale_y *. lit 2) (lit 3)))

/-- resize.rs:72-89 `resize_auto`. -/
def resize_auto (buffer : PixelBuffer (Col F)) (new_width new_height : Nat) :
    R (PixelBuffer (Col F)) :=
  let scale_x : F := ofNat new_width /. ofNat buffer.width
  let scale_y : F := ofNat new_height /. ofNat buffer.height
  let size := autoSize scale_x scale_y
  match size with
  | 3 => resize_with_fn buffer new_width new_height (resize_pixel_lanczos 7)
  | 4 => resize_with_fn buffer new_width new_height (resize_pixel_lanczos 9)
  | 5 => resize_with_fn buffer new_width new_height (resize_pixel_lanczos 11)
  | 6 => resize_with_fn buffer new_width new_height (resize_pixel_lanczos 13)
  | _ => PixelBuffer.new_from_func new_width new_height fun x y =>
      let gx := (ofNat x +. lit 0.5) /. scale_x -. lit 0.5
      let gy := (ofNat y +. lit 0.5) /. scale_y -. lit 0.5
      get_pixel_lanczos_dyn buffer gx gy size

/-- resize.rs:91-118 `resize`. -/
def resize (buffer : PixelBuffer (Col F)) (new_width new_height : Nat) (filter : FilterMode) :
    R (PixelBuffer (Col F)) :=
  if buffer.width == new_width && buffer.height == new_height then .ok buffer
  else
    match filter with
    | .Nearest => resize_with_fn buffer new_width new_height resize_pixel_nearest
    | .Bilinear => resize_with_fn buffer new_width new_height resize_pixel_bilinear
    | .Bicubic => resize_with_fn buffer new_width new_height resize_pixel_bicubic
    | .Lanczos3 => resize_with_fn buffer new_width new_height (resize_pixel_lanczos 7)
    | .Auto =>
      if buffer.width ≤ new_width || buffer.height ≤ new_height then
        resize_with_fn buffer new_width new_height resize_pixel_bicubic
      else
        resize_auto buffer new_width new_height

/-! ## rotate.rs -/

/-- rotate.rs:8-39 `rotate_with_fn`. -/
def rotate_with_fn (buffer : PixelBuffer (Col F)) (radians : F) (bg_color : Col F)
    (func : PixelBuffer (Col F) → F → F → R (Option (Col F))) : R (PixelBuffer (Col F)) := do
  let radians := radians /. lit (-180) *. PI
  let sinf := sin radians
  let cosf := cos radians
  let center_x := ofNat (← u32 (buffer.width + 1)) /. lit 2
  let center_y := ofNat (← u32 (buffer.height + 1)) /. lit 2
  let new_width := buffer.width
  let new_height := buffer.height
  PixelBuffer.new_from_func new_width new_height fun x y => do
    let x := ofNat x +. lit 1
    let y := ofNat y +. lit 1
    let a := x -. center_x
    let b := y -. center_y
    let xx := a *. cosf -. b *. sinf +. center_x -. lit 1
    let yy := a *. sinf +. b *. cosf +. center_y -. lit 1
    return (← func buffer xx yy).getD bg_color

/-- rotate.rs:41-46 `rotate_pixel_nearest`. -/
def rotate_pixel_nearest (buffer : PixelBuffer (Col F)) (x y : F) : R (Option (Col F)) :=
  let x := Scalar.asI32 (Scalar.round x)
  let y := Scalar.asI32 (Scalar.round y)
  buffer.get_pixel_optional x y

/-- rotate.rs:48-54 `rotate_pixel_bilinear`. -/
def rotate_pixel_bilinear (buffer : PixelBuffer (Col F)) (x y : F) : R (Option (Col F)) :=
  if buffer.is_in_image (Scalar.asI32 (Scalar.round x)) (Scalar.asI32 (Scalar.round y)) then
    do return some (← get_pixel_bilinear buffer x y)
  else return none

/-- rotate.rs:56-62 `rotate_pixel_bicubic`. -/
def rotate_pixel_bicubic (buffer : PixelBuffer (Col F)) (x y : F) : R (Option (Col F)) :=
  if buffer.is_in_image (Scalar.asI32 (Scalar.round x)) (Scalar.asI32 (Scalar.round y)) then
    do return some (← get_pixel_bicubic buffer x y)
  else return none

/-- rotate.rs:64-70 `rotate_pixel_lanczos3`. -/
def rotate_pixel_lanczos3 (buffer : PixelBuffer (Col F)) (x y : F) : R (Option (Col F)) :=
  if buffer.is_in_image (Scalar.asI32 (Scalar.round x)) (Scalar.asI32 (Scalar.round y)) then
    do return some (← get_pixel_lanczos3 buffer x y)
  else return none

/-- rotate.rs:72-88 `rotate`. -/
def rotate (buffer : PixelBuffer (Col F)) (radians : F) (bg_color : Col F) (filter : FilterMode) :
    R (PixelBuffer (Col F)) :=
  if Scalar.abs (radians -. lit 360) <. f32_EPSILON then .ok buffer
  else
    match filter with
    | .Nearest => rotate_with_fn buffer radians bg_color rotate_pixel_nearest
    | .Bilinear => rotate_with_fn buffer radians bg_color rotate_pixel_bilinear
    | .Bicubic | .Auto => rotate_with_fn buffer radians bg_color rotate_pixel_bicubic
    | .Lanczos3 => rotate_with_fn buffer radians bg_color rotate_pixel_lanczos3

end D10
