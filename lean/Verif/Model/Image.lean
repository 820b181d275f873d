import Verif.Model.Files
import Verif.Model.Options

/-!
# `Image`

d10/src/image.rs: the image type that users of the library see. `&mut self` methods return the image
afterwards. `data_mut` and `buffer_mut` hand out references: what a caller may do with them is
described where images are enumerated (`Spec.Made`). Closures are pure, may panic, or have effects in
a monad `m`, as in the model of `PixelBuffer`.
-/

namespace D10

/-- image.rs:13-17 `struct Image`. -/
structure Image (F : Type) where
  buffer : PixelBuffer (Col F)
  bg_color : Option (Col F)

namespace Image
open Scalar (lit ofNat round)

variable {F σ : Type} [Scalar F]

/-- image.rs:20-25 `new`. -/
def new (width height : Nat) : R (Image F) := do
  return { buffer := ← PixelBuffer.new Rgb.NONE width height, bg_color := none }

/-- image.rs:27-32 `new_with_color`. -/
def new_with_color (width height : Nat) (color : Col F) : R (Image F) := do
  return { buffer := ← PixelBuffer.new_with_color width height color, bg_color := none }

/-- image.rs:34-39 `new_from_raw`. -/
def new_from_raw (width height : Nat) (data : List (Col F)) : R (Image F) := do
  return { buffer := ← PixelBuffer.new_from_raw width height data, bg_color := none }

/-- image.rs:41-46 `new_from_buffer`. -/
def new_from_buffer (buffer : PixelBuffer (Col F)) : Image F := { buffer, bg_color := none }

/-- image.rs:57-62 `new_from_buffer_with_meta`. -/
def new_from_buffer_with_meta (orig_image : Image F) (buffer : PixelBuffer (Col F)) : Image F :=
  { buffer, bg_color := orig_image.bg_color }

/-- image.rs:48-55 `new_from_raw_with_meta`. -/
def new_from_raw_with_meta (orig_image : Image F) (width height : Nat) (data : List (Col F)) :
    R (Image F) := do
  return new_from_buffer_with_meta orig_image (← PixelBuffer.new_from_raw width height data)

/-- image.rs:64-70 `open`. -/
def «open» (libs : Libs F) (fs : FS) (path : String) : Dec (Image F) := do
  let buffer ← decode_file libs fs path
  return new_from_buffer buffer

/-- image.rs:72-75 `read_from_buffer`. -/
def read_from_buffer (libs : Libs F) (buffer : List Nat) : Dec (Image F) := do
  let buffer ← decode_buffer libs buffer
  return new_from_buffer buffer

/-- image.rs:77-82 `save`. -/
def save [FloatBytes F] (libs : Libs F) (fs : FS) (img : Image F) (path : String) :
    FS × R (Except EncodingError Unit) :=
  encode_to_file libs fs path img.buffer none

/-- image.rs:84-89 `save_with_format`. -/
def save_with_format [FloatBytes F] (libs : Libs F) (fs : FS) (img : Image F) (path : String)
    (format : EncodingFormat) : FS × R (Except EncodingError Unit) :=
  encode_to_file libs fs path img.buffer (some format)

/-- image.rs:91-96 `save_to_writer`. -/
def save_to_writer [FloatBytes F] (libs : Libs F) (img : Image F) (format : EncodingFormat) :
    R Written :=
  encode libs img.buffer format

/-- image.rs:98-102 `save_to_buffer`. -/
def save_to_buffer [FloatBytes F] (libs : Libs F) (img : Image F) (format : EncodingFormat) :
    R (Except EncodingError (List Nat)) := do
  let out ← encode libs img.buffer format
  match out.result with
  | .ok () => return .ok out.bytes
  | .error e => return .error e

/-- image.rs:104-106 `width`. -/
def width (img : Image F) : Nat := img.buffer.width

/-- image.rs:108-110 `height`. -/
def height (img : Image F) : Nat := img.buffer.height

/-- image.rs:112-114 `is_empty`. -/
def is_empty (img : Image F) : Bool := img.buffer.is_empty

/-- image.rs:116-118 `data`. -/
def data (img : Image F) : List (Col F) := img.buffer.data

/-- image.rs:132-134 `has_transparency`. -/
def has_transparency (img : Image F) : Bool := img.buffer.has_transparency

/-- image.rs:136-138 `is_grayscale`. -/
def is_grayscale (img : Image F) : Bool := img.buffer.is_grayscale

/-- image.rs:140-142 `mod_colors`. -/
def mod_colors (img : Image F) (func : Col F → Col F) : Image F :=
  { img with buffer := img.buffer.mod_colors func }

/-- image.rs:144-146 `try_mod_colors`. -/
def try_mod_colors {m : Type → Type} [Monad m] {E : Type} (img : Image F)
    (func : Col F → m (Except E (Col F))) : m (Image F × Except E Unit) := do
  let (buffer, res) ← img.buffer.try_mod_colors func
  return ({ img with buffer }, res)

/-- image.rs:148-150 `mod_colors_enumerated`. -/
def mod_colors_enumerated (img : Image F) (func : Nat → Nat → Col F → R (Col F)) : R (Image F) := do
  return { img with buffer := ← img.buffer.mod_colors_enumerated func }

/-- image.rs:152-157 `try_mod_colors_enumerated`. -/
def try_mod_colors_enumerated {E : Type} (img : Image F)
    (func : Nat → Nat → Col F → Except E (Col F)) : Image F × Except E Unit :=
  let (buffer, res) := img.buffer.try_mod_colors_enumerated func
  ({ img with buffer }, res)

/-- image.rs:159-161 `map_colors`. -/
def map_colors {m : Type → Type} [Monad m] (img : Image F) (func : Col F → m (Col F)) :
    m (Image F) := do
  return new_from_buffer_with_meta img (← img.buffer.map_colorsM func)

/-- image.rs:163-168 `try_map_colors`. -/
def try_map_colors {m : Type → Type} [Monad m] {E : Type} (img : Image F)
    (func : Col F → m (Except E (Col F))) : m (Except E (Image F)) := do
  match ← img.buffer.try_map_colors func with
  | .ok buffer => return .ok (new_from_buffer_with_meta img buffer)
  | .error e => return .error e

/-- image.rs:170-172 `map_colors_enumerated`. -/
def map_colors_enumerated (img : Image F) (func : Nat → Nat → Col F → R (Col F)) : R (Image F) := do
  return new_from_buffer_with_meta img (← img.buffer.map_colors_enumerated func)

/-- image.rs:174-182 `try_map_colors_enumerated`. -/
def try_map_colors_enumerated {E : Type} (img : Image F)
    (func : Nat → Nat → Col F → Except E (Col F)) : Except E (Image F) := do
  return new_from_buffer_with_meta img (← img.buffer.try_map_colors_enumerated func)

/-- image.rs:184-186 `get_pixel`. -/
def get_pixel (img : Image F) (x y : Nat) : R (Col F) := img.buffer.get_pixel x y

/-- image.rs:188-190 `put_pixel`. -/
def put_pixel (img : Image F) (x y : Nat) (color : Col F) : R (Image F) := do
  return { img with buffer := ← img.buffer.put_pixel x y color }

/-- image.rs:192-194 `get_pixel_clamped`. -/
def get_pixel_clamped (img : Image F) (x y : Int) : R (Col F) := img.buffer.get_pixel_clamped x y

/-- image.rs:196-198 `get_pixel_optional`. -/
def get_pixel_optional (img : Image F) (x y : Int) : R (Option (Col F)) :=
  img.buffer.get_pixel_optional x y

/-- image.rs:201-203 `is_in_image`. -/
def is_in_image (img : Image F) (x y : Int) : Bool := img.buffer.is_in_image x y

/-- image.rs:349-365 `try_compose`. The `try_into` of image.rs:357-362 always gets a vector of the
right length. -/
def try_compose {m : Type → Type} [Monad m] [MonadLiftT R m] {E : Type} {N : Nat}
    (images : Vector (Image F) N) (default : Col F)
    (func : Nat → Nat → Vector (Col F) N → m (Except E (Col F))) : m (Except E (Image F)) := do
  let buffers := images.map (·.buffer)
  match ← D10.try_compose buffers default func with
  | .error e => return .error e
  | .ok result => return .ok (new_from_buffer_with_meta (← liftM (index images.toList 0)) result)

/-- image.rs:367-379 `compose`. -/
def compose {m : Type → Type} [Monad m] [MonadLiftT R m] {N : Nat}
    (images : Vector (Image F) N) (default : Col F)
    (func : Nat → Nat → Vector (Col F) N → m (Col F)) : m (Image F) := do
  let buffers := images.map (·.buffer)
  let result ← D10.compose buffers default func
  return new_from_buffer_with_meta (← liftM (index images.toList 0)) result

/-- image.rs:381-388 `try_compose_slice`. -/
def try_compose_slice {m : Type → Type} [Monad m] [MonadLiftT R m] {E : Type}
    (images : List (Image F)) (default : Col F)
    (func : Nat → Nat → List (Col F) → m (Except E (Col F))) : m (Except E (Image F)) := do
  let buffers := images.map (·.buffer)
  match ← D10.try_compose_slice buffers default func with
  | .error e => return .error e
  | .ok result => return .ok (new_from_buffer_with_meta (← liftM (index images 0)) result)

/-- image.rs:390-397 `compose_slice`. -/
def compose_slice {m : Type → Type} [Monad m] [MonadLiftT R m]
    (images : List (Image F)) (default : Col F)
    (func : Nat → Nat → List (Col F) → m (Col F)) : m (Image F) := do
  let buffers := images.map (·.buffer)
  let result ← D10.compose_slice buffers default func
  return new_from_buffer_with_meta (← liftM (index images 0)) result

/-- image.rs:206-211 `crop`. -/
def crop (img : Image F) (offset_x offset_y width height : Nat) : R (Image F) := do
  return new_from_buffer_with_meta img
    (← D10.crop Rgb.NONE img.buffer offset_x offset_y width height)

/-- image.rs:214-216 `flip_horizontal`. -/
def flip_horizontal (img : Image F) : R (Image F) := do
  return new_from_buffer_with_meta img (← D10.flip_horizontal Rgb.NONE img.buffer)

/-- image.rs:219-221 `flip_vertical`. -/
def flip_vertical (img : Image F) : R (Image F) := do
  return new_from_buffer_with_meta img (← D10.flip_vertical Rgb.NONE img.buffer)

/-- image.rs:224-226 `rotate90`. -/
def rotate90 (img : Image F) : R (Image F) := do
  return new_from_buffer_with_meta img (← D10.rotate90 Rgb.NONE img.buffer)

/-- image.rs:229-231 `rotate180`. -/
def rotate180 (img : Image F) : R (Image F) := do
  return new_from_buffer_with_meta img (← D10.rotate180 Rgb.NONE img.buffer)

/-- image.rs:234-236 `rotate270`. -/
def rotate270 (img : Image F) : R (Image F) := do
  return new_from_buffer_with_meta img (← D10.rotate270 Rgb.NONE img.buffer)

/-- image.rs:239-249 `rotate`. -/
def rotate (img : Image F) (radians : F) (filter : FilterMode) : R (Image F) := do
  return new_from_buffer_with_meta img
    (← D10.rotate img.buffer radians (img.bg_color.getD Rgb.NONE) filter)

/-- image.rs:252-254 `edge_detection`. -/
def edge_detection (img : Image F) (mode : EdgeDetection) : R (Image F) := do
  return new_from_buffer_with_meta img (← D10.edge_detection img.buffer mode)

/-- image.rs:257-262 `resize`. -/
def resize (img : Image F) (new_width new_height : Nat) (filter : FilterMode) : R (Image F) := do
  return new_from_buffer_with_meta img (← D10.resize img.buffer new_width new_height filter)

/-- image.rs:265-272 `resize_pct`. -/
def resize_pct (img : Image F) (pct_100 : F) (filter : FilterMode) : R (Image F) :=
  let factor := pct_100 /. lit 100
  let width := Scalar.asU32 (round (ofNat img.width *. factor))
  let height := Scalar.asU32 (round (ofNat img.height *. factor))
  img.resize (max width 1) (max height 1) filter

/-- image.rs:277-282 `with_jpeg_quality`. -/
def with_jpeg_quality [FloatBytes F] (libs : Libs F) (img : Image F) (quality : Nat)
    (preserve_alpha : Bool) : R (Image F) := do
  return new_from_buffer_with_meta img
    (← D10.jpeg_quality (jpegCodec libs) img.buffer quality preserve_alpha)

/-- image.rs:285-287 `random_noise`. -/
def random_noise (g : Rng σ F) (img : Image F) (alpha : F) : StateT σ R (Image F) := do
  return new_from_buffer_with_meta img (← D10.random_noise g .rgb img.buffer alpha)

/-- image.rs:290-292 `add_random_noise`. -/
def add_random_noise (g : Rng σ F) (img : Image F) (alpha : F) : StateT σ R (Image F) := do
  return { img with buffer := ← D10.add_random_noise g .rgb img.buffer alpha }

/-- image.rs:295-297 `salt_n_pepper_noise`. -/
def salt_n_pepper_noise (g : Rng σ F) (img : Image F) (threshold : F) : StateT σ R (Image F) := do
  return new_from_buffer_with_meta img (← D10.salt_n_pepper_noise g img.buffer threshold)

/-- image.rs:300-302 `add_salt_n_pepper_noise`. -/
def add_salt_n_pepper_noise (g : Rng σ F) (img : Image F) (threshold : F) :
    StateT σ R (Image F) := do
  return { img with buffer := ← D10.add_salt_n_pepper_noise g img.buffer threshold }

/-- image.rs:305-307 `rgb_noise`. -/
def rgb_noise (g : Rng σ F) (img : Image F) (threshold : F) : StateT σ R (Image F) := do
  return new_from_buffer_with_meta img (← D10.rgb_noise g img.buffer threshold)

/-- image.rs:310-312 `add_rgb_noise`. -/
def add_rgb_noise (g : Rng σ F) (img : Image F) (threshold : F) : StateT σ R (Image F) := do
  return { img with buffer := ← D10.add_rgb_noise g img.buffer threshold }

/-- image.rs:315-317 `gaussian_noise`. -/
def gaussian_noise (g : Rng σ F) (img : Image F) (alpha : F) : StateT σ R (Image F) := do
  return new_from_buffer_with_meta img (← D10.gaussian_noise g .rgb img.buffer alpha)

/-- image.rs:320-322 `add_gaussian_noise`. -/
def add_gaussian_noise (g : Rng σ F) (img : Image F) (alpha : F) : StateT σ R (Image F) := do
  return { img with buffer := ← D10.add_gaussian_noise g .rgb img.buffer alpha }

/-- image.rs:325-327 `gaussian_blur`. -/
def gaussian_blur (img : Image F) (radius : Nat) (sigma : Option F) : R (Image F) := do
  return new_from_buffer_with_meta img (← D10.gaussian_blur img.buffer radius sigma)

/-- image.rs:330-332 `unsharp`. -/
def unsharp (img : Image F) (radius : Nat) (factor : F) (sigma : Option F) : R (Image F) := do
  return new_from_buffer_with_meta img (← D10.unsharp img.buffer radius factor sigma)

/-- image.rs:338-343 `white_balance`. -/
def white_balance (img : Image F) (threshold : F) : R (Image F) := do
  return new_from_buffer_with_meta img (← D10.balance img.buffer .Rgb threshold)

/-- image.rs:345-347 `balance`. -/
def balance (img : Image F) (mode : BalanceMode) (threshold : F) : R (Image F) := do
  return new_from_buffer_with_meta img (← D10.balance img.buffer mode threshold)

/-- image.rs:399-404 `blend`. -/
def blend (img : Image F) (other : Image F) (blend_op : BlendOp) (intensity : F) : R (Image F) := do
  return new_from_buffer_with_meta img (← blend_image img.buffer other.buffer blend_op intensity)

/-- image.rs:406-408 `drawing`. -/
def drawing (img : Image F) (radius : Nat) (mode : DrawingMode) : R (Image F) := do
  return new_from_buffer_with_meta img (← D10.drawing img.buffer radius mode)

/-- image.rs:410-412 `interlace`. -/
def interlace (img : Image F) (offset : Nat) : R (Image F) := do
  return new_from_buffer_with_meta img (← D10.interlace img.buffer offset)

/-- image.rs:422-424 `despeckle`. -/
def despeckle (img : Image F) (threshold : F) (amount : Nat) : R (Image F) := do
  return new_from_buffer_with_meta img (← D10.despeckle img.buffer threshold amount)

/-- image.rs:430-432 `stretch_contrast`. -/
def stretch_contrast (img : Image F) (threshold : F) : R (Image F) := do
  return new_from_buffer_with_meta img (← D10.stretch_contrast img.buffer threshold)

/-- image.rs:464-466 `equalize`. -/
def equalize (img : Image F) (mode : EqualizeMode) : R (Image F) := do
  return new_from_buffer_with_meta img (← D10.equalize img.buffer mode)

/-- image.rs:468-470 `symmetric_nearest_neighbor`. -/
def symmetric_nearest_neighbor (img : Image F) (radius : Nat) (with_center : Bool) :
    R (Image F) := do
  return new_from_buffer_with_meta img
    (← D10.symmetric_nearest_neighbor img.buffer radius with_center)

/-- image.rs:438-448 `change_color_temperature`. -/
def change_color_temperature (D : Type) [Scalar D] [Widen F D] (img : Image F)
    (orig_temp new_temp tint_correction : F) : R (Image F) := do
  return new_from_buffer_with_meta img
    (← D10.change_color_temperature D img.buffer orig_temp new_temp tint_correction)

/-- image.rs:450-455 `optimize_color_temperature`. -/
def optimize_color_temperature (D : Type) [Scalar D] [Widen F D] (img : Image F)
    (factor tint_correction : F) : R (Image F) := do
  return new_from_buffer_with_meta img
    (← D10.optimize_color_temperature D img.buffer factor tint_correction)

/-- image.rs:457-462 `optimize_lightness`. -/
def optimize_lightness (D : Type) [Scalar D] [Widen F D] (img : Image F) (factor : F) : Image F :=
  new_from_buffer_with_meta img (D10.optimize_lightness D img.buffer factor)

/-- image.rs:434-436 `optimize_saturation`. -/
def optimize_saturation (img : Image F) (offset : F) (mode : SaturationMode) : Image F :=
  new_from_buffer_with_meta img (D10.optimize_saturation img.buffer offset mode)

/-- image.rs:414-416 `apply_palette`. -/
def apply_palette (img palette : Image F) : Image F :=
  new_from_buffer_with_meta img (D10.apply_palette img.buffer .rgb palette.buffer)

/-- image.rs:418-420 `apply_palette_in_place`. -/
def apply_palette_in_place (img palette : Image F) : Image F :=
  { img with buffer := D10.apply_palette_in_place img.buffer .rgb palette.buffer }

end Image
end D10
