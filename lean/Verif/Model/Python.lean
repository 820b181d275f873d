import Verif.Model.Image

/-!
# The Python binding

d10-python/src/image.rs, color.rs and lib.rs: the class `Image` and its NumPy export and import, the
class `EncodingFormat`, and the constructors and conversions of the Lab and LCh colour classes.

The classes wrap the types of the library, so a wrapped value is modelled by the wrapped value.
Methods without `Option` parameters only forward to the method of the same name and are not repeated
here. A Python function given as an argument is a function that may raise (`E` is the type of
exceptions); converting its arguments and result between Python and Rust is left out.
-/

namespace D10.Python
open Scalar (lit)

variable {F D : Type} [Scalar F] [Scalar D] [Widen F D]

/-- A method that may raise `PyOSError(message)` or panic. `PyResult` -/
abbrev Py := ExceptT String R

/-- `?` on a panicking computation that raises nothing. -/
def Py.ofR {α : Type} (x : R α) : Py α := ExceptT.mk (x.map .ok)

/-- lib.rs:17-24 `py_err` for the errors of option names. -/
def py_err {α : Type} : Except ParseEnumError α → Py α
  | .ok a => pure a
  | .error e => throw e.display

/-- `match name { Some(name) => name.parse().py_err()?, None => default }`, used by image.rs:174-390
and 747-843. -/
def parse_or {α : Type} (from_str : String → Except ParseEnumError α) (default : α) :
    Option String → Py α
  | some name => py_err (from_str name)
  | none => pure default

/-! ## Methods of `Image` with optional arguments -/

/-- image.rs:29-36 `new`. -/
def new (width height : Nat) (color : Option (Col F)) : R (Image F) :=
  match color with
  | some color => Image.new_with_color width height color
  | none => Image.new width height

/-- image.rs:38-47 `from_list`. -/
def from_list (width height : Nat) (list : List (Col F)) : R (Image F) :=
  Image.new_from_raw width height list

/-- image.rs:49-51 `to_list`. -/
def to_list (img : Image F) : List (Col F) := img.data

/-- image.rs:68-77 `save`. The text of the exception is left out. -/
def save [FloatBytes F] (libs : Libs F) (fs : FS) (img : Image F) (path : String)
    (format : Option EncodingFormat) : FS × R (Except EncodingError Unit) :=
  match format with
  | some format => Image.save_with_format libs fs img path format
  | none => Image.save libs fs img path

/-- image.rs:87-95 `mod_colors`. -/
def mod_colors {E : Type} (img : Image F) (func : Col F → Except E (Col F)) : Image F × Except E Unit :=
  img.try_mod_colors (m := Id) func

/-- image.rs:97-108 `mod_colors_enumerated`. -/
def mod_colors_enumerated {E : Type} (img : Image F) (func : Int → Int → Col F → Except E (Col F)) :
    Image F × Except E Unit :=
  img.try_mod_colors_enumerated (fun x y c => func (asI32 x) (asI32 y) c)

/-- image.rs:110-119 `map_colors`. -/
def map_colors {E : Type} (img : Image F) (func : Col F → Except E (Col F)) : Except E (Image F) :=
  img.try_map_colors (m := Id) func

/-- image.rs:121-132 `map_colors_enumerated`. -/
def map_colors_enumerated {E : Type} (img : Image F) (func : Int → Int → Col F → Except E (Col F)) :
    Except E (Image F) :=
  img.try_map_colors_enumerated (fun x y c => func (asI32 x) (asI32 y) c)

/-- image.rs:134-136 `get_pixel`. -/
def get_pixel (img : Image F) (x y : Int) : R (Option (Col F)) := img.get_pixel_optional x y

/-- image.rs:174-180 `rotate`. -/
def rotate (img : Image F) (radians : F) (filter : Option String) : Py (Image F) := do
  let filter ← parse_or FilterMode.from_str .Bilinear filter
  Py.ofR (img.rotate radians filter)

/-- image.rs:182-188 `resize`. -/
def resize (img : Image F) (new_width new_height : Nat) (filter : Option String) : Py (Image F) := do
  let filter ← parse_or FilterMode.from_str .Bilinear filter
  Py.ofR (img.resize new_width new_height filter)

/-- image.rs:190-196 `resize_pct`. -/
def resize_pct (img : Image F) (pct_100 : F) (filter : Option String) : Py (Image F) := do
  let filter ← parse_or FilterMode.from_str .Bilinear filter
  Py.ofR (img.resize_pct pct_100 filter)

/-- image.rs:198-205 `edge_detection`. -/
def edge_detection (img : Image F) (mode : Option String) : Py (Image F) := do
  let mode ← parse_or EdgeDetection.from_str .Sobel mode
  Py.ofR (img.edge_detection mode)

/-- image.rs:207-211 `with_jpeg_quality`. -/
def with_jpeg_quality [FloatBytes F] (libs : Libs F) (img : Image F) (quality : Nat)
    (preserve_alpha : Option Bool) : R (Image F) :=
  img.with_jpeg_quality libs quality (preserve_alpha.getD true)

/-- image.rs:249-253 `unsharp`. -/
def unsharp (img : Image F) (radius : Nat) (factor sigma : Option F) : R (Image F) :=
  img.unsharp radius (factor.getD (lit 1)) sigma

/-- image.rs:255-259 `drawing`. -/
def drawing (img : Image F) (radius : Nat) (mode : Option String) : Py (Image F) := do
  let mode ← py_err (DrawingMode.from_str (mode.getD "default"))
  Py.ofR (img.drawing radius mode)

/-- image.rs:273-277 `despeckle`. -/
def despeckle (img : Image F) (threshold : Option F) (amount : Option Nat) : R (Image F) :=
  img.despeckle (threshold.getD (lit (1 / 10))) (amount.getD 1)

/-- image.rs:279-287 `symmetric_nearest_neighbor`. -/
def symmetric_nearest_neighbor (img : Image F) (radius : Option Nat) (with_center : Option Bool) :
    R (Image F) :=
  img.symmetric_nearest_neighbor (radius.getD 4) (with_center.getD true)

/-- image.rs:289-312 `compose`. `Rgb::default()` is `Rgb::NONE` (rgb.rs:366-370). -/
def compose {E : Type} (images : List (Image F)) (func : Nat → Nat → List (Col F) → Except E (Col F))
    (default : Option (Col F)) : R (Except E (Image F)) :=
  Image.try_compose_slice images (default.getD Rgb.NONE) (fun x y colors => .ok (func x y colors))

/-- image.rs:315-324 `blend`. -/
def blend (img image : Image F) (blend_op : Option String) (intensity : Option F) : Py (Image F) := do
  let blend_op ← py_err (BlendOp.from_str (blend_op.getD "normal"))
  Py.ofR (img.blend image blend_op (intensity.getD (lit 1)))

/-- image.rs:326-329 `stretch_contrast`. -/
def stretch_contrast (img : Image F) (threshold : Option F) : Py (Image F) :=
  Py.ofR (img.stretch_contrast (threshold.getD (lit (1 / 2))))

/-- image.rs:331-335 `optimize_saturation`. -/
def optimize_saturation (img : Image F) (offset : Option F) (mode : Option String) : Py (Image F) := do
  let mode ← py_err (SaturationMode.from_str (mode.getD "hsl"))
  return img.optimize_saturation (offset.getD (lit 1)) mode

variable (D) in
/-- image.rs:337-347 `change_color_temperature`. -/
def change_color_temperature (img : Image F) (orig_temp new_temp : F) (tint_correction : Option F) :
    Py (Image F) :=
  Py.ofR (img.change_color_temperature D orig_temp new_temp (tint_correction.getD (lit 0)))

variable (D) in
/-- image.rs:349-358 `optimize_color_temperature`. -/
def optimize_color_temperature (img : Image F) (factor : F) (tint_correction : Option F) :
    Py (Image F) :=
  Py.ofR (img.optimize_color_temperature D factor (tint_correction.getD (lit 0)))

/-- image.rs:370-373 `white_balance`. -/
def white_balance (img : Image F) (threshold : Option F) : Py (Image F) :=
  Py.ofR (img.white_balance (threshold.getD (lit (1 / 2))))

/-- image.rs:375-382 `balance`. -/
def balance (img : Image F) (mode : Option String) (threshold : Option F) : Py (Image F) := do
  let mode ← parse_or BalanceMode.from_str .Rgb mode
  Py.ofR (img.balance mode (threshold.getD (lit (1 / 2))))

/-- image.rs:384-390 `equalize`. -/
def equalize (img : Image F) (mode : Option String) : Py (Image F) := do
  let mode ← parse_or EqualizeMode.from_str .Srgb mode
  Py.ofR (img.equalize mode)

/-- image.rs:392-394 `__len__`. -/
def len (img : Image F) : Nat := img.data.length

/-- image.rs:396-402 `__getitem__`. -/
def getitem (img : Image F) (key : Int × Int) : Py (Col F) := do
  let x := key.1
  let y := key.2
  match ← Py.ofR (get_pixel img x y) with
  | some c => return c
  | none => throw ("Array not within range: " ++ toString y ++ "x" ++ toString x)

/-- image.rs:404-409 `__setitem__`. -/
def setitem (img : Image F) (key : Nat × Nat) (value : Col F) : R (Image F) :=
  img.put_pixel key.1 key.2 value

/-! ## `EncodingFormat` -/

/-- `match name { Some(v) => Some(v.parse().py_err()?), None => None }`, image.rs:754-757. -/
def parse_option {α : Type} (from_str : String → Except ParseEnumError α) :
    Option String → Py (Option α)
  | some name => do return some (← py_err (from_str name))
  | none => pure none

/-- image.rs:747-768 `EncodingFormat.jpeg`. -/
def jpeg (quality : Option Nat) (progressive : Option Bool) (sampling_factor : Option String)
    (grayscale optimize_huffman_tables : Option Bool) : Py EncodingFormat := do
  let sampling_factor ← parse_option JpegSamplingFactor.from_str sampling_factor
  return .Jpeg (quality.getD 85) (progressive.getD false) sampling_factor (grayscale.getD false)
    (optimize_huffman_tables.getD true)

/-- image.rs:770-798 `EncodingFormat.png`. -/
def png (color_type compression filter : Option String) : Py EncodingFormat := do
  let color_type ← parse_or PngColorType.from_str .Rgba8 color_type
  let compression ← parse_or PngCompression.from_str .Default compression
  let filter ← parse_or PngFilterType.from_str .Sub filter
  return .Png color_type compression filter

/-- image.rs:800-805 `EncodingFormat.gif`. -/
def gif : EncodingFormat := .Gif

/-- image.rs:807-817 `EncodingFormat.bmp`. -/
def bmp (color_type : Option String) : Py EncodingFormat := do
  let color_type ← parse_or BmpColorType.from_str .Rgba8 color_type
  return .Bmp color_type

/-- image.rs:819-829 `EncodingFormat.ico`. -/
def ico (color_type : Option String) : Py EncodingFormat := do
  let color_type ← parse_or IcoColorType.from_str .Rgba8 color_type
  return .Ico color_type

/-- image.rs:831-843 `EncodingFormat.webp`. -/
def webp (quality : Option Nat) (preset : Option String) : Py EncodingFormat := do
  let preset ← parse_or WebPPreset.from_str .Default preset
  return .WebP (quality.getD 85) preset

/-! ## Colours -/

/-- color.rs:38-41 `new` of every colour class. -/
def color_new (s : Space) (a b c : F) (alpha : Option F) : Col F :=
  new_with_alpha s a b c (alpha.getD (lit 1))

/-- lib.rs:66-80 and 97-111, color.rs:126-159: the classes for an illuminant and an observer. -/
def reference : String → String → Option (Illuminant × Observer)
  | "D65", "2" => some (.D65, .O2)
  | "D65", "10" => some (.D65, .O10)
  | "D50", "2" => some (.D50, .O2)
  | "D50", "10" => some (.D50, .O10)
  | "E", "2" => some (.E, .O2)
  | "E", "10" => some (.E, .O10)
  | _, _ => none

/-- lib.rs:52-81 `Lab`: the class of the new object (its colour space) and the object. -/
def lab (l a b : F) (alpha : Option F) (illuminant observer : Option String) : Py (Space × Col F) :=
  let illuminant := illuminant.getD "D65"
  let observer := observer.getD "2"
  match reference illuminant observer with
  | some (i, o) => return (.lab i o, color_new (.lab i o) l a b alpha)
  | none => throw ("Unsupported Lab type: " ++ illuminant ++ " " ++ observer)

/-- lib.rs:83-112 `Lch`. -/
def lch (l c h : F) (alpha : Option F) (illuminant observer : Option String) : Py (Space × Col F) :=
  let illuminant := illuminant.getD "D65"
  let observer := observer.getD "2"
  match reference illuminant observer with
  | some (i, o) => return (.lch i o, color_new (.lch i o) l c h alpha)
  | none => throw ("Unsupported Lch type: " ++ illuminant ++ " " ++ observer)

/-- color.rs:122-138 `to_lab` of the colour classes; `s` is the class of `self`. -/
def color_to_lab (s : Space) (c : Col F) (illuminant observer : Option String) :
    Py (Space × Col F) :=
  let illuminant := illuminant.getD "D65"
  let observer := observer.getD "2"
  match reference illuminant observer with
  | some (i, o) => return (.lab i o, to_lab i o s c)
  | none => throw ("Unsupported Lab type: " ++ illuminant ++ " " ++ observer)

/-- color.rs:140-156 `to_lch` of the colour classes. -/
def color_to_lch (s : Space) (c : Col F) (illuminant observer : Option String) :
    Py (Space × Col F) :=
  let illuminant := illuminant.getD "D65"
  let observer := observer.getD "2"
  match reference illuminant observer with
  | some (i, o) => return (.lch i o, to_lch i o s c)
  | none => throw ("Unsupported Lch type: " ++ illuminant ++ " " ++ observer)

/-- color.rs:218-224 `Rgb.to_gray`. -/
def to_gray (c : Col F) (intensity : Option String) : Py (Col F) :=
  match intensity with
  | some intensity => do return Rgb.to_gray_with_intensity c (← py_err (Intensity.from_str intensity))
  | none => return Rgb.to_gray c

/-! ## NumPy -/

/-- image.rs:858-865 `DataType`. -/
inductive DataType | Float32 | Float64 | Uint8 | Uint16 | Uint32 | Bool
deriving DecidableEq, Repr

/-- A Python object given as a data type: a string, or any other object with its `str()`. -/
inductive PyDtype
  | str (s : String)
  | obj (text : String)

/-- image.rs:867-904 `extract_data_type`. In the first message `{:?}` escapes quotes and control
characters of the string; here the string only gets the surrounding quotes. -/
def extract_data_type : Option PyDtype → Py DataType
  | none => return .Float32
  | some (.str s) =>
    match s with
    | "float32" => return .Float32
    | "float64" => return .Float64
    | "uint8" => return .Uint8
    | "uint16" => return .Uint16
    | "uint32" => return .Uint32
    | "bool" => return .Bool
    | _ => throw ("Unsupported data type: \"" ++ s ++ "\"")
  | some (.obj s) =>
    match s with
    | "<class 'numpy.float32'>" => return .Float32
    | "<class 'numpy.float64'>" => return .Float64
    | "<class 'numpy.uint8'>" => return .Uint8
    | "<class 'numpy.uint16'>" => return .Uint16
    | "<class 'numpy.uint32'>" => return .Uint32
    | "<class 'numpy.bool'>" => return .Bool
    | "<class 'numpy.bool_'>" => return .Bool
    | "<class 'bool'>" => return .Bool
    | _ => throw ("Unsupported data type: " ++ s)

/-- The elements of a NumPy array in logical (row-major) order, by element type; `Other` is any
other element type, with the text of its type object. -/
inductive NpData (F D : Type)
  | Float32 (l : List F)
  | Float64 (l : List D)
  | Uint8 (l : List Nat)
  | Uint16 (l : List Nat)
  | Uint32 (l : List Nat)
  | Bool (l : List Bool)
  | Other (typeobj : String)

/-- A NumPy array: its shape and its elements. -/
structure NpArray (F D : Type) where
  dims : List Nat
  data : NpData F D

/-- `str(array.dtype.type)`; NumPy 1 calls the class of booleans `numpy.bool_`. -/
def NpData.typeobj : NpData F D → String
  | .Float32 _ => "<class 'numpy.float32'>"
  | .Float64 _ => "<class 'numpy.float64'>"
  | .Uint8 _ => "<class 'numpy.uint8'>"
  | .Uint16 _ => "<class 'numpy.uint16'>"
  | .Uint32 _ => "<class 'numpy.uint32'>"
  | .Bool _ => "<class 'numpy.bool_'>"
  | .Other t => t

/-- image.rs:424-573: how many values a pixel has in a colour space, and which. `color_iter::<N>`
(image.rs:1036-1060) yields the first `N` values of the colour. -/
def export_color : String → Option (Nat × (Col F → List F))
  | "hsl" => some (3, fun c => (to_hsl .rgb c).data.take 3)
  | "hsla" => some (4, fun c => (to_hsl .rgb c).data.take 4)
  | "hsv" => some (3, fun c => (to_hsv .rgb c).data.take 3)
  | "hsva" => some (4, fun c => (to_hsv .rgb c).data.take 4)
  | "yuv" => some (3, fun c => (to_yuv .rgb c).data.take 3)
  | "yuva" => some (4, fun c => (to_yuv .rgb c).data.take 4)
  | "rgb" => some (3, fun c => c.data.take 3)
  | "rgba" => some (4, fun c => c.data.take 4)
  | "srgb" => some (3, fun c => (to_srgb .rgb c).data.take 3)
  | "srgba" => some (4, fun c => (to_srgb .rgb c).data.take 4)
  | "gray" => some (1, fun c => [(Rgb.to_gray c).c0])
  | "xyz" => some (3, fun c => (to_xyz .rgb c).data.take 3)
  | "xyza" => some (4, fun c => (to_xyz .rgb c).data.take 4)
  | "lab" => some (3, fun c => (to_lab .D65 .O2 .rgb c).data.take 3)
  | "laba" => some (4, fun c => (to_lab .D65 .O2 .rgb c).data.take 4)
  | "lch" => some (3, fun c => (to_lch .D65 .O2 .rgb c).data.take 3)
  | "lcha" => some (4, fun c => (to_lch .D65 .O2 .rgb c).data.take 4)
  | _ => none

/-- image.rs:582-641: the elements of the array. -/
def export_data (data : List F) : DataType → NpData F D
  | .Float32 => .Float32 data
  | .Float64 => .Float64 (data.map Widen.up)
  | .Uint8 => .Uint8 (data.map fun v => Scalar.asU8 (v *. lit 255))
  | .Uint16 => .Uint16 (data.map fun v => Scalar.asU16 (v *. lit 65535))
  | .Uint32 => .Uint32 (data.map fun v => Scalar.asU32 (v *. lit 4294967295))
  | .Bool => .Bool (data.map fun v => lit (1 / 2) <=. v)

variable (D) in
/-- image.rs:411-642 `to_np_array`. `reshape` raises if the shape does not have as many elements as
the data. -/
def to_np_array (img : Image F) (colorspace : Option String) (data_type : Option PyDtype) :
    Py (NpArray F D) := do
  let colorspace := colorspace.getD "rgba"
  let data_type ← extract_data_type data_type
  match export_color colorspace with
  | none => throw ("Unknown colorspace: " ++ colorspace)
  | some (depth, values) =>
    let data := img.buffer.data.flatMap values
    if data.length = img.height * img.width * depth then
      return { dims := [img.height, img.width, depth], data := export_data data data_type }
    else
      throw "cannot reshape array"

/-- image.rs:1062-1086 `chunked::<4>`: groups of four; an incomplete last group is dropped. -/
def chunked4 : List F → List (F × F × F × F)
  | a :: b :: c :: d :: rest => (a, b, c, d) :: chunked4 rest
  | _ => []

/-- image.rs:1062-1086 `chunked::<3>`. -/
def chunked3 : List F → List (F × F × F)
  | a :: b :: c :: rest => (a, b, c) :: chunked3 rest
  | _ => []

/-- image.rs:919-963: the colour type for four values per pixel. -/
def import_space4 : String → Option Space
  | "rgba" => some .rgb
  | "rgb" => some .rgb
  | "auto" => some .rgb
  | "srgba" => some .srgb
  | "srgb" => some .srgb
  | "hsla" => some .hsl
  | "hsl" => some .hsl
  | "hsva" => some .hsv
  | "hsv" => some .hsv
  | "yuva" => some .yuv
  | "yuv" => some .yuv
  | "xyza" => some .xyz
  | "xyz" => some .xyz
  | "laba" => some (.lab .D65 .O2)
  | "lab" => some (.lab .D65 .O2)
  | "lcha" => some (.lab .D65 .O2)
  | "lch" => some (.lab .D65 .O2)
  | _ => none

/-- image.rs:970-996: the colour type for three values per pixel. -/
def import_space3 : String → Option Space
  | "rgb" => some .rgb
  | "auto" => some .rgb
  | "srgb" => some .srgb
  | "hsl" => some .hsl
  | "hsv" => some .hsv
  | "yuv" => some .yuv
  | "xyz" => some .xyz
  | "lab" => some (.lab .D65 .O2)
  | "lch" => some (.lch .D65 .O2)
  | _ => none

/-- `new` of the colour type: rgb.rs L46, srgb.rs L11, hsl.rs L11, hsv.rs L11, yuv.rs L23, xyz.rs L24,
lab.rs L120 and L284. -/
def new_opaque (s : Space) (a b c : F) : Col F :=
  match s with
  | .rgb => Rgb.new a b c
  | .srgb => Srgb.new a b c
  | _ => Col.opaque a b c

/-- image.rs:906-1033 `from_np_array_iter`. `width * height` does not overflow: it is at most the
number of elements of the array, or zero. -/
def from_np_array_iter (dims : List Nat) (values : List F) (colorspace : Option String) :
    Py (Image F) := do
  let ndims := dims.length
  let width ← Py.ofR (index dims 1)
  let height ← Py.ofR (index dims 0)
  let colorspace := colorspace.getD "auto"
  let data ← (do
    if ndims = 3 then
      let depth ← Py.ofR (index dims 2)
      if depth = 4 then
        match import_space4 colorspace with
        | some s => return (chunked4 values).map fun v => to_rgb s (new_with_alpha s v.1 v.2.1 v.2.2.1 v.2.2.2)
        | none => throw ("Bad colorspace " ++ colorspace ++ " for dimensions: " ++ toString ndims)
      else if depth = 3 then
        match import_space3 colorspace with
        | some s => return (chunked3 values).map fun v => to_rgb s (new_opaque s v.1 v.2.1 v.2.2)
        | none => throw ("Bad colorspace " ++ colorspace ++ " for dimensions: " ++ toString ndims)
      else if depth = 1 then
        if colorspace ≠ "gray" ∧ colorspace ≠ "auto" then
          throw ("Bad colorspace " ++ colorspace ++ " for dimensions: " ++ toString ndims)
        else
          return values.map fun v => Rgb.new_with_alpha v v v (lit 1)
      else
        throw ("Bad color dimensions: " ++ toString depth)
    else if ndims = 2 then
      if colorspace ≠ "gray" ∧ colorspace ≠ "auto" then
        throw ("Bad colorspace " ++ colorspace ++ " for dimensions: " ++ toString ndims)
      else
        return values.map fun v => Rgb.new_with_alpha v v v (lit 1)
    else
      throw ("Bad number of dimensions: " ++ toString ndims) : Py (List (Col F)))
  Py.ofR (assert (width * height == data.length))
  Py.ofR (Image.new_from_raw (width % 2 ^ 32) (height % 2 ^ 32) data)

/-- image.rs:644-730 `from_np_array`. The last case stands for data that do not have their own
element type: it cannot happen. -/
def from_np_array (array : NpArray F D) (colorspace : Option String) : Py (Image F) := do
  let data_type ← extract_data_type (some (.obj array.data.typeobj))
  match data_type, array.data with
  | .Float32, .Float32 l => from_np_array_iter array.dims l colorspace
  | .Float64, .Float64 l => from_np_array_iter array.dims (l.map Widen.down) colorspace
  | .Bool, .Bool l => from_np_array_iter array.dims (l.map fun v => if v then lit 0 else lit 1) colorspace
  | .Uint8, .Uint8 l => from_np_array_iter array.dims (l.map fun v => Scalar.ofNat v /. lit 255) colorspace
  | .Uint16, .Uint16 l =>
    from_np_array_iter array.dims (l.map fun v => Scalar.ofNat v /. lit 65535) colorspace
  | .Uint32, .Uint32 l =>
    from_np_array_iter array.dims (l.map fun v => Scalar.ofNat v /. lit 4294967295) colorspace
  | _, _ => throw "unreachable"

end D10.Python
