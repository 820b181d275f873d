import Verif.Model.Bytes
import Verif.Model.Kernel

/-!
# Reading and writing image formats

d10-codecs/src/{png,jpeg,gif,bmp,ico,webp,lib,errors}.rs without the file access (Model/Files.lean).

The format libraries (`png`, `jpeg_decoder`, `jpeg_encoder`, `gif`, `image`, `libwebp`) are not
modelled: they are the arbitrary functions of `Libs`. The model is what this crate does between the
pixel buffer and the calls of these libraries, errors and panics included. What is known about a
library's result is part of its type (e.g. the length of a filled buffer) and cited there.
-/

namespace D10
open Scalar (lit)

/-- errors.rs:6-12 `DecodingError`; the I/O error is represented by a text. -/
inductive DecodingError
  | BadFileExtension (path : String)
  | UnknownFormat
  | InvalidBufferSize (width height : Nat)
  | Decoding (message : String)
  | IoError (err : String)
deriving DecidableEq, Repr

/-- errors.rs:37-47 `EncodingError`. -/
inductive EncodingError
  | BadFileExtension (path : String)
  | BadDimensions (format : String) (width height : Nat)
  | Encoding (message : String)
  | IoError (err : String)
deriving DecidableEq, Repr

/-- What a call that writes to `w: W` did: the bytes it wrote, and its result. -/
structure Written where
  bytes : List Nat
  result : Except EncodingError Unit

/-! ## Formats and options -/

/-- lib.rs:30-38 `Format`. -/
inductive Format | Jpeg | Png | Gif | Bmp | Ico | WebP
deriving DecidableEq, Repr

/-- png.rs:17-27 `PngColorType`. -/
inductive PngColorType | L8 | La8 | L16 | La16 | Rgb8 | Rgba8 | Rgb16 | Rgba16
deriving DecidableEq, Repr

/-- png.rs:48-55 `PngFilterType`; also the `png` crate's `FilterType`, to which it is mapped by name
(png.rs:57-67). -/
inductive PngFilterType | NoFilter | Sub | Up | Avg | Paeth
deriving DecidableEq, Repr

/-- png.rs:85-90 `PngCompression`; also the `png` crate's `Compression` (png.rs:92-100). -/
inductive PngCompression | Default | Fast | Best
deriving DecidableEq, Repr

/-- jpeg.rs:14-64 `JpegSamplingFactor`; also the `jpeg_encoder` crate's `SamplingFactor`
(jpeg.rs:93-114). -/
inductive JpegSamplingFactor
  | F_1_1 | F_2_1 | F_1_2 | F_2_2 | F_4_1 | F_4_2 | F_1_4 | F_2_4
  | R_4_4_4 | R_4_4_0 | R_4_4_1 | R_4_2_2 | R_4_2_0 | R_4_2_1 | R_4_1_1 | R_4_1_0
deriving DecidableEq, Repr

/-- bmp.rs:14-20 `BmpColorType` and ico.rs:14-20 `IcoColorType`. -/
inductive ImageColorType | L8 | La8 | Rgb8 | Rgba8
deriving DecidableEq, Repr

/-- webp.rs:22-31 `WebPPreset`. -/
inductive WebPPreset | Default | Picture | Photo | Drawing | Icon | Text | Lossless
deriving DecidableEq, Repr

/-- lib.rs:79-104 `EncodingFormat`. -/
inductive EncodingFormat
  | Jpeg (quality : Nat) (progressive : Bool) (sampling_factor : Option JpegSamplingFactor)
      (grayscale optimize_huffman_tables : Bool)
  | Png (color_type : PngColorType) (compression : PngCompression) (filter : PngFilterType)
  | Gif
  | Bmp (color_type : ImageColorType)
  | Ico (color_type : ImageColorType)
  | WebP (quality : Nat) (preset : WebPPreset)
deriving DecidableEq, Repr

namespace EncodingFormat

/-- lib.rs:107-116 `format`. -/
def format : EncodingFormat → Format
  | Jpeg .. => .Jpeg
  | Png .. => .Png
  | Gif => .Gif
  | Bmp .. => .Bmp
  | Ico .. => .Ico
  | WebP .. => .WebP

/-- lib.rs:118-126 `jpeg_default`. -/
def jpeg_default : EncodingFormat := .Jpeg 85 false none false true
/-- lib.rs:128-136 `jpeg_with_quality`. -/
def jpeg_with_quality (quality : Nat) : EncodingFormat := .Jpeg quality false none false true
/-- lib.rs:138-144 `png_default`. -/
def png_default : EncodingFormat := .Png .Rgba8 .Default .Sub
/-- lib.rs:146-148 `gif_default`. -/
def gif_default : EncodingFormat := .Gif
/-- lib.rs:150-154 `bmp_default`. -/
def bmp_default : EncodingFormat := .Bmp .Rgba8
/-- lib.rs:156-160 `ico_default`. -/
def ico_default : EncodingFormat := .Ico .Rgba8
/-- lib.rs:162-167 `webp_default`. -/
def webp_default : EncodingFormat := .WebP 90 .Default
/-- lib.rs:169-174 `webp_with_quality`. -/
def webp_with_quality (quality : Nat) : EncodingFormat := .WebP quality .Default
/-- lib.rs:176-178 `webp_with_preset`. -/
def webp_with_preset (quality : Nat) (preset : WebPPreset) : EncodingFormat := .WebP quality preset

end EncodingFormat

/-! ## The libraries -/

/-- `png::ColorType` -/
inductive PngColor | Grayscale | Rgb | Indexed | GrayscaleAlpha | Rgba
deriving DecidableEq, Repr

/-- `png::BitDepth` -/
inductive BitDepth | One | Two | Four | Eight | Sixteen
deriving DecidableEq, Repr

/-- What `png::Decoder::read_info` knows, and `next_frame` on a buffer of `n` bytes: it fills the
buffer or fails. `width` and `height` are `u32`. -/
structure PngReader where
  color_type : PngColor
  bits : BitDepth
  width : Nat
  height : Nat
  next_frame : (n : Nat) → Except DecodingError { l : List Nat // l.length = n }

/-- The arguments of the PNG encoder, png.rs:157-165. -/
structure PngImage where
  width : Nat
  height : Nat
  color : PngColor
  depth : BitDepth
  compression : PngCompression
  filter : PngFilterType
  data : List Nat

/-- `jpeg_decoder::PixelFormat` -/
inductive JpegPixelFormat | L8 | L16 | RGB24 | CMYK32
deriving DecidableEq, Repr

/-- `jpeg_decoder::ImageInfo`; `width` and `height` are `u16`. -/
structure JpegInfo where
  width : Nat
  height : Nat
  pixel_format : JpegPixelFormat

/-- The arguments of the JPEG encoder, jpeg.rs:148-162; `luma` is `ColorType::Luma`, otherwise
`ColorType::Rgb`. -/
structure JpegImage where
  quality : Nat
  sampling_factor : Option JpegSamplingFactor
  progressive : Bool
  optimized_huffman_tables : Bool
  data : List Nat
  width : Nat
  height : Nat
  luma : Bool

/-- `gif::Frame` as decoded with `ColorOutput::RGBA`, gif.rs:67-83; `u16` sizes. -/
structure GifFrame where
  buffer : List Nat
  width : Nat
  height : Nat

/-- The arguments of `Frame::from_rgba_speed`, gif.rs:41; the frame is then written. -/
structure GifImage where
  width : Nat
  height : Nat
  pixels : List Nat
  speed : Nat

/-- The samples of `image::DynamicImage`, one entry per pixel; `other` is every other variant. -/
inductive DynPixels (F : Type)
  | Rgb8 (l : List (Nat × Nat × Nat))
  | Rgba8 (l : List (Nat × Nat × Nat × Nat))
  | Rgb16 (l : List (Nat × Nat × Nat))
  | Rgba16 (l : List (Nat × Nat × Nat × Nat))
  | Luma8 (l : List Nat)
  | LumaA8 (l : List (Nat × Nat))
  | Luma16 (l : List Nat)
  | LumaA16 (l : List (Nat × Nat))
  | Rgb32F (l : List (F × F × F))
  | Rgba32F (l : List (F × F × F × F))
  | other (name : String)

/-- `image::DynamicImage` -/
structure DynamicImage (F : Type) where
  width : Nat
  height : Nat
  pixels : DynPixels F

/-- The arguments of the BMP and ICO encoders, bmp.rs:52-53 and ico.rs:52-53. -/
structure ImageImage where
  data : List Nat
  width : Nat
  height : Nat
  color_type : ImageColorType

/-- The arguments of the WebP encoder, webp.rs:137-178: the library's preset, or `none` for the
lossless one. `argb_stride` is equal to the width (webp.rs:174). -/
structure WebPImage where
  config : Option (WebPPreset × Nat)
  width : Int
  height : Int
  argb : List Nat

/-- `WebPDecodeRGBA`: the size, and the memory of `width * height * 4` bytes behind the returned
pointer (webp.rs:84); the sizes are C `int`s. -/
structure WebPDecoded where
  width : Nat
  height : Nat
  data : { l : List Nat // l.length = width * height * 4 }

/-- The external libraries. Decoders get the whole input from its first byte on. -/
structure Libs (F : Type) where
  png_read : List Nat → Except DecodingError PngReader
  png_write : PngImage → Written
  jpeg_read : List Nat → Except DecodingError (List Nat)
  jpeg_info : List Nat → Option JpegInfo
  jpeg_write : JpegImage → Written
  gif_read : List Nat → Except DecodingError (Option GifFrame)
  gif_write : GifImage → Written
  bmp_read : List Nat → Except DecodingError (DynamicImage F)
  bmp_write : ImageImage → Written
  ico_read : List Nat → Except DecodingError (DynamicImage F)
  ico_write : ImageImage → Written
  /-- `WebPGetInfo(..) == 0` means failure -/
  webp_info : List Nat → Bool
  /-- `none`: null pointer -/
  webp_read : List Nat → Option WebPDecoded
  /-- bytes given to the writer function, its error if any, and `WebPEncode(..) != 0`; the `Err`
  cases are a failed set-up of config (`false`) or picture (`true`) -/
  webp_write : WebPImage → Except Bool (List Nat × Option String × Bool)
  /-- byte order of the machine -/
  little : Bool

variable {F : Type} [Scalar F]

/-- A computation that may panic or return a decoding error. -/
abbrev Dec := ExceptT DecodingError R

/-- Lift a library result. -/
def Dec.of {α : Type} (e : Except DecodingError α) : Dec α := ExceptT.mk (.ok e)

/-- `data.chunks(n).map(f).collect()` -/
def perChunk {α : Type} (n : Nat) (data : List Nat) (f : List Nat → R α) : Dec (List α) :=
  liftM ((chunks n data).mapM f : R (List α))

/-! ## PNG -/

/-- png.rs:123-167 `encode_png`. -/
def encode_png [FloatBytes F] (libs : Libs F) (buffer : PixelBuffer (Col F)) (color_type : PngColorType)
    (compression : PngCompression) (filter : PngFilterType) : Written :=
  let (out, color_type, bit_depth) := match color_type with
    | .L8 => (to_l8_vec buffer, PngColor.Grayscale, BitDepth.Eight)
    | .La8 => (to_la8_vec buffer, .GrayscaleAlpha, .Eight)
    | .L16 => (to_l16_be_vec buffer, .Grayscale, .Sixteen)
    | .La16 => (to_la16_be_vec buffer, .GrayscaleAlpha, .Sixteen)
    | .Rgb8 => (to_rgb8_vec buffer, .Rgb, .Eight)
    | .Rgba8 => (to_rgba8_vec buffer, .Rgba, .Eight)
    | .Rgb16 => (to_rgb16_be_vec buffer, .Rgb, .Sixteen)
    | .Rgba16 => (to_rgba16_be_vec buffer, .Rgba, .Sixteen)
  libs.png_write ⟨buffer.width, buffer.height, color_type, bit_depth, compression, filter, out⟩

/-- png.rs:176-329 `decode_png`. -/
def decode_png (libs : Libs F) (input : List Nat) : Dec (PixelBuffer (Col F)) := do
  let reader ← Dec.of (libs.png_read input)
  let width := reader.width
  let height := reader.height
  if !is_valid_buffer_size width height then
    throw (.InvalidBufferSize width height)
  let num_pixel ← liftM (u32 (width * height))
  let raw : List (Col F) ← match reader.color_type, reader.bits with
    | .Rgba, .Eight => do
      let buffer ← Dec.of (reader.next_frame (num_pixel * 4))
      perChunk 4 buffer.1 fun chunks => do
        return Srgb.to_rgb (Srgb.new_with_alpha (from_u8 (← index chunks 0)) (from_u8 (← index chunks 1))
          (from_u8 (← index chunks 2)) (from_u8 (← index chunks 3)))
    | .Rgb, .Eight => do
      let buffer ← Dec.of (reader.next_frame (num_pixel * 3))
      perChunk 3 buffer.1 fun chunks => do
        return Srgb.to_rgb (Srgb.new (from_u8 (← index chunks 0)) (from_u8 (← index chunks 1))
          (from_u8 (← index chunks 2)))
    | .Grayscale, .Eight => do
      let buffer ← Dec.of (reader.next_frame num_pixel)
      pure (buffer.1.map fun v => Srgb.to_rgb (Srgb.new (from_u8 v) (from_u8 v) (from_u8 v)))
    | .GrayscaleAlpha, .Eight => do
      let buffer ← Dec.of (reader.next_frame (num_pixel * 2))
      perChunk 2 buffer.1 fun chunks => do
        return Srgb.to_rgb (Srgb.new_with_alpha (from_u8 (← index chunks 0)) (from_u8 (← index chunks 0))
          (from_u8 (← index chunks 0)) (from_u8 (← index chunks 1)))
    | .Rgba, .Sixteen => do
      let buffer ← Dec.of (reader.next_frame (num_pixel * 8))
      perChunk 8 buffer.1 fun chunks => do
        return Srgb.to_rgb (Srgb.new_with_alpha
          (from_u16_be (← index chunks 0) (← index chunks 1))
          (from_u16_be (← index chunks 2) (← index chunks 3))
          (from_u16_be (← index chunks 4) (← index chunks 5))
          (from_u16_be (← index chunks 6) (← index chunks 7)))
    | .Rgb, .Sixteen => do
      let buffer ← Dec.of (reader.next_frame (num_pixel * 6))
      perChunk 6 buffer.1 fun chunks => do
        return Srgb.to_rgb (Srgb.new
          (from_u16_be (← index chunks 0) (← index chunks 1))
          (from_u16_be (← index chunks 2) (← index chunks 3))
          (from_u16_be (← index chunks 4) (← index chunks 5)))
    | .Grayscale, .Sixteen => do
      let buffer ← Dec.of (reader.next_frame (num_pixel * 2))
      perChunk 2 buffer.1 fun chunks => do
        return Srgb.to_rgb (Srgb.new
          (from_u16_be (← index chunks 0) (← index chunks 1))
          (from_u16_be (← index chunks 0) (← index chunks 1))
          (from_u16_be (← index chunks 0) (← index chunks 1)))
    | .GrayscaleAlpha, .Sixteen => do
      let buffer ← Dec.of (reader.next_frame (num_pixel * 4))
      perChunk 4 buffer.1 fun chunks => do
        return Srgb.to_rgb (Srgb.new_with_alpha
          (from_u16_be (← index chunks 0) (← index chunks 1))
          (from_u16_be (← index chunks 0) (← index chunks 1))
          (from_u16_be (← index chunks 0) (← index chunks 1))
          (from_u16_be (← index chunks 2) (← index chunks 3)))
    | _, _ => throw (.Decoding "Unsupported png") -- the text also names the two
  liftM (PixelBuffer.new_from_raw width height raw)

/-! ## JPEG -/

/-- jpeg.rs:116-170 `encode_jpeg`. `width as u16` keeps the lower 16 bits. -/
def encode_jpeg (libs : Libs F) (buffer : PixelBuffer (Col F)) (quality : Nat) (progressive : Bool)
    (sampling_factor : Option JpegSamplingFactor) (grayscale optimize_huffman_tables : Bool) :
    Written :=
  let width := buffer.width
  let height := buffer.height
  if width > 65535 ∨ height > 65535 then
    ⟨[], .error (.BadDimensions "jpeg" width height)⟩
  else
    let (out, luma) := if grayscale then (to_l8_vec buffer, true) else (to_rgb8_vec buffer, false)
    let quality := max 1 (min 100 quality)
    libs.jpeg_write ⟨quality, sampling_factor, progressive, optimize_huffman_tables, out,
      width % 65536, height % 65536, luma⟩

/-- jpeg.rs:172-217 `decode_jpeg`. -/
def decode_jpeg (libs : Libs F) (input : List Nat) : Dec (PixelBuffer (Col F)) := do
  let data ← Dec.of (libs.jpeg_read input)
  match libs.jpeg_info input with
  | none => throw (.Decoding "Missing jpeg info")
  | some info =>
    let data : List (Col F) ← match info.pixel_format with
      | .L8 => pure (data.map fun v => Srgb.to_rgb (Srgb.new (from_u8 v) (from_u8 v) (from_u8 v)))
      | .L16 => perChunk 2 data fun chunks => do
        let v := from_u16_ne libs.little (← index chunks 0) (← index chunks 1)
        return Srgb.to_rgb (Srgb.new v v v)
      | .RGB24 => perChunk 3 data fun chunks => do
        return Srgb.to_rgb (Srgb.new (from_u8 (← index chunks 0)) (from_u8 (← index chunks 1))
          (from_u8 (← index chunks 2)))
      | .CMYK32 => perChunk 4 data fun chunks => do
        return cmyk_to_rgb (← index chunks 0) (← index chunks 1) (← index chunks 2) (← index chunks 3)
    liftM (PixelBuffer.new_from_raw info.width info.height data)

/-! ## GIF -/

/-- gif.rs:21-48 `encode_gif`. `Frame::from_rgba_speed` panics unless there are four bytes per
pixel. -/
def encode_gif (libs : Libs F) (buffer : PixelBuffer (Col F)) : R Written :=
  let width := buffer.width
  let height := buffer.height
  if width > 65535 ∨ height > 65535 then
    .ok ⟨[], .error (.BadDimensions "gif" width height)⟩
  else do
    let width := width % 65536
    let height := height % 65536
    let raw := to_rgba8_vec buffer
    assert (width * height * 4 = raw.length)
    return libs.gif_write ⟨width, height, raw, 10⟩

/-- gif.rs:57-95 `decode_gif`. -/
def decode_gif (libs : Libs F) (input : List Nat) : Dec (PixelBuffer (Col F)) := do
  match ← Dec.of (libs.gif_read input) with
  | some frame =>
    let data : List (Col F) ← perChunk 4 frame.buffer fun chunks => do
      return Srgb.to_rgb (Srgb.new_with_alpha (from_u8 (← index chunks 0)) (from_u8 (← index chunks 1))
        (from_u8 (← index chunks 2)) (from_u8 (← index chunks 3)))
    let width := frame.width
    let height := frame.height
    if !is_valid_buffer_size width height then
      throw (.InvalidBufferSize width height)
    liftM (PixelBuffer.new_from_raw width height data)
  | none => throw (.Decoding "No frame found")

/-! ## BMP and ICO -/

/-- utils.rs:158-308 `read_into_buffer`. The colours are built without `new`, that is, without
clamping before `to_rgb`. -/
def read_into_buffer (img : DynamicImage F) : Dec (PixelBuffer (Col F)) := do
  let width := img.width
  let height := img.height
  if !is_valid_buffer_size width height then
    throw (.InvalidBufferSize width height)
  let data : List (Col F) ← match img.pixels with
    | .Rgb8 l => pure (l.map fun p => Srgb.to_rgb
        ⟨lit (p.1 : ℚ) /. lit 255, lit (p.2.1 : ℚ) /. lit 255, lit (p.2.2 : ℚ) /. lit 255, lit 1⟩)
    | .Rgba8 l => pure (l.map fun p => Srgb.to_rgb
        ⟨lit (p.1 : ℚ) /. lit 255, lit (p.2.1 : ℚ) /. lit 255, lit (p.2.2.1 : ℚ) /. lit 255,
          lit (p.2.2.2 : ℚ) /. lit 255⟩)
    | .Rgb16 l => pure (l.map fun p => Srgb.to_rgb
        ⟨lit (p.1 : ℚ) /. lit 65535, lit (p.2.1 : ℚ) /. lit 65535, lit (p.2.2 : ℚ) /. lit 65535, lit 0⟩)
    | .Rgba16 l => pure (l.map fun p => Srgb.to_rgb
        ⟨lit (p.1 : ℚ) /. lit 65535, lit (p.2.1 : ℚ) /. lit 65535, lit (p.2.2.1 : ℚ) /. lit 65535,
          lit (p.2.2.2 : ℚ) /. lit 65535⟩)
    | .Luma8 l => pure (l.map fun (p : Nat) => Srgb.to_rgb
        ⟨lit (p : ℚ) /. lit 255, lit (p : ℚ) /. lit 255, lit (p : ℚ) /. lit 255, lit 1⟩)
    | .LumaA8 l => pure (l.map fun p => Srgb.to_rgb
        ⟨lit (p.1 : ℚ) /. lit 255, lit (p.1 : ℚ) /. lit 255, lit (p.1 : ℚ) /. lit 255,
          lit (p.2 : ℚ) /. lit 255⟩)
    | .Luma16 l => pure (l.map fun (p : Nat) => Srgb.to_rgb
        ⟨lit (p : ℚ) /. lit 65535, lit (p : ℚ) /. lit 65535, lit (p : ℚ) /. lit 65535, lit 1⟩)
    | .LumaA16 l => pure (l.map fun p => Srgb.to_rgb
        ⟨lit (p.1 : ℚ) /. lit 65535, lit (p.1 : ℚ) /. lit 65535, lit (p.1 : ℚ) /. lit 65535,
          lit (p.2 : ℚ) /. lit 65535⟩)
    | .Rgb32F l => pure (l.map fun p => Srgb.to_rgb ⟨p.1, p.2.1, p.2.2, lit 1⟩)
    | .Rgba32F l => pure (l.map fun p => Srgb.to_rgb ⟨p.1, p.2.1, p.2.2.1, p.2.2.2⟩)
    | .other name => throw (.Decoding ("Unsupported image format: " ++ name))
  liftM (PixelBuffer.new_from_raw width height data)

/-- The bytes chosen by bmp.rs:45-50 and ico.rs:45-50. -/
def imageBytes (buffer : PixelBuffer (Col F)) : ImageColorType → List Nat
  | .L8 => to_l8_vec buffer
  | .La8 => to_la8_vec buffer
  | .Rgb8 => to_rgb8_vec buffer
  | .Rgba8 => to_rgba8_vec buffer

/-- bmp.rs:37-62 `encode_bmp`. -/
def encode_bmp (libs : Libs F) (buffer : PixelBuffer (Col F)) (color_type : ImageColorType) : Written :=
  libs.bmp_write ⟨imageBytes buffer color_type, buffer.width, buffer.height, color_type⟩

/-- bmp.rs:64-79 `decode_bmp`. -/
def decode_bmp (libs : Libs F) (input : List Nat) : Dec (PixelBuffer (Col F)) := do
  read_into_buffer (← Dec.of (libs.bmp_read input))

/-- ico.rs:37-62 `encode_ico`. -/
def encode_ico (libs : Libs F) (buffer : PixelBuffer (Col F)) (color_type : ImageColorType) : Written :=
  libs.ico_write ⟨imageBytes buffer color_type, buffer.width, buffer.height, color_type⟩

/-- ico.rs:64-79 `decode_ico`. -/
def decode_ico (libs : Libs F) (input : List Nat) : Dec (PixelBuffer (Col F)) := do
  read_into_buffer (← Dec.of (libs.ico_read input))

/-! ## WebP -/

/-- webp.rs:51-101 `decode_webp`. The read loop collects the whole input. -/
def decode_webp (libs : Libs F) (input : List Nat) : Dec (PixelBuffer (Col F)) := do
  if !libs.webp_info input then
    throw (.Decoding "Bad webp file")
  match libs.webp_read input with
  | none => throw (.Decoding "Error decoding webp file")
  | some img =>
    liftM (PixelBuffer.new_from_func img.width img.height fun x y => do
      let offset := (x + y * img.width) * 4
      return Srgb.to_rgb (Srgb.new_with_alpha
        (from_u8 (← index img.data.1 offset)) (from_u8 (← index img.data.1 (offset + 1)))
        (from_u8 (← index img.data.1 (offset + 2))) (from_u8 (← index img.data.1 (offset + 3)))))

/-- webp.rs:128-194 `encode_webp`. `quality.clamp(0, 100)` is `min` for a `u8`. -/
def encode_webp (libs : Libs F) (buffer : PixelBuffer (Col F)) (quality : Nat) (preset : WebPPreset) :
    Written :=
  let quality := min 100 quality
  let config := match preset with
    | .Lossless => none
    | p => some (p, quality)
  match libs.webp_write ⟨config, asI32 buffer.width, asI32 buffer.height, to_argb8_vec32 buffer⟩ with
  | .error false => ⟨[], .error (.Encoding "Unable to init webp encoder config")⟩
  | .error true => ⟨[], .error (.Encoding "Unable to init webp picture config")⟩
  | .ok (bytes, none, res) =>
    ⟨bytes, if res then .ok () else .error (.Encoding "Error encoding webp file")⟩
  | .ok (bytes, some err, _) => ⟨bytes, .error (.IoError err)⟩

/-! ## Dispatch -/

/-- lib.rs:222-234 `decode`. -/
def decode (libs : Libs F) (input : List Nat) : Format → Dec (PixelBuffer (Col F))
  | .Jpeg => decode_jpeg libs input
  | .Png => decode_png libs input
  | .Gif => decode_gif libs input
  | .Bmp => decode_bmp libs input
  | .Ico => decode_ico libs input
  | .WebP => decode_webp libs input

/-- lib.rs:254-288 `encode`. -/
def encode [FloatBytes F] (libs : Libs F) (buffer : PixelBuffer (Col F)) : EncodingFormat → R Written
  | .Jpeg quality progressive sampling_factor grayscale optimize_huffman_tables =>
    .ok (encode_jpeg libs buffer quality progressive sampling_factor grayscale optimize_huffman_tables)
  | .Png color_type compression filter => .ok (encode_png libs buffer color_type compression filter)
  | .Gif => encode_gif libs buffer
  | .Bmp color_type => .ok (encode_bmp libs buffer color_type)
  | .Ico color_type => .ok (encode_ico libs buffer color_type)
  | .WebP quality preset => .ok (encode_webp libs buffer quality preset)

/-- lib.rs:55-76 `Format::from_reader`, on the bytes `buf[0..len]` the first `read` delivered. -/
def Format.sniff : List Nat → Except DecodingError Format
  | 0xFF :: 0xD8 :: 0xFF :: _ => .ok .Jpeg
  | 0x89 :: 0x50 :: 0x4E :: 0x47 :: 0x0D :: 0x0A :: 0x1A :: 0x0A :: _ => .ok .Png
  | 0x47 :: 0x49 :: 0x46 :: 0x38 :: 0x37 :: 0x61 :: _ => .ok .Gif
  | 0x47 :: 0x49 :: 0x46 :: 0x38 :: 0x39 :: 0x61 :: _ => .ok .Gif
  | 0x42 :: 0x4D :: _ => .ok .Bmp
  | 0x00 :: 0x00 :: 0x01 :: 0x00 :: _ => .ok .Ico
  | [0x52, 0x49, 0x46, 0x46, _, _, _, _, 0x57, 0x45, 0x42, 0x50] => .ok .WebP
  | _ => .error .UnknownFormat

/-- lib.rs:55-76 `Format::from_reader` on a reader whose first `read` fills the buffer as far as
the data reaches (true for `Cursor` and for `BufReader<File>` on regular files). -/
def Format.from_reader (data : List Nat) : Except DecodingError Format := Format.sniff (data.take 12)

/-- lib.rs:215-220 `decode_buffer`. -/
def decode_buffer (libs : Libs F) (buffer : List Nat) : Dec (PixelBuffer (Col F)) := do
  let format ← Dec.of (Format.from_reader buffer)
  decode libs buffer format

/-- The `codec` of jpeg_quality.rs:13-22: `encode` to a `Vec` (which never fails to be written), then
`decode_buffer`; `none` where one of the two `expect`s (or the decoder) panics. -/
def jpegCodec [FloatBytes F] (libs : Libs F) (buffer : PixelBuffer (Col F)) (quality : Nat) :
    Option (PixelBuffer (Col F)) :=
  match encode libs buffer (.jpeg_with_quality quality) with
  | .ok ⟨temp, .ok ()⟩ => match (decode_buffer libs temp).run with
    | .ok (.ok out) => some out
    | _ => none
  | _ => none

end D10
