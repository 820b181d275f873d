import Verif.Spec
import Verif.Model.Codecs

/-!
# Specification of pixel serialisation (C50 - C53, C58, C77)

`Layout w h n data per` says where the samples of a `w x h` picture are in a list: row by row, `n`
entries for every pixel, entry `k` of the pixel at column `x`, row `y` is the `k`-th of `per x y`.
`sampleBytes` lists, for every kind of file, the bytes of one pixel.
-/

namespace D10.Spec
open Scalar (lit)

/-- The entries of a picture, row by row. -/
structure Layout (w h n : Nat) (data : List Nat) (per : Nat → Nat → List Nat) : Prop where
  length : data.length = w * h * n
  entry : ∀ x y k, x < w → y < h → k < n → data[(y * w + x) * n + k]? = (per x y)[k]?

variable {F : Type} [Scalar F]

/-- The gray value of a colour in sRGB. -/
def grayLevel (c : Col F) : F := (Rgb.to_srgb (Rgb.to_gray c)).c0

/-- A 16-bit sample, high byte first. -/
def bigEndian (v : Nat) : List Nat := [v / 256, v % 256]

/-- Bytes of a pixel. 8-bit gray, gray and alpha, RGB, RGB and alpha; then the 16-bit ones. All
channels except alpha are those of sRGB. -/
def sampleBytes (c : Col F) : PngColorType → List Nat
  | .L8 => [as_u8 (grayLevel c)]
  | .La8 => [as_u8 (grayLevel c), as_u8 (Rgb.to_srgb (Rgb.to_gray c)).alpha]
  | .Rgb8 => [as_u8 (Rgb.to_srgb c).c0, as_u8 (Rgb.to_srgb c).c1, as_u8 (Rgb.to_srgb c).c2]
  | .Rgba8 => [as_u8 (Rgb.to_srgb c).c0, as_u8 (Rgb.to_srgb c).c1, as_u8 (Rgb.to_srgb c).c2,
      as_u8 (Rgb.to_srgb c).alpha]
  | .L16 => bigEndian (as_u16 (grayLevel c))
  | .La16 => bigEndian (as_u16 (grayLevel c)) ++ bigEndian (as_u16 (Rgb.to_srgb (Rgb.to_gray c)).alpha)
  | .Rgb16 => bigEndian (as_u16 (Rgb.to_srgb c).c0) ++ bigEndian (as_u16 (Rgb.to_srgb c).c1) ++
      bigEndian (as_u16 (Rgb.to_srgb c).c2)
  | .Rgba16 => bigEndian (as_u16 (Rgb.to_srgb c).c0) ++ bigEndian (as_u16 (Rgb.to_srgb c).c1) ++
      bigEndian (as_u16 (Rgb.to_srgb c).c2) ++ bigEndian (as_u16 (Rgb.to_srgb c).alpha)

/-- Number of channels. -/
def channels : PngColorType → Nat
  | .L8 | .L16 => 1
  | .La8 | .La16 => 2
  | .Rgb8 | .Rgb16 => 3
  | .Rgba8 | .Rgba16 => 4

/-- Number of bytes of one sample. -/
def sampleSize : PngColorType → Nat
  | .L8 | .La8 | .Rgb8 | .Rgba8 => 1
  | .L16 | .La16 | .Rgb16 | .Rgba16 => 2

/-- The name the PNG library has for the channels. -/
def pngColor : PngColorType → PngColor
  | .L8 | .L16 => .Grayscale
  | .La8 | .La16 => .GrayscaleAlpha
  | .Rgb8 | .Rgb16 => .Rgb
  | .Rgba8 | .Rgba16 => .Rgba

/-- The name the PNG library has for the sample size. -/
def pngDepth (ct : PngColorType) : BitDepth := if sampleSize ct = 1 then .Eight else .Sixteen

/-- The value of 8-bit sample `k` of a pixel with these bytes. -/
def sample8 (d : Nat → Nat) (k : Nat) : F := lit (d k : ℚ) /. lit 255

/-- The value of 16-bit sample `k`, high byte first. -/
def sample16 (d : Nat → Nat) (k : Nat) : F := lit ((d (2 * k) * 256 + d (2 * k + 1) : Nat) : ℚ) /. lit 65535

/-- The colour of a pixel with the bytes `d 0`, `d 1`, ...: the samples are sRGB, a missing alpha
means opaque, one colour sample means gray. -/
def colourOf (d : Nat → Nat) : PngColorType → Col F
  | .L8 => Srgb.to_rgb (Srgb.new (sample8 d 0) (sample8 d 0) (sample8 d 0))
  | .La8 => Srgb.to_rgb (Srgb.new_with_alpha (sample8 d 0) (sample8 d 0) (sample8 d 0) (sample8 d 1))
  | .Rgb8 => Srgb.to_rgb (Srgb.new (sample8 d 0) (sample8 d 1) (sample8 d 2))
  | .Rgba8 => Srgb.to_rgb (Srgb.new_with_alpha (sample8 d 0) (sample8 d 1) (sample8 d 2) (sample8 d 3))
  | .L16 => Srgb.to_rgb (Srgb.new (sample16 d 0) (sample16 d 0) (sample16 d 0))
  | .La16 => Srgb.to_rgb (Srgb.new_with_alpha (sample16 d 0) (sample16 d 0) (sample16 d 0) (sample16 d 1))
  | .Rgb16 => Srgb.to_rgb (Srgb.new (sample16 d 0) (sample16 d 1) (sample16 d 2))
  | .Rgba16 => Srgb.to_rgb (Srgb.new_with_alpha (sample16 d 0) (sample16 d 1) (sample16 d 2) (sample16 d 3))

/-- The bytes of the pixel at column `x`, row `y`. -/
def bytesAt (data : List Nat) (w n x y : Nat) (k : Nat) : Nat := data.getD ((y * w + x) * n + k) 0

/-- Numbers of bytes per pixel in the output of the JPEG library. -/
def jpegSize : JpegPixelFormat → Nat
  | .L8 => 1 | .L16 => 2 | .RGB24 => 3 | .CMYK32 => 4

/-- Number of pixels of the image type of the `image` crate; `none` for unsupported types. -/
def dynCount {F : Type} : DynPixels F → Option Nat
  | .Rgb8 l => some l.length
  | .Rgba8 l => some l.length
  | .Rgb16 l => some l.length
  | .Rgba16 l => some l.length
  | .Luma8 l => some l.length
  | .LumaA8 l => some l.length
  | .Luma16 l => some l.length
  | .LumaA16 l => some l.length
  | .Rgb32F l => some l.length
  | .Rgba32F l => some l.length
  | .other _ => none

/-- A sample of `0..m`. -/
def sampleLevel (m : ℚ) (v : Nat) : F := lit (v : ℚ) /. lit m

/-- The sRGB colour of pixel number `i` (row by row) of an image of the `image` crate: integer
samples are relative to the largest one, a missing alpha means opaque, one colour sample means
gray. -/
def dynAt : DynPixels F → Nat → Option (Col F)
  | .Rgb8 l, i => l[i]?.map fun (r, g, b) => ⟨sampleLevel 255 r, sampleLevel 255 g, sampleLevel 255 b, lit 1⟩
  | .Rgba8 l, i => l[i]?.map fun (r, g, b, a) =>
      ⟨sampleLevel 255 r, sampleLevel 255 g, sampleLevel 255 b, sampleLevel 255 a⟩
  | .Rgb16 l, i => l[i]?.map fun (r, g, b) => ⟨sampleLevel 65535 r, sampleLevel 65535 g, sampleLevel 65535 b, lit 1⟩
  | .Rgba16 l, i => l[i]?.map fun (r, g, b, a) =>
      ⟨sampleLevel 65535 r, sampleLevel 65535 g, sampleLevel 65535 b, sampleLevel 65535 a⟩
  | .Luma8 l, i => l[i]?.map fun v => ⟨sampleLevel 255 v, sampleLevel 255 v, sampleLevel 255 v, lit 1⟩
  | .LumaA8 l, i => l[i]?.map fun (v, a) => ⟨sampleLevel 255 v, sampleLevel 255 v, sampleLevel 255 v, sampleLevel 255 a⟩
  | .Luma16 l, i => l[i]?.map fun v => ⟨sampleLevel 65535 v, sampleLevel 65535 v, sampleLevel 65535 v, lit 1⟩
  | .LumaA16 l, i => l[i]?.map fun (v, a) =>
      ⟨sampleLevel 65535 v, sampleLevel 65535 v, sampleLevel 65535 v, sampleLevel 65535 a⟩
  | .Rgb32F l, i => l[i]?.map fun (r, g, b) => ⟨r, g, b, lit 1⟩
  | .Rgba32F l, i => l[i]?.map fun (r, g, b, a) => ⟨r, g, b, a⟩
  | .other _, _ => none

/-- Contracts of the libraries' documentation that their types do not express: the data has the
announced size. -/
structure Honest {F : Type} (libs : Libs F) : Prop where
  jpeg : ∀ input data info, libs.jpeg_read input = .ok data → libs.jpeg_info input = some info →
    data.length = info.width * info.height * jpegSize info.pixel_format
  gif : ∀ input frame, libs.gif_read input = .ok (some frame) →
    frame.buffer.length = frame.width * frame.height * 4
  bmp : ∀ input img n, libs.bmp_read input = .ok img → dynCount img.pixels = some n →
    n = img.width * img.height
  ico : ∀ input img n, libs.ico_read input = .ok img → dynCount img.pixels = some n →
    n = img.width * img.height
  /-- the sizes of the WebP format -/
  webp : ∀ input img, libs.webp_read input = some img →
    0 < img.width ∧ img.width ≤ 16383 ∧ 0 < img.height ∧ img.height ≤ 16383

/-- The file holds no transparency. -/
def NoAlpha {F : Type} (libs : Libs F) (input : List Nat) : Format → Prop
  | .Jpeg => True
  | .Png => ∃ rd, libs.png_read input = .ok rd ∧ (rd.color_type = .Grayscale ∨ rd.color_type = .Rgb)
  | .Bmp => ∃ img, libs.bmp_read input = .ok img ∧ plain img.pixels
  | .Ico => ∃ img, libs.ico_read input = .ok img ∧ plain img.pixels
  | .Gif | .WebP => False
where
  /-- Image types without alpha, except 16-bit RGB. -/
  plain : DynPixels F → Prop
    | .Rgb8 _ | .Luma8 _ | .Luma16 _ | .Rgb32F _ => True
    | _ => False

end D10.Spec
