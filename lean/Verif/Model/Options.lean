import Verif.Model.Drawing
import Verif.Model.Filters
import Verif.Model.Tone
import Verif.Model.Histogram
import Verif.Model.Blend
import Verif.Model.Codecs

/-!
# Names of options

The `FromStr` implementations of d10-core, d10-ops and d10-codecs, and their error.
-/

namespace D10

/-- errors.rs:4-17 `ParseEnumError`. -/
structure ParseEnumError where
  input : String
  enum_type : String
deriving DecidableEq, Repr

/-- errors.rs:19-23 `Display for ParseEnumError`. -/
def ParseEnumError.display (e : ParseEnumError) : String :=
  "Unknown value for " ++ e.enum_type ++ ": " ++ e.input

/-- rgb.rs:20-38 -/
def Intensity.from_str : String → Except ParseEnumError Intensity
  | "average" => .ok .Average
  | "rec601luma" => .ok .Rec601Luma
  | "rec709luma" => .ok .Rec709Luma
  | "default" => .ok .Rec709Luma
  | "brightness" => .ok .Brightness
  | "lightness" => .ok .Lightness
  | "saturation" => .ok .Saturation
  | "red" => .ok .Red
  | "green" => .ok .Green
  | "blue" => .ok .Blue
  | s => .error ⟨s, "Intensity"⟩

/-- edge_detection.rs:14-24 -/
def EdgeDetection.from_str : String → Except ParseEnumError EdgeDetection
  | "sobel" => .ok .Sobel
  | "default" => .ok .Sobel
  | "laplace" => .ok .Laplace
  | value => .error ⟨value, "EdgeDetection"⟩

/-- drawing.rs:15-26 -/
def DrawingMode.from_str : String → Except ParseEnumError DrawingMode
  | "gray" => .ok .Gray
  | "colored" => .ok .Colored
  | "default" => .ok .Colored
  | "reduced_colors" => .ok .ReducedColors
  | value => .error ⟨value, "DrawingMode"⟩

/-- saturation.rs:15-27 -/
def SaturationMode.from_str : String → Except ParseEnumError SaturationMode
  | "hsl" => .ok .Hsl
  | "default" => .ok .Hsl
  | "hsv" => .ok .Hsv
  | "lch" => .ok .Lch
  | value => .error ⟨value, "SaturationMode"⟩

/-- balance_channels.rs:104-118 -/
def BalanceMode.from_str : String → Except ParseEnumError BalanceMode
  | "rgb" => .ok .Rgb
  | "srgb" => .ok .Srgb
  | "hsv" => .ok .Hsv
  | "hsl" => .ok .Hsl
  | "lch" => .ok .Lch
  | value => .error ⟨value, "BalanceMode"⟩

/-- filters.rs:17-31 -/
def FilterMode.from_str : String → Except ParseEnumError FilterMode
  | "nearest" => .ok .Nearest
  | "bilinear" => .ok .Bilinear
  | "bicubic" => .ok .Bicubic
  | "lanczos3" => .ok .Lanczos3
  | "Lanczos" => .ok .Lanczos3
  | "default" => .ok .Auto
  | "auto" => .ok .Auto
  | value => .error ⟨value, "FilterMode"⟩

/-- equalize.rs:15-29 -/
def EqualizeMode.from_str : String → Except ParseEnumError EqualizeMode
  | "rgb" => .ok .Rgb
  | "srgb" => .ok .Srgb
  | "saturation" => .ok .Saturation
  | "lightness" => .ok .Lightness
  | "saturation_lightness" => .ok .SaturationLightness
  | value => .error ⟨value, "EqualizeMode"⟩

/-- blend.rs:71-92 -/
def BlendOp.from_str : String → Except ParseEnumError BlendOp
  | "normal" => .ok .Normal
  | "addition" => .ok .Addition
  | "subtract" => .ok .Subtract
  | "darken" => .ok .Darken
  | "lighten" => .ok .Lighten
  | "hsl_darken" => .ok .HslDarken
  | "hsl_lighten" => .ok .HslLighten
  | "lch_darken" => .ok .LchDarken
  | "lch_lighten" => .ok .LchLighten
  | "lch_hue" => .ok .LchHue
  | "lch_saturation" => .ok .LchSaturation
  | "lch_color" => .ok .LchColor
  | value => .error ⟨value, "BlendOp"⟩

/-- png.rs:29-46 -/
def PngColorType.from_str : String → Except ParseEnumError PngColorType
  | "l8" => .ok .L8
  | "la8" => .ok .La8
  | "l16" => .ok .L16
  | "la16" => .ok .La16
  | "rgb8" => .ok .Rgb8
  | "rgba8" => .ok .Rgba8
  | "rgb16" => .ok .Rgb16
  | "rgba16" => .ok .Rgba16
  | value => .error ⟨value, "PngColorType"⟩

/-- png.rs:69-83 -/
def PngFilterType.from_str : String → Except ParseEnumError PngFilterType
  | "no_filter" => .ok .NoFilter
  | "sub" => .ok .Sub
  | "up" => .ok .Up
  | "avg" => .ok .Avg
  | "paeth" => .ok .Paeth
  | value => .error ⟨value, "PngFilterType"⟩

/-- png.rs:102-114 -/
def PngCompression.from_str : String → Except ParseEnumError PngCompression
  | "default" => .ok .Default
  | "fast" => .ok .Fast
  | "best" => .ok .Best
  | value => .error ⟨value, "PngCompression"⟩

/-- bmp.rs:22-35 -/
def BmpColorType.from_str : String → Except ParseEnumError ImageColorType
  | "l8" => .ok .L8
  | "la8" => .ok .La8
  | "rgb8" => .ok .Rgb8
  | "rgba8" => .ok .Rgba8
  | value => .error ⟨value, "BmpColorType"⟩

/-- ico.rs:22-35 -/
def IcoColorType.from_str : String → Except ParseEnumError ImageColorType
  | "l8" => .ok .L8
  | "la8" => .ok .La8
  | "rgb8" => .ok .Rgb8
  | "rgba8" => .ok .Rgba8
  | value => .error ⟨value, "IcoColorType"⟩

/-- jpeg.rs:66-91 -/
def JpegSamplingFactor.from_str : String → Except ParseEnumError JpegSamplingFactor
  | "1x1" => .ok .F_1_1
  | "1x2" => .ok .F_1_2
  | "2x1" => .ok .F_2_1
  | "2x2" => .ok .F_2_2
  | "4x1" => .ok .F_4_1
  | "4x2" => .ok .F_4_2
  | "1x4" => .ok .F_1_4
  | "2x4" => .ok .F_2_4
  | "4:4:4" => .ok .R_4_4_4
  | "4:4:0" => .ok .R_4_4_0
  | "4:4:1" => .ok .R_4_4_1
  | "4:2:2" => .ok .R_4_2_2
  | "4:2:0" => .ok .R_4_2_0
  | "4:2:1" => .ok .R_4_2_1
  | "4:1:1" => .ok .R_4_1_1
  | "4:1:0" => .ok .R_4_1_0
  | value => .error ⟨value, "JpegSamplingFactor"⟩

/-- webp.rs:33-49 -/
def WebPPreset.from_str : String → Except ParseEnumError WebPPreset
  | "default" => .ok .Default
  | "picture" => .ok .Picture
  | "photo" => .ok .Photo
  | "drawing" => .ok .Drawing
  | "icon" => .ok .Icon
  | "text" => .ok .Text
  | "lossless" => .ok .Lossless
  | value => .error ⟨value, "WebPPreset"⟩

end D10
