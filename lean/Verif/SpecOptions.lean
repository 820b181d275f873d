import Verif.Model.Options

/-! # Specification of option names (C34): one table for every kind of option -/

namespace D10.Spec

def intensities : List (String × Intensity) :=
  [("average", .Average), ("rec601luma", .Rec601Luma), ("rec709luma", .Rec709Luma),
   ("default", .Rec709Luma), ("brightness", .Brightness), ("lightness", .Lightness),
   ("saturation", .Saturation), ("red", .Red), ("green", .Green), ("blue", .Blue)]

def edgeDetections : List (String × EdgeDetection) :=
  [("sobel", .Sobel), ("default", .Sobel), ("laplace", .Laplace)]

def drawingModes : List (String × DrawingMode) :=
  [("gray", .Gray), ("colored", .Colored), ("default", .Colored), ("reduced_colors", .ReducedColors)]

def saturationModes : List (String × SaturationMode) :=
  [("hsl", .Hsl), ("default", .Hsl), ("hsv", .Hsv), ("lch", .Lch)]

def balanceModes : List (String × BalanceMode) :=
  [("rgb", .Rgb), ("srgb", .Srgb), ("hsv", .Hsv), ("hsl", .Hsl), ("lch", .Lch)]

def filterModes : List (String × FilterMode) :=
  [("nearest", .Nearest), ("bilinear", .Bilinear), ("bicubic", .Bicubic), ("lanczos3", .Lanczos3),
   ("Lanczos", .Lanczos3), ("default", .Auto), ("auto", .Auto)]

def equalizeModes : List (String × EqualizeMode) :=
  [("rgb", .Rgb), ("srgb", .Srgb), ("saturation", .Saturation), ("lightness", .Lightness),
   ("saturation_lightness", .SaturationLightness)]

def blendOps : List (String × BlendOp) :=
  [("normal", .Normal), ("addition", .Addition), ("subtract", .Subtract), ("darken", .Darken),
   ("lighten", .Lighten), ("hsl_darken", .HslDarken), ("hsl_lighten", .HslLighten),
   ("lch_darken", .LchDarken), ("lch_lighten", .LchLighten), ("lch_hue", .LchHue),
   ("lch_saturation", .LchSaturation), ("lch_color", .LchColor)]

def pngColorTypes : List (String × PngColorType) :=
  [("l8", .L8), ("la8", .La8), ("l16", .L16), ("la16", .La16), ("rgb8", .Rgb8), ("rgba8", .Rgba8),
   ("rgb16", .Rgb16), ("rgba16", .Rgba16)]

def pngFilterTypes : List (String × PngFilterType) :=
  [("no_filter", .NoFilter), ("sub", .Sub), ("up", .Up), ("avg", .Avg), ("paeth", .Paeth)]

def pngCompressions : List (String × PngCompression) :=
  [("default", .Default), ("fast", .Fast), ("best", .Best)]

def imageColorTypes : List (String × ImageColorType) :=
  [("l8", .L8), ("la8", .La8), ("rgb8", .Rgb8), ("rgba8", .Rgba8)]

def samplingFactors : List (String × JpegSamplingFactor) :=
  [("1x1", .F_1_1), ("1x2", .F_1_2), ("2x1", .F_2_1), ("2x2", .F_2_2), ("4x1", .F_4_1),
   ("4x2", .F_4_2), ("1x4", .F_1_4), ("2x4", .F_2_4), ("4:4:4", .R_4_4_4), ("4:4:0", .R_4_4_0),
   ("4:4:1", .R_4_4_1), ("4:2:2", .R_4_2_2), ("4:2:0", .R_4_2_0), ("4:2:1", .R_4_2_1),
   ("4:1:1", .R_4_1_1), ("4:1:0", .R_4_1_0)]

def webpPresets : List (String × WebPPreset) :=
  [("default", .Default), ("picture", .Picture), ("photo", .Photo), ("drawing", .Drawing),
   ("icon", .Icon), ("text", .Text), ("lossless", .Lossless)]

/-- A parser accepts exactly the names of the table, each as its variant, and rejects every other
string with an error that holds the string and the name of the type; every variant has a name. -/
structure Parses {α : Type} (parse : String → Except ParseEnumError α) (type : String)
    (table : List (String × α)) : Prop where
  accepts : ∀ s v, parse s = .ok v ↔ (s, v) ∈ table
  rejects : ∀ s e, parse s = .error e ↔ s ∉ table.map Prod.fst ∧ e = ⟨s, type⟩
  named : ∀ v, ∃ s, (s, v) ∈ table

end D10.Spec
