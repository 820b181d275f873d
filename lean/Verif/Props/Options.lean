import Verif.SpecOptions

/-! # C34: names of options -/

namespace D10
open Spec

/-- Proves that a parser follows its table. -/
local macro "parses" f:ident t:ident : tactic => `(tactic| (
  refine ⟨?_, ?_, ?_⟩
  · intro s v
    unfold $f
    split <;> first
      | (simp only [$t:ident]; constructor
         · intro h; cases h; simp
         · intro h; simp at h; rw [h])
      | (simp_all [$t:ident])
  · intro s e
    unfold $f
    split <;> first
      | (simp [$t:ident]; done)
      | (simp_all [$t:ident]; exact ⟨fun h => h.symm, fun h => h.symm⟩)
  · intro v
    cases v <;> simp [$t:ident]))

theorem C34_intensity : Parses Intensity.from_str "Intensity" intensities := by
  parses Intensity.from_str intensities
theorem C34_edge_detection : Parses EdgeDetection.from_str "EdgeDetection" edgeDetections := by
  parses EdgeDetection.from_str edgeDetections
theorem C34_drawing : Parses DrawingMode.from_str "DrawingMode" drawingModes := by
  parses DrawingMode.from_str drawingModes
theorem C34_saturation : Parses SaturationMode.from_str "SaturationMode" saturationModes := by
  parses SaturationMode.from_str saturationModes
theorem C34_balance : Parses BalanceMode.from_str "BalanceMode" balanceModes := by
  parses BalanceMode.from_str balanceModes
theorem C34_filter : Parses FilterMode.from_str "FilterMode" filterModes := by
  parses FilterMode.from_str filterModes
theorem C34_equalize : Parses EqualizeMode.from_str "EqualizeMode" equalizeModes := by
  parses EqualizeMode.from_str equalizeModes
theorem C34_blend : Parses BlendOp.from_str "BlendOp" blendOps := by
  parses BlendOp.from_str blendOps
theorem C34_png_color : Parses PngColorType.from_str "PngColorType" pngColorTypes := by
  parses PngColorType.from_str pngColorTypes
theorem C34_png_filter : Parses PngFilterType.from_str "PngFilterType" pngFilterTypes := by
  parses PngFilterType.from_str pngFilterTypes
theorem C34_png_compression : Parses PngCompression.from_str "PngCompression" pngCompressions := by
  parses PngCompression.from_str pngCompressions
theorem C34_bmp_color : Parses BmpColorType.from_str "BmpColorType" imageColorTypes := by
  parses BmpColorType.from_str imageColorTypes
theorem C34_ico_color : Parses IcoColorType.from_str "IcoColorType" imageColorTypes := by
  parses IcoColorType.from_str imageColorTypes
theorem C34_jpeg_sampling : Parses JpegSamplingFactor.from_str "JpegSamplingFactor" samplingFactors := by
  parses JpegSamplingFactor.from_str samplingFactors
theorem C34_webp_preset : Parses WebPPreset.from_str "WebPPreset" webpPresets := by
  parses WebPPreset.from_str webpPresets

/-- The message names the type and the value. -/
theorem C34_message (value type : String) :
    (ParseEnumError.mk value type).display = "Unknown value for " ++ type ++ ": " ++ value := rfl

/-- Names are case-sensitive: no table has a name that differs from another one only by case. -/
example : FilterMode.from_str "Nearest" = .error ⟨"Nearest", "FilterMode"⟩ := by decide

end D10
