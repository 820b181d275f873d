import Verif.SpecConvert
import Verif.SpecFileKinds
import Verif.SpecFiles

/-!
# Specification of the accuracy of a run that writes any kind of file (C132)
-/

namespace D10.Spec

/-- How the library for this kind of file is called by a save that only has a name, with these samples. -/
def saving {F : Type} (libs : Libs F) (k : Format) (w h : Nat) (data : List Nat) : Written :=
  match k with
  | .Jpeg => libs.jpeg_write ⟨85, none, false, true, data, w, h, false⟩
  | .Png => libs.png_write ⟨w, h, .Rgba, .Eight, .Default, .Sub, data⟩
  | .Gif => libs.gif_write ⟨w, h, data, 10⟩
  | .Bmp => libs.bmp_write ⟨data, w, h, .Rgba8⟩
  | .Ico => libs.ico_write ⟨data, w, h, .Rgba8⟩
  | .WebP => webpOutcome (libs.webp_write ⟨some (.Default, 90), w, h, data⟩)

/-- The samples in what the library is given: bytes, or words for WebP. -/
def samplesFor (k : Format) (data : List Nat) : List Nat := if k = .WebP then wordSamples data else data

/-- JPEG files have three samples per pixel, the others four. -/
def savedAs (k : Format) : PngColorType := if k = .Jpeg then .Rgb8 else .Rgba8

/-- How the program ends after its last save. -/
def endOf : Except EncodingError Unit → Exit
  | .ok () => ⟨[], 0⟩
  | .error e => ⟨[e.display], 1⟩

end D10.Spec
