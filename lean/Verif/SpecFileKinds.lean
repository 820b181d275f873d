import Verif.SpecChain
import Verif.SpecCodecs

/-!
# Specification of the accuracy of every kind of file (C131)
-/

namespace D10.Spec

/-- Bytes taken in pairs, high byte first. -/
def pairUp : List Nat → List Nat
  | a :: b :: l => (a * 256 + b) :: pairUp l
  | _ => []

/-- The samples in the data of a file of this kind. -/
def storedSamples (ct : PngColorType) (data : List Nat) : List Nat :=
  if sampleSize ct = 1 then data else pairUp data

/-- The samples of a WebP picture: alpha, red, green and blue of every word. -/
def wordSamples (l : List Nat) : List Nat :=
  l.flatMap fun v => [v / 2 ^ 24, v / 2 ^ 16 % 256, v / 2 ^ 8 % 256, v % 256]

/-- What a WebP encoder reports, from the answer of the library. -/
def webpOutcome : Except Bool (List Nat × Option String × Bool) → Written
  | .error false => ⟨[], .error (.Encoding "Unable to init webp encoder config")⟩
  | .error true => ⟨[], .error (.Encoding "Unable to init webp picture config")⟩
  | .ok (bytes, some err, _) => ⟨bytes, .error (.IoError err)⟩
  | .ok (bytes, none, false) => ⟨bytes, .error (.Encoding "Error encoding webp file")⟩
  | .ok (bytes, none, true) => ⟨bytes, .ok ()⟩

/-- What making a pixel gray may add to the error. -/
noncomputable def grayCost : PngColorType → ℝ
  | .L8 | .La8 | .L16 | .La16 => 1 / 1048576
  | .Rgb8 | .Rgba8 | .Rgb16 | .Rgba16 => 0

/-- How far a stored sample may be off in a file of this kind if the channels of the picture are off by at most `ε`
and the platform's `powf` by `δ`: the samples go up to 255 or 65535, and cutting off the fraction costs one. -/
noncomputable def storedError (ct : PngColorType) (ε δ : ℝ) : ℝ :=
  if sampleSize ct = 1 then 255 * (13 * (ε + grayCost ct) + 1.06 * δ + 1 / 200000) + 1 + 1 / 65536
  else 65535 * (13 * (ε + grayCost ct) + 1.06 * δ + 1 / 200000) + 1 + 1 / 256

/-- Both libraries give the same samples, each within its range. The kinds that hold 32-bit numbers are left out, since
neither BMP nor ICO files have them, and so is 16-bit RGB (C52). -/
inductive SamePixels : DynPixels F32 → DynPixels ℝ → Prop
  | rgb8 (l) : (∀ p ∈ l, p.1 ≤ 255 ∧ p.2.1 ≤ 255 ∧ p.2.2 ≤ 255) → SamePixels (.Rgb8 l) (.Rgb8 l)
  | rgba8 (l) : (∀ p ∈ l, p.1 ≤ 255 ∧ p.2.1 ≤ 255 ∧ p.2.2.1 ≤ 255 ∧ p.2.2.2 ≤ 255) → SamePixels (.Rgba8 l) (.Rgba8 l)
  | rgba16 (l) : (∀ p ∈ l, p.1 ≤ 65535 ∧ p.2.1 ≤ 65535 ∧ p.2.2.1 ≤ 65535 ∧ p.2.2.2 ≤ 65535) →
      SamePixels (.Rgba16 l) (.Rgba16 l)
  | luma8 (l) : (∀ p ∈ l, p ≤ 255) → SamePixels (.Luma8 l) (.Luma8 l)
  | lumaA8 (l) : (∀ p ∈ l, p.1 ≤ 255 ∧ p.2 ≤ 255) → SamePixels (.LumaA8 l) (.LumaA8 l)
  | luma16 (l) : (∀ p ∈ l, p ≤ 65535) → SamePixels (.Luma16 l) (.Luma16 l)
  | lumaA16 (l) : (∀ p ∈ l, p.1 ≤ 65535 ∧ p.2 ≤ 65535) → SamePixels (.LumaA16 l) (.LumaA16 l)

/-- The same picture of the `image` crate on both sides, with as many pixels as its size says. -/
structure SameImage (img : DynamicImage F32) (img' : DynamicImage ℝ) : Prop where
  width : img'.width = img.width
  height : img'.height = img.height
  pixels : SamePixels img.pixels img'.pixels
  count : dynCount img.pixels = some (img.width * img.height)

end D10.Spec
