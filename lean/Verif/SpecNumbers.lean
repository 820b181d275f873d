import Verif.SpecRange
import Verif.SpecAccuracy

/-!
# Specification of pictures that hold numbers only

`UnitCol` (C26): all four channels are finite and between 0 and 1. "Not a number" and the infinities are
excluded, which `InRange` of C23 and C118 allows.
-/

namespace D10.Spec

/-- Every pixel of the image, and the background colour if there is one, holds finite numbers between 0
and 1. -/
def ImageOfNumbers (img : Image F32) : Prop :=
  (∀ c ∈ img.data, UnitCol c) ∧ ∀ c, img.bg_color = some c → UnitCol c

/-- `powf` of the platform gives a number for every base that is not negative and every exponent, as
IEEE 754 asks of `pow`. -/
def PowGivesNumbers [Libm b32] : Prop :=
  ∀ x y : F32, x ≠ .nan → (x <. Scalar.lit 0) = false → y ≠ .nan → Scalar.powf x y ≠ .nan

/-- `sin` and `cos` of the platform give numbers between -1 and 1 for all finite numbers. -/
def SinCosInUnit [Libm b32] : Prop :=
  ∀ x : F32, x.fin = true →
    ((Scalar.sin x).fin = true ∧ |(Scalar.sin x).val| ≤ 1) ∧ (Scalar.cos x).fin = true ∧ |(Scalar.cos x).val| ≤ 1

/-- `sqrt` of the platform gives a number for every number that is not negative. -/
def SqrtGivesNumbers [Libm b32] : Prop :=
  ∀ x : F32, x ≠ .nan → (x <. Scalar.lit 0) = false → Scalar.sqrt x ≠ .nan

/-- The generator draws numbers between -1 and 1 where it is asked for them. -/
def DrawsNumbers {σ : Type} (g : Rng σ F32) : Prop :=
  ∀ s, (g.symmetric s).1.fin = true ∧ |(g.symmetric s).1.val| ≤ 1

/-- The kinds of blending that hold numbers for the intensity: any finite one for those that mix the channels,
one between 0 and 1 for those that mix the lightness of HSL. The kinds that work in LCh are left out. -/
def TameBlend : BlendOp → F32 → Prop
  | .Normal, i | .Addition, i | .Subtract, i | .Darken, i | .Lighten, i => i.fin = true
  | .HslDarken, i | .HslLighten, i => i.fin = true ∧ 0 ≤ i.val ∧ i.val ≤ 1
  | .LchDarken, _ | .LchLighten, _ | .LchHue, _ | .LchSaturation, _ | .LchColor, _ => False

/-- The pixels that a library hands over as floats, if any, are numbers. -/
def FloatPixelsAreNumbers (img : DynamicImage F32) : Prop :=
  (∀ l, img.pixels = .Rgb32F l → ∀ p ∈ l, p.1 ≠ .nan ∧ p.2.1 ≠ .nan ∧ p.2.2 ≠ .nan) ∧
  ∀ l, img.pixels = .Rgba32F l → ∀ p ∈ l, p.1 ≠ .nan ∧ p.2.1 ≠ .nan ∧ p.2.2.1 ≠ .nan ∧ p.2.2.2 ≠ .nan

/-- The libraries for BMP and ICO never hand over "not a number", and what the JPEG library hands over are
bytes. -/
def LibsGiveNumbers (libs : Libs F32) : Prop :=
  (∀ bytes img, libs.bmp_read bytes = .ok img ∨ libs.ico_read bytes = .ok img → FloatPixelsAreNumbers img) ∧
  ∀ bytes data, libs.jpeg_read bytes = .ok data → ∀ v ∈ data, v < 256

/-- All numbers among the arguments of the command are finite. -/
def FiniteCommand {P : Type} : Cmd F32 P → Prop
  | .Gamma p | .Brightness p | .Contrast p | .Saturation p | .StretchSaturation p | .Lightness p
  | .HueRotate p | .Rotate p _ | .RandomNoise p | .SaltNPepperNoise p | .RgbNoise p => p.fin = true
  | .Level p q r => p.fin = true ∧ q.fin = true ∧ r.fin = true
  | .BrightnessContrast p q => p.fin = true ∧ q.fin = true
  | .Silent | .Open _ | .Save _ | .ToGray _ | .Invert => True

end D10.Spec
