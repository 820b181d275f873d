import Verif.SpecConvert
import Verif.SpecNoiseFloat

/-!
# Specification of the same command line run by two programs (C136)

The program with 32-bit numbers and the program with exact numbers get the same words.
-/

namespace D10.Spec

/-- The same command, with the numbers as exact ones. -/
noncomputable def exactCmd : Cmd F32 String → Cmd ℝ String
  | .Silent => .Silent
  | .Open path => .Open path
  | .Save path => .Save path
  | .ToGray i => .ToGray i
  | .Invert => .Invert
  | .Gamma g => .Gamma g.val
  | .Level b w g => .Level b.val w.val g.val
  | .Brightness b => .Brightness b.val
  | .Contrast k => .Contrast k.val
  | .BrightnessContrast b k => .BrightnessContrast b.val k.val
  | .Saturation s => .Saturation s.val
  | .StretchSaturation s => .StretchSaturation s.val
  | .Lightness l => .Lightness l.val
  | .HueRotate a => .HueRotate a.val
  | .Rotate a filter => .Rotate a.val filter
  | .RandomNoise a => .RandomNoise a.val
  | .SaltNPepperNoise t => .SaltNPepperNoise t.val
  | .RgbNoise t => .RgbNoise t.val

/-- The grammar of numbers of the exact program: a word stands for the same number. -/
noncomputable def exactNumber (number : String → Option F32) (word : String) : Option ℝ :=
  (number word).map fun v => (v.val : ℝ)

variable [Libm b32] [Junk]

/-- A command, by how much it may enlarge a difference between the two programs, and what it may add. `δ` is the
accuracy of the platform's `powf`, and `g` is the random generator of the first program. -/
inductive TrackedCommand {σ : Type} (δ : ℝ) (g : Rng σ F32) : Cmd F32 String → ℝ → ℝ → Prop
  | colour (cmd f L η) : ExactCommand δ cmd f L η → TrackedCommand δ g cmd L η
  | silent : TrackedCommand δ g .Silent 1 0
  | random_noise (a : F32) : a.fin = true → 0 ≤ a.val → a.val ≤ 1 → TrackedCommand δ g (.RandomNoise a) 1 (1 / 2 ^ 22)
  | rgb_noise (t : F32) : t.fin = true → TrackedCommand δ g (.RgbNoise t) 1 0
  /-- Salt and pepper, if no draw equals `1 - t` where that is rounded. -/
  | salt_n_pepper_noise (t : F32) : t.fin = true → 0 ≤ t.val → t.val ≤ 1 →
      (∀ s, (g.unit s).1.val = (Scalar.lit 1 -. t : F32).val → (Scalar.lit 1 -. t : F32).val = 1 - t.val) →
      TrackedCommand δ g (.SaltNPepperNoise t) 1 0

/-- `words` are options for such commands. Together they enlarge differences at most by the factor `L` and add `η`. -/
inductive TrackedOptions {σ : Type} (number : String → Option F32) (δ : ℝ) (g : Rng σ F32) :
    (words : List String) → (L η : ℝ) → Prop
  | nil : TrackedOptions number δ g [] 1 0
  | cons (words cmd L η rest M θ) : OptionMeans id number words cmd → TrackedCommand δ g cmd L η →
      TrackedOptions number δ g rest M θ → TrackedOptions number δ g (words ++ rest) (M * L) (M * η + θ)

/-- How far a stored byte may be off if the pictures read are at most `ε` apart. -/
noncomputable def lineError (δ ε L η : ℝ) : ℝ := 255 * (13 * (L * ε + η) + 1.06 * δ + 1 / 200000) + 1 + 1 / 65536

end D10.Spec
