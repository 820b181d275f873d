import Verif.SpecChain
import Verif.SpecEndToEnd

/-!
# Specification of the accuracy of a whole run of the command line (C129)
-/

namespace D10.Spec
variable [Libm b32] [Junk]

/-- A command that changes colours, what it does in exact arithmetic, by how much this may enlarge a difference,
and what rounding may add. `δ` is the accuracy of the platform's `powf`. -/
inductive ExactCommand (δ : ℝ) : Cmd F32 String → (Col ℝ → Col ℝ) → ℝ → ℝ → Prop
  | invert : ExactCommand δ .Invert (fun c => Rgb.invert c) 1 (1 / 2 ^ 25)
  | brightness (b : F32) : b.fin = true →
      ExactCommand δ (.Brightness b) (fun c => Rgb.with_brightness c b.val) 1 (1 / 2 ^ 24)
  | contrast (k : F32) : k.fin = true →
      ExactCommand δ (.Contrast k) (fun c => Rgb.with_contrast c k.val) (max 1 |(k.val : ℝ)|) ((|(k.val : ℝ)| + 4) / 2 ^ 25)
  | brightness_contrast (b k : F32) : b.fin = true → |b.val| ≤ 1 → k.fin = true →
      ExactCommand δ (.BrightnessContrast b k) (fun c => Rgb.with_brightness_contrast c b.val k.val)
        (max 1 |(k.val : ℝ)|) ((|(k.val : ℝ)| * 6 + 4) / 2 ^ 25)
  | to_gray (i : Intensity) : i ≠ .Saturation →
      ExactCommand δ (.ToGray i) (fun c => Rgb.to_gray_with_intensity c i) 1 (1 / 2 ^ 20)
  | gamma (g : F32) : g.fin = true → 1 / 2 ^ 100 ≤ g.val → g.val ≤ 1 →
      ExactCommand δ (.Gamma g) (fun c => Rgb.with_gamma c g.val) (1 / (g.val : ℝ)) (δ + 1 / 2 ^ 23)
  /-- Levels, with black and white points in the range of colours and at least `1 / 2 ^ m` apart. -/
  | level (b w g : F32) (m : ℕ) : b.fin = true → 0 ≤ b.val → b.val ≤ 1 → w.fin = true → 0 ≤ w.val → w.val ≤ 1 →
      m ≤ 12 → 1 / 2 ^ m ≤ |(w.val : ℝ) - b.val| → g.fin = true → 1 / 2 ^ 100 ≤ g.val → g.val ≤ 1 →
      ExactCommand δ (.Level b w g) (fun c => Rgb.with_level c b.val w.val g.val) (1 / (g.val : ℝ) * 2 ^ m)
        (1 / (g.val : ℝ) * ((4 ^ m + 3 * 2 ^ m) / 2 ^ 24) + (δ + 1 / 2 ^ 23))
  /-- Taking away saturation. -/
  | saturation (k : F32) : k.fin = true → 0 ≤ k.val → k.val ≤ 1 →
      ExactCommand δ (.Saturation k) (fun c => Rgb.with_saturation c k.val) 1 (2 / 32768 + 1 / 100000)
  /-- Turning the hue, by at most one turn. -/
  | hue_rotate (a : F32) : a.fin = true → -360 ≤ a.val → a.val ≤ 360 →
      ExactCommand δ (.HueRotate a) (fun c => Rgb.with_hue_rotate c a.val) 11 (12 / 32768)

/-- `words` are options that change colours and stand for `cmds`. Together they do `f` in exact arithmetic, enlarge
differences at most by the factor `L`, and rounding adds at most `η`. -/
inductive ExactOptions (number : String → Option F32) (δ : ℝ) :
    (words : List String) → (cmds : List (Cmd F32 String)) → (f : Col ℝ → Col ℝ) → (L η : ℝ) → Prop
  | nil : ExactOptions number δ [] [] (fun c => c) 1 0
  | cons (words cmd f L η rest cmds g M θ) : OptionMeans id number words cmd → ExactCommand δ cmd f L η →
      ExactOptions number δ rest cmds g M θ →
      ExactOptions number δ (words ++ rest) (cmd :: cmds) (fun c => g (f c)) (M * L) (M * η + θ)

/-- How far a stored byte may be off after changes that enlarge differences by `L` and add `η`. -/
noncomputable def byteError (δ L η : ℝ) : ℝ :=
  255 * (13 * (L * (δ + 1 / 1000000) + η) + 1.06 * δ + 1 / 200000) + 1 + 1 / 65536

end D10.Spec
