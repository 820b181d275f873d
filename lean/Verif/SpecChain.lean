import Verif.SpecStoredBytes
import Verif.SpecBlur
import Verif.Model.Image

/-!
# Specification of the same program run twice: with 32-bit and with exact numbers (C127)

`SameSteps δ ε a b` says that the image `a` of a program using 32-bit numbers and the image `b` of the same
program using real numbers were made by the same calls with the same arguments; `ε` counts up what the calls may
cost. A call that returns an image multiplies the distance there was before by a factor that belongs to the
operation (how much the formula itself enlarges differences) and adds the rounding error of one call.
-/

namespace D10.Spec
variable [Libm b32] [Junk]

/-- The function `f` on 32-bit colours does what `g` does on exact ones: both stay in range, and colours at most
`t` apart become colours at most `L t + η` apart. -/
structure Follows (L η : ℝ) (f : Col F32 → Col F32) (g : Col ℝ → Col ℝ) : Prop where
  range : ∀ c, UnitCol c → UnitCol (f c)
  range_exact : ∀ d, UnitReal d → UnitReal (g d)
  close : ∀ t c d, UnitCol c → UnitReal d → CloseCol t c d → CloseCol (L * t + η) (f c) (g d)

/-- The two pictures have the same size, are in range, and no channel of any pixel differs by more than `ε`. -/
structure Alike (ε : ℝ) (a : PixelBuffer (Col F32)) (b : PixelBuffer (Col ℝ)) : Prop where
  same : ∃ w h px ex, Shows a w h px ∧ Shows b w h ex ∧ ∀ x y, x < w → y < h →
    UnitCol (px x y) ∧ UnitReal (ex x y) ∧ CloseCol ε (px x y) (ex x y)

/-- What sharpening with radius `r` may add per unit of the factor, if `exp` is within `δ`. -/
noncomputable def sharpenCost (δ : ℝ) (r : Nat) : ℝ :=
  ((2 * r + 1) * (2 * r + 1) : ℕ) * (2 * δ + 42 / 16777216)

/-- The same calls on both sides. `δ` is the accuracy of the platform's `exp`. -/
inductive SameSteps (δ : ℝ) : ℝ → Image F32 → Image ℝ → Prop
  /-- Any two images that are alike; both may be made by the program or read from a file. -/
  | start (ε) (a : Image F32) (b : Image ℝ) : Alike ε a.buffer b.buffer → SameSteps δ ε a b
  | more (ε ε') (a b) : SameSteps δ ε a b → ε ≤ ε' → SameSteps δ ε' a b
  | mod_colors (ε L η) (a : Image F32) (b : Image ℝ) (f g) : SameSteps δ ε a b → Follows L η f g →
      SameSteps δ (L * ε + η) (a.mod_colors f) (b.mod_colors g)
  | map_colors (ε L η) (a : Image F32) (b : Image ℝ) (f g) : SameSteps δ ε a b → Follows L η f g →
      SameSteps δ (L * ε + η) (a.map_colors (m := Id) f) (b.map_colors (m := Id) g)
  | put_pixel (ε) (a : Image F32) (b : Image ℝ) (x y c d) (a' b') : SameSteps δ ε a b → UnitCol c → UnitReal d →
      CloseCol ε c d → a.put_pixel x y c = .ok a' → b.put_pixel x y d = .ok b' → SameSteps δ ε a' b'
  | crop (ε) (a : Image F32) (b : Image ℝ) (x y w h) (a' b') : SameSteps δ ε a b →
      a.crop x y w h = .ok a' → b.crop x y w h = .ok b' → SameSteps δ ε a' b'
  | flip_horizontal (ε) (a : Image F32) (b : Image ℝ) (a' b') : SameSteps δ ε a b →
      a.flip_horizontal = .ok a' → b.flip_horizontal = .ok b' → SameSteps δ ε a' b'
  | flip_vertical (ε) (a : Image F32) (b : Image ℝ) (a' b') : SameSteps δ ε a b →
      a.flip_vertical = .ok a' → b.flip_vertical = .ok b' → SameSteps δ ε a' b'
  | rotate90 (ε) (a : Image F32) (b : Image ℝ) (a' b') : SameSteps δ ε a b →
      a.rotate90 = .ok a' → b.rotate90 = .ok b' → SameSteps δ ε a' b'
  | rotate180 (ε) (a : Image F32) (b : Image ℝ) (a' b') : SameSteps δ ε a b →
      a.rotate180 = .ok a' → b.rotate180 = .ok b' → SameSteps δ ε a' b'
  | rotate270 (ε) (a : Image F32) (b : Image ℝ) (a' b') : SameSteps δ ε a b →
      a.rotate270 = .ok a' → b.rotate270 = .ok b' → SameSteps δ ε a' b'
  | interlace (ε) (a : Image F32) (b : Image ℝ) (offset) (a' b') : SameSteps δ ε a b → offset < 2 ^ 31 →
      a.width + offset ≤ 2 ^ 31 → a.interlace offset = .ok a' → b.interlace offset = .ok b' → SameSteps δ ε a' b'
  | resize_bilinear (ε) (a : Image F32) (b : Image ℝ) (nw nh) (a' b') : SameSteps δ ε a b →
      a.width ≤ 2 ^ 21 → a.height ≤ 2 ^ 21 → nw ≤ 2 ^ 21 → nh ≤ 2 ^ 21 →
      a.resize nw nh .Bilinear = .ok a' → b.resize nw nh .Bilinear = .ok b' →
      SameSteps δ (ε + (((a.width : ℝ) + a.height) / 2 ^ 22 + 20 / 2 ^ 24)) a' b'
  | resize_bicubic (ε) (a : Image F32) (b : Image ℝ) (nw nh filter) (a' b') : SameSteps δ ε a b →
      a.width ≤ 2 ^ 21 → a.height ≤ 2 ^ 21 → nw ≤ 2 ^ 21 → nh ≤ 2 ^ 21 →
      (filter = .Bicubic ∨ filter = .Auto ∧ (a.width ≤ nw ∨ a.height ≤ nh)) →
      a.resize nw nh filter = .ok a' → b.resize nw nh filter = .ok b' →
      SameSteps δ (25 / 16 * ε + (5 / 2 * ((a.width : ℝ) + a.height) / 2 ^ 22 + 2470 / 2 ^ 24)) a' b'
  | unsharp (ε) (a : Image F32) (b : Image ℝ) (radius : Nat) (factor : F32) (sigma : Option F32) (m : Nat) (a' b') :
      SameSteps δ ε a b → 1 ≤ radius → radius ≤ 1023 → m ≤ 50 → factor.fin = true → |(factor.val : ℝ)| ≤ 2 ^ m →
      (∀ σ, sigma = some σ → SigmaOK σ) → sharpenCost δ radius ≤ 1 / 2 →
      a.unsharp radius factor sigma = .ok a' →
      b.unsharp radius (factor.val : ℝ) (sigma.map fun σ => (σ.val : ℝ)) = .ok b' →
      SameSteps δ ((1 + 2 * 2 ^ m) * ε + 2 ^ m * (sharpenCost δ radius + 8 / 16777216)) a' b'
  | edges (ε) (a : Image F32) (b : Image ℝ) (a' b') : SameSteps δ ε a b →
      a.edge_detection .Sobel = .ok a' → b.edge_detection .Sobel = .ok b' → SameSteps δ (16 * ε + 1 / 50000) a' b'

end D10.Spec
