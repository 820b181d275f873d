import Verif.SpecImage
import Verif.Model.Commands
import Verif.Props.ColorRange

/-!
# Specification of pictures whose channels are in range

`InRange` (C23) is "not a number, or between 0 and 1". `Careful`: every image that a program can hold
that never blurs, never uses the Lanczos filters (nor the automatic filter of `resize`, which uses
them), never runs the Laplace edge detection, never balances in RGB or HSV, and whose own closures and
colours are in range.
-/

namespace D10.Spec
variable {F : Type} [Scalar F]

/-- Red, green, blue and alpha are in range. -/
def PixelInRange (c : Col F) : Prop := ColourInRange c ∧ InRange c.alpha

/-- Every pixel of the image, and the background colour if there is one, is in range. -/
def ImageInRange (img : Image F) : Prop :=
  (∀ c ∈ img.data, PixelInRange c) ∧ ∀ c, img.bg_color = some c → PixelInRange c

/-- The library's `powf` keeps the unit interval for positive exponents. -/
def PowKeeps (F : Type) [Scalar F] : Prop :=
  ∀ x y : F, InRange x → (lit 0 <. y) = true → InRange (Scalar.powf x y)

/-- A closure with a state that makes colours in range of colours in range. -/
def CarefulClosure {σ A : Type} (A_ok : A → Prop) (f : A → StateT σ R (Col F)) : Prop :=
  ∀ a, A_ok a → ∀ s c s', f a s = .ok (c, s') → PixelInRange c

/-- The filters whose result is clamped. -/
def clampingFilter : FilterMode → Bool
  | .Nearest | .Bilinear | .Bicubic => true
  | .Lanczos3 | .Auto => false

/-- The images of a careful program, using the library `libs` for the files. -/
inductive Careful (D : Type) [Scalar D] [Widen F D] [FloatBytes F] (libs : Libs F) : Image F → Prop
  | new (w h) (img) : Image.new w h = .ok img → Careful D libs img
  | new_with_color (w h c) (img) : PixelInRange c → Image.new_with_color w h c = .ok img → Careful D libs img
  | new_from_raw (w h) (d : List (Col F)) (img) : (∀ c ∈ d, PixelInRange c) →
      Image.new_from_raw w h d = .ok img → Careful D libs img
  | new_from_buffer (b : PixelBuffer (Col F)) : (∀ c ∈ b.data, PixelInRange c) →
      Careful D libs (Image.new_from_buffer b)
  | new_from_raw_with_meta (img : Image F) (w h d) (img') : Careful D libs img →
      (∀ c ∈ d, PixelInRange c) → Image.new_from_raw_with_meta img w h d = .ok img' → Careful D libs img'
  | new_from_buffer_with_meta (img : Image F) (b : PixelBuffer (Col F)) : Careful D libs img →
      (∀ c ∈ b.data, PixelInRange c) → Careful D libs (Image.new_from_buffer_with_meta img b)
  | open (fs path) (img) : (Image.open libs fs path).run = .ok (.ok img) → Careful D libs img
  | read_from_buffer (bytes) (img) :
      (Image.read_from_buffer libs bytes).run = .ok (.ok img) → Careful D libs img
  | mod_colors (img : Image F) (f) : Careful D libs img → (∀ c, PixelInRange c → PixelInRange (f c)) →
      Careful D libs (img.mod_colors f)
  | map_colors (img : Image F) {σ : Type} (f : Col F → StateT σ R (Col F)) (s s') (img') :
      Careful D libs img → CarefulClosure PixelInRange f →
      img.map_colors (m := StateT σ R) f s = .ok (img', s') → Careful D libs img'
  | mod_colors_enumerated (img : Image F) (f) (img') : Careful D libs img →
      (∀ x y c c', PixelInRange c → f x y c = .ok c' → PixelInRange c') →
      img.mod_colors_enumerated f = .ok img' → Careful D libs img'
  | map_colors_enumerated (img : Image F) (f) (img') : Careful D libs img →
      (∀ x y c c', PixelInRange c → f x y c = .ok c' → PixelInRange c') →
      img.map_colors_enumerated f = .ok img' → Careful D libs img'
  | put_pixel (img : Image F) (x y c) (img') : Careful D libs img → PixelInRange c →
      img.put_pixel x y c = .ok img' → Careful D libs img'
  | crop (img : Image F) (x y w h) (img') : Careful D libs img → img.crop x y w h = .ok img' →
      Careful D libs img'
  | flip_horizontal (img : Image F) (img') : Careful D libs img → img.flip_horizontal = .ok img' →
      Careful D libs img'
  | flip_vertical (img : Image F) (img') : Careful D libs img → img.flip_vertical = .ok img' →
      Careful D libs img'
  | rotate90 (img : Image F) (img') : Careful D libs img → img.rotate90 = .ok img' → Careful D libs img'
  | rotate180 (img : Image F) (img') : Careful D libs img → img.rotate180 = .ok img' → Careful D libs img'
  | rotate270 (img : Image F) (img') : Careful D libs img → img.rotate270 = .ok img' → Careful D libs img'
  | rotate (img : Image F) (a filter) (img') : Careful D libs img → filter ≠ .Lanczos3 →
      img.rotate a filter = .ok img' → Careful D libs img'
  | edge_detection (img : Image F) (img') : Careful D libs img → img.edge_detection .Sobel = .ok img' →
      Careful D libs img'
  | resize (img : Image F) (w h filter) (img') : Careful D libs img → clampingFilter filter = true →
      img.resize w h filter = .ok img' → Careful D libs img'
  | enlarge (img : Image F) (w h) (img') : Careful D libs img → img.width ≤ w ∨ img.height ≤ h →
      img.resize w h .Auto = .ok img' → Careful D libs img'
  | resize_pct (img : Image F) (p filter) (img') : Careful D libs img → clampingFilter filter = true →
      img.resize_pct p filter = .ok img' → Careful D libs img'
  | with_jpeg_quality (img : Image F) (q preserve) (img') : Careful D libs img →
      img.with_jpeg_quality libs q preserve = .ok img' → Careful D libs img'
  | random_noise (img : Image F) {σ : Type} (g : Rng σ F) (a) (s s') (img') : Careful D libs img →
      img.random_noise g a s = .ok (img', s') → Careful D libs img'
  | add_random_noise (img : Image F) {σ : Type} (g : Rng σ F) (a) (s s') (img') : Careful D libs img →
      img.add_random_noise g a s = .ok (img', s') → Careful D libs img'
  | salt_n_pepper_noise (img : Image F) {σ : Type} (g : Rng σ F) (a) (s s') (img') : Careful D libs img →
      img.salt_n_pepper_noise g a s = .ok (img', s') → Careful D libs img'
  | add_salt_n_pepper_noise (img : Image F) {σ : Type} (g : Rng σ F) (a) (s s') (img') :
      Careful D libs img → img.add_salt_n_pepper_noise g a s = .ok (img', s') → Careful D libs img'
  | rgb_noise (img : Image F) {σ : Type} (g : Rng σ F) (a) (s s') (img') : Careful D libs img →
      img.rgb_noise g a s = .ok (img', s') → Careful D libs img'
  | add_rgb_noise (img : Image F) {σ : Type} (g : Rng σ F) (a) (s s') (img') : Careful D libs img →
      img.add_rgb_noise g a s = .ok (img', s') → Careful D libs img'
  | gaussian_noise (img : Image F) {σ : Type} (g : Rng σ F) (a) (s s') (img') : Careful D libs img →
      img.gaussian_noise g a s = .ok (img', s') → Careful D libs img'
  | add_gaussian_noise (img : Image F) {σ : Type} (g : Rng σ F) (a) (s s') (img') : Careful D libs img →
      img.add_gaussian_noise g a s = .ok (img', s') → Careful D libs img'
  | unsharp (img : Image F) (r f sigma) (img') : Careful D libs img → img.unsharp r f sigma = .ok img' →
      Careful D libs img'
  | balance (img : Image F) (mode t) (img') : Careful D libs img → mode ≠ .Rgb → mode ≠ .Hsv →
      img.balance mode t = .ok img' → Careful D libs img'
  | blend (img other : Image F) (op i) (img') : Careful D libs img → Careful D libs other →
      img.blend other op i = .ok img' → Careful D libs img'
  | compose {σ : Type} (images : List (Image F)) (d)
      (f : Nat → Nat → List (Col F) → StateT σ R (Col F)) (s s') (img') :
      (∀ img ∈ images, Careful D libs img) → PixelInRange d →
      (∀ x y, CarefulClosure (fun l : List (Col F) => ∀ c ∈ l, PixelInRange c) (f x y)) →
      Image.compose_slice (m := StateT σ R) images d f s = .ok (img', s') → Careful D libs img'
  | drawing (img : Image F) (r mode) (img') : Careful D libs img → img.drawing r mode = .ok img' →
      Careful D libs img'
  | interlace (img : Image F) (o) (img') : Careful D libs img → img.interlace o = .ok img' →
      Careful D libs img'
  | despeckle (img : Image F) (t n) (img') : Careful D libs img → img.despeckle t n = .ok img' →
      Careful D libs img'
  | stretch_contrast (img : Image F) (t) (img') : Careful D libs img → img.stretch_contrast t = .ok img' →
      Careful D libs img'
  | equalize (img : Image F) (mode) (img') : Careful D libs img → img.equalize mode = .ok img' →
      Careful D libs img'
  | symmetric_nearest_neighbor (img : Image F) (r c) (img') : Careful D libs img →
      img.symmetric_nearest_neighbor r c = .ok img' → Careful D libs img'
  | change_color_temperature (img : Image F) (o n t) (img') : Careful D libs img →
      img.change_color_temperature D o n t = .ok img' → Careful D libs img'
  | optimize_color_temperature (img : Image F) (f t) (img') : Careful D libs img →
      img.optimize_color_temperature D f t = .ok img' → Careful D libs img'
  | optimize_lightness (img : Image F) (f) : Careful D libs img → Careful D libs (img.optimize_lightness D f)
  | optimize_saturation (img : Image F) (o mode) : Careful D libs img →
      Careful D libs (img.optimize_saturation o mode)
  | apply_palette (img palette : Image F) : Careful D libs img → Careful D libs palette →
      Careful D libs (img.apply_palette palette)
  | apply_palette_in_place (img palette : Image F) : Careful D libs img → Careful D libs palette →
      Careful D libs (img.apply_palette_in_place palette)

/-- A command that does not rotate with the Lanczos filter. -/
def CarefulCommand {P : Type} : Cmd F P → Prop
  | .Rotate _ filter => filter ≠ .Lanczos3
  | _ => True

end D10.Spec
