import Verif.SpecBlurNumbers

/-!
# Specification of programs that work with numbers

`Tame`: every image that a program can hold that gives finite numbers to the operations, and whose own
closures and colours are made of numbers. Left out are the operations that go through XYZ, Lab or LCh, the
Lanczos filters, the blur itself, whose results are numbers but not limited to 1 (C124), and the optimisations
of lightness and saturation (for these see C126); left out as well are the arguments for which an operation is known to make "not
a number" (C40, C43).
-/

namespace D10.Spec
variable [Libm b32]

/-- A closure with a state that makes colours of numbers of colours of numbers. -/
def TameClosure {σ A : Type} (A_ok : A → Prop) (f : A → StateT σ R (Col F32)) : Prop :=
  ∀ a, A_ok a → ∀ s c s', f a s = .ok (c, s') → UnitCol c

/-- The images of a program that works with numbers, using the library `libs` for the files. Sizes are
numbers of 32 bits, as the types of the interface say. -/
inductive Tame [FloatBytes F32] (libs : Libs F32) : Image F32 → Prop
  | new (w h) (img) : Image.new w h = .ok img → Tame libs img
  | new_with_color (w h c) (img) : UnitCol c → Image.new_with_color w h c = .ok img → Tame libs img
  | new_from_raw (w h) (d : List (Col F32)) (img) : (∀ c ∈ d, UnitCol c) →
      Image.new_from_raw w h d = .ok img → Tame libs img
  | new_from_buffer (b : PixelBuffer (Col F32)) : WellFormed b → (∀ c ∈ b.data, UnitCol c) →
      Tame libs (Image.new_from_buffer b)
  | new_from_raw_with_meta (img : Image F32) (w h d) (img') : Tame libs img →
      (∀ c ∈ d, UnitCol c) → Image.new_from_raw_with_meta img w h d = .ok img' → Tame libs img'
  | new_from_buffer_with_meta (img : Image F32) (b : PixelBuffer (Col F32)) : Tame libs img → WellFormed b →
      (∀ c ∈ b.data, UnitCol c) → Tame libs (Image.new_from_buffer_with_meta img b)
  | open (fs path) (img) : (Image.open libs fs path).run = .ok (.ok img) → Tame libs img
  | read_from_buffer (bytes) (img) :
      (Image.read_from_buffer libs bytes).run = .ok (.ok img) → Tame libs img
  | mod_colors (img : Image F32) (f) : Tame libs img → (∀ c, UnitCol c → UnitCol (f c)) →
      Tame libs (img.mod_colors f)
  | map_colors (img : Image F32) {σ : Type} (f : Col F32 → StateT σ R (Col F32)) (s s') (img') :
      Tame libs img → TameClosure UnitCol f →
      img.map_colors (m := StateT σ R) f s = .ok (img', s') → Tame libs img'
  | mod_colors_enumerated (img : Image F32) (f) (img') : Tame libs img →
      (∀ x y c c', UnitCol c → f x y c = .ok c' → UnitCol c') →
      img.mod_colors_enumerated f = .ok img' → Tame libs img'
  | map_colors_enumerated (img : Image F32) (f) (img') : Tame libs img →
      (∀ x y c c', UnitCol c → f x y c = .ok c' → UnitCol c') →
      img.map_colors_enumerated f = .ok img' → Tame libs img'
  | put_pixel (img : Image F32) (x y c) (img') : Tame libs img → UnitCol c →
      img.put_pixel x y c = .ok img' → Tame libs img'
  | crop (img : Image F32) (x y w h) (img') : Tame libs img → img.crop x y w h = .ok img' →
      Tame libs img'
  | flip_horizontal (img : Image F32) (img') : Tame libs img → img.flip_horizontal = .ok img' →
      Tame libs img'
  | flip_vertical (img : Image F32) (img') : Tame libs img → img.flip_vertical = .ok img' →
      Tame libs img'
  | rotate90 (img : Image F32) (img') : Tame libs img → img.rotate90 = .ok img' → Tame libs img'
  | rotate180 (img : Image F32) (img') : Tame libs img → img.rotate180 = .ok img' → Tame libs img'
  | rotate270 (img : Image F32) (img') : Tame libs img → img.rotate270 = .ok img' → Tame libs img'
  | rotate (img : Image F32) (a filter) (img') : Tame libs img → a.fin = true → filter ≠ .Lanczos3 →
      img.rotate a filter = .ok img' → Tame libs img'
  | edge_detection (img : Image F32) (img') : Tame libs img → img.edge_detection .Sobel = .ok img' →
      Tame libs img'
  | resize (img : Image F32) (w h filter) (img') : Tame libs img → w < 2 ^ 32 → h < 2 ^ 32 →
      clampingFilter filter = true → img.resize w h filter = .ok img' → Tame libs img'
  | enlarge (img : Image F32) (w h) (img') : Tame libs img → w < 2 ^ 32 → h < 2 ^ 32 →
      img.width ≤ w ∨ img.height ≤ h → img.resize w h .Auto = .ok img' → Tame libs img'
  | resize_pct (img : Image F32) (p filter) (img') : Tame libs img → clampingFilter filter = true →
      img.resize_pct p filter = .ok img' → Tame libs img'
  | with_jpeg_quality (img : Image F32) (q preserve) (img') : Tame libs img →
      img.with_jpeg_quality libs q preserve = .ok img' → Tame libs img'
  | random_noise (img : Image F32) {σ : Type} (g : Rng σ F32) (a) (s s') (img') : Tame libs img → DrawsNumbers g →
      a.fin = true → img.random_noise g a s = .ok (img', s') → Tame libs img'
  | add_random_noise (img : Image F32) {σ : Type} (g : Rng σ F32) (a) (s s') (img') : Tame libs img →
      DrawsNumbers g → a.fin = true → img.add_random_noise g a s = .ok (img', s') → Tame libs img'
  | salt_n_pepper_noise (img : Image F32) {σ : Type} (g : Rng σ F32) (a) (s s') (img') : Tame libs img →
      DrawsNumbers g → a.fin = true → img.salt_n_pepper_noise g a s = .ok (img', s') → Tame libs img'
  | add_salt_n_pepper_noise (img : Image F32) {σ : Type} (g : Rng σ F32) (a) (s s') (img') : Tame libs img →
      DrawsNumbers g → a.fin = true → img.add_salt_n_pepper_noise g a s = .ok (img', s') → Tame libs img'
  | rgb_noise (img : Image F32) {σ : Type} (g : Rng σ F32) (a) (s s') (img') : Tame libs img → DrawsNumbers g →
      a.fin = true → img.rgb_noise g a s = .ok (img', s') → Tame libs img'
  | add_rgb_noise (img : Image F32) {σ : Type} (g : Rng σ F32) (a) (s s') (img') : Tame libs img →
      DrawsNumbers g → a.fin = true → img.add_rgb_noise g a s = .ok (img', s') → Tame libs img'
  | gaussian_noise (img : Image F32) {σ : Type} (g : Rng σ F32) (a) (s s') (img') : Tame libs img →
      (∀ s, (g.normal s).1.fin = true) → a.fin = true → img.gaussian_noise g a s = .ok (img', s') → Tame libs img'
  | add_gaussian_noise (img : Image F32) {σ : Type} (g : Rng σ F32) (a) (s s') (img') : Tame libs img →
      (∀ s, (g.normal s).1.fin = true) → a.fin = true → img.add_gaussian_noise g a s = .ok (img', s') →
      Tame libs img'
  | blend (img other : Image F32) (op i) (img') : Tame libs img → Tame libs other → TameBlend op i →
      img.blend other op i = .ok img' → Tame libs img'
  | compose {σ : Type} (images : List (Image F32)) (d)
      (f : Nat → Nat → List (Col F32) → StateT σ R (Col F32)) (s s') (img') :
      (∀ img ∈ images, Tame libs img) → UnitCol d →
      (∀ x y, TameClosure (fun l : List (Col F32) => ∀ c ∈ l, UnitCol c) (f x y)) →
      Image.compose_slice (m := StateT σ R) images d f s = .ok (img', s') → Tame libs img'
  | interlace (img : Image F32) (o) (img') : Tame libs img → img.interlace o = .ok img' → Tame libs img'
  | despeckle (img : Image F32) (t n) (img') : Tame libs img → n < 9 → img.despeckle t n = .ok img' →
      Tame libs img'
  | stretch_contrast (img : Image F32) (t) (img') : Tame libs img → img.stretch_contrast t = .ok img' →
      Tame libs img'
  | equalize (img : Image F32) (mode) (img') : Tame libs img → img.equalize mode = .ok img' → Tame libs img'
  | symmetric_nearest_neighbor (img : Image F32) (r c) (img') : Tame libs img →
      c = true ∨ (0 < r ∧ r < 2 ^ 31) → r < 2 ^ 32 →
      img.symmetric_nearest_neighbor r c = .ok img' → Tame libs img'
  | unsharp (img : Image F32) (r a sigma) (img') : Tame libs img → a.fin = true → BlurWidthOK r sigma →
      img.unsharp r a sigma = .ok img' → Tame libs img'
  | drawing (img : Image F32) (r mode) (img') : Tame libs img → img.drawing r mode = .ok img' → Tame libs img'

end D10.Spec
