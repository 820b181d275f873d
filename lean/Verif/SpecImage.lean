import Verif.Spec
import Verif.Model.Image

/-!
# Specification of images

`withPixels`: the image that a method returns has new pixels and the old metadata. `Keeps`: one call
of a method that works on colours or moves pixels inside the frame. `Made`: every image that a
program using the library can hold.
-/

namespace D10.Spec
variable {F : Type} [Scalar F]

/-- The image with the pixels that `x` computes and the metadata of `img`; a panic stays a panic. -/
def withPixels (img : Image F) (x : R (PixelBuffer (Col F))) : R (Image F) :=
  match x with
  | .ok b => .ok ⟨b, img.bg_color⟩
  | .error p => .error p

/-- The result and the next state of the generator, with the metadata of `img`. -/
def withPixelsAnd {σ : Type} (img : Image F) (x : R (PixelBuffer (Col F) × σ)) : R (Image F × σ) :=
  match x with
  | .ok (b, s) => .ok (⟨b, img.bg_color⟩, s)
  | .error p => .error p

/-- The length of a side of `n` pixels at `p` per cent: rounded, at least 1. -/
def percentOf (p : F) (n : Nat) : Nat :=
  max 1 (Scalar.asU32 (Scalar.round (Scalar.ofNat n *. (p /. lit 100))))

/-- `Keeps img img'`: `img'` is what one method call made of `img` (the same image afterwards, or the
image returned), for the methods that do not change the size. Closures may panic; where Rust allows
`FnMut`, they may also have a state. `g` is any random number generator. -/
inductive Keeps (D : Type) [Scalar D] [Widen F D] : Image F → Image F → Prop
  | mod_colors (img : Image F) (f) : Keeps D img (img.mod_colors f)
  | try_mod_colors (img : Image F) {E : Type} (f : Col F → R (Except E (Col F))) (img') (res) :
      img.try_mod_colors (m := R) f = .ok (img', res) → Keeps D img img'
  | mod_colors_enumerated (img : Image F) (f) (img') :
      img.mod_colors_enumerated f = .ok img' → Keeps D img img'
  | try_mod_colors_enumerated (img : Image F) {E : Type} (f : Nat → Nat → Col F → Except E (Col F)) :
      Keeps D img (img.try_mod_colors_enumerated f).1
  | map_colors (img : Image F) {σ : Type} (f : Col F → StateT σ R (Col F)) (s s') (img') :
      img.map_colors (m := StateT σ R) f s = .ok (img', s') → Keeps D img img'
  | try_map_colors (img : Image F) {E : Type} (f : Col F → R (Except E (Col F))) (img') :
      img.try_map_colors (m := R) f = .ok (.ok img') → Keeps D img img'
  | map_colors_enumerated (img : Image F) (f) (img') :
      img.map_colors_enumerated f = .ok img' → Keeps D img img'
  | try_map_colors_enumerated (img : Image F) {E : Type} (f : Nat → Nat → Col F → Except E (Col F))
      (img') : img.try_map_colors_enumerated f = .ok img' → Keeps D img img'
  | data_mut (img : Image F) (d : List (Col F)) : d.length = img.data.length →
      Keeps D img ⟨⟨img.width, img.height, d⟩, img.bg_color⟩
  | put_pixel (img : Image F) (x y c) (img') : img.put_pixel x y c = .ok img' → Keeps D img img'
  | flip_horizontal (img : Image F) (img') : img.flip_horizontal = .ok img' → Keeps D img img'
  | flip_vertical (img : Image F) (img') : img.flip_vertical = .ok img' → Keeps D img img'
  | rotate180 (img : Image F) (img') : img.rotate180 = .ok img' → Keeps D img img'
  | rotate (img : Image F) (a filter) (img') : img.rotate a filter = .ok img' → Keeps D img img'
  | edge_detection (img : Image F) (mode) (img') : img.edge_detection mode = .ok img' → Keeps D img img'
  | random_noise (img : Image F) {σ : Type} (g : Rng σ F) (a) (s s') (img') :
      img.random_noise g a s = .ok (img', s') → Keeps D img img'
  | add_random_noise (img : Image F) {σ : Type} (g : Rng σ F) (a) (s s') (img') :
      img.add_random_noise g a s = .ok (img', s') → Keeps D img img'
  | salt_n_pepper_noise (img : Image F) {σ : Type} (g : Rng σ F) (a) (s s') (img') :
      img.salt_n_pepper_noise g a s = .ok (img', s') → Keeps D img img'
  | add_salt_n_pepper_noise (img : Image F) {σ : Type} (g : Rng σ F) (a) (s s') (img') :
      img.add_salt_n_pepper_noise g a s = .ok (img', s') → Keeps D img img'
  | rgb_noise (img : Image F) {σ : Type} (g : Rng σ F) (a) (s s') (img') :
      img.rgb_noise g a s = .ok (img', s') → Keeps D img img'
  | add_rgb_noise (img : Image F) {σ : Type} (g : Rng σ F) (a) (s s') (img') :
      img.add_rgb_noise g a s = .ok (img', s') → Keeps D img img'
  | gaussian_noise (img : Image F) {σ : Type} (g : Rng σ F) (a) (s s') (img') :
      img.gaussian_noise g a s = .ok (img', s') → Keeps D img img'
  | add_gaussian_noise (img : Image F) {σ : Type} (g : Rng σ F) (a) (s s') (img') :
      img.add_gaussian_noise g a s = .ok (img', s') → Keeps D img img'
  | gaussian_blur (img : Image F) (r sigma) (img') : img.gaussian_blur r sigma = .ok img' → Keeps D img img'
  | unsharp (img : Image F) (r f sigma) (img') : img.unsharp r f sigma = .ok img' → Keeps D img img'
  | white_balance (img : Image F) (t) (img') : img.white_balance t = .ok img' → Keeps D img img'
  | balance (img : Image F) (mode t) (img') : img.balance mode t = .ok img' → Keeps D img img'
  | drawing (img : Image F) (r mode) (img') : img.drawing r mode = .ok img' → Keeps D img img'
  | interlace (img : Image F) (o) (img') : img.interlace o = .ok img' → Keeps D img img'
  | despeckle (img : Image F) (t n) (img') : img.despeckle t n = .ok img' → Keeps D img img'
  | stretch_contrast (img : Image F) (t) (img') : img.stretch_contrast t = .ok img' → Keeps D img img'
  | equalize (img : Image F) (mode) (img') : img.equalize mode = .ok img' → Keeps D img img'
  | symmetric_nearest_neighbor (img : Image F) (r c) (img') :
      img.symmetric_nearest_neighbor r c = .ok img' → Keeps D img img'
  | change_color_temperature (img : Image F) (o n t) (img') :
      img.change_color_temperature D o n t = .ok img' → Keeps D img img'
  | optimize_color_temperature (img : Image F) (f t) (img') :
      img.optimize_color_temperature D f t = .ok img' → Keeps D img img'
  | optimize_lightness (img : Image F) (f) : Keeps D img (img.optimize_lightness D f)
  | optimize_saturation (img : Image F) (o mode) : Keeps D img (img.optimize_saturation o mode)
  | apply_palette (img palette : Image F) : Keeps D img (img.apply_palette palette)
  | apply_palette_in_place (img palette : Image F) : Keeps D img (img.apply_palette_in_place palette)

/-- The images a program can hold, using the library `libs` for the files. Buffers of pixels given to
`new_from_buffer`, or stored through `buffer_mut`, are well formed (C01). -/
inductive Made (D : Type) [Scalar D] [Widen F D] [FloatBytes F] (libs : Libs F) : Image F → Prop
  | new (w h) (img) : Image.new w h = .ok img → Made D libs img
  | new_with_color (w h c) (img) : Image.new_with_color w h c = .ok img → Made D libs img
  | new_from_raw (w h d) (img) : Image.new_from_raw w h d = .ok img → Made D libs img
  | new_from_buffer (b : PixelBuffer (Col F)) : WellFormed b → Made D libs (Image.new_from_buffer b)
  | new_from_raw_with_meta (img : Image F) (w h d) (img') : Made D libs img →
      Image.new_from_raw_with_meta img w h d = .ok img' → Made D libs img'
  | new_from_buffer_with_meta (img : Image F) (b : PixelBuffer (Col F)) : Made D libs img →
      WellFormed b → Made D libs (Image.new_from_buffer_with_meta img b)
  | open (fs path) (img) : (Image.open libs fs path).run = .ok (.ok img) → Made D libs img
  | read_from_buffer (bytes) (img) :
      (Image.read_from_buffer libs bytes).run = .ok (.ok img) → Made D libs img
  | keeps (img img' : Image F) : Made D libs img → Keeps D img img' → Made D libs img'
  | buffer_mut (img : Image F) (b : PixelBuffer (Col F)) : Made D libs img → WellFormed b →
      Made D libs ⟨b, img.bg_color⟩
  | crop (img : Image F) (x y w h) (img') : Made D libs img → img.crop x y w h = .ok img' →
      Made D libs img'
  | rotate90 (img : Image F) (img') : Made D libs img → img.rotate90 = .ok img' → Made D libs img'
  | rotate270 (img : Image F) (img') : Made D libs img → img.rotate270 = .ok img' → Made D libs img'
  | resize (img : Image F) (w h filter) (img') : Made D libs img → img.resize w h filter = .ok img' →
      Made D libs img'
  | resize_pct (img : Image F) (p filter) (img') : Made D libs img →
      img.resize_pct p filter = .ok img' → Made D libs img'
  | with_jpeg_quality (img : Image F) (q preserve) (img') : Made D libs img →
      img.with_jpeg_quality libs q preserve = .ok img' → Made D libs img'
  | blend (img other : Image F) (op i) (img') : Made D libs img → Made D libs other →
      img.blend other op i = .ok img' → Made D libs img'
  | compose {σ : Type} (images : List (Image F)) (d)
      (f : Nat → Nat → List (Col F) → StateT σ R (Col F)) (s s') (img') :
      (∀ img ∈ images, Made D libs img) →
      Image.compose_slice (m := StateT σ R) images d f s = .ok (img', s') → Made D libs img'
  | try_compose {σ E : Type} (images : List (Image F)) (d)
      (f : Nat → Nat → List (Col F) → StateT σ R (Except E (Col F))) (s s') (img') :
      (∀ img ∈ images, Made D libs img) →
      Image.try_compose_slice (m := StateT σ R) images d f s = .ok (.ok img', s') → Made D libs img'

end D10.Spec
