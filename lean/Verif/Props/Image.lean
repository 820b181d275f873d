import Verif.Lemmas.Sized
import Verif.Props.Sample
import Verif.SpecImage

/-!
# The image facade

* C65: images keep size and metadata
* C66: percentage resize
-/

namespace D10

open Spec

variable {F : Type} [Scalar F]

/-! ## C65 What the methods of `Image` return -/

omit [Scalar F] in
theorem with_meta_eq (img : Image F) (x : R (PixelBuffer (Col F))) :
    (do return Image.new_from_buffer_with_meta img (← x)) = withPixels img x := by
  cases x <;> rfl

/-- C65: a method that moves, resamples or recolours pixels returns exactly the pixels that the
operation of the same name computes from the image's pixels, with the metadata of the image. -/
theorem C65_operations (img : Image F) :
    (∀ x y w h, img.crop x y w h = withPixels img (crop Rgb.NONE img.buffer x y w h)) ∧
    img.flip_horizontal = withPixels img (flip_horizontal Rgb.NONE img.buffer) ∧
    img.flip_vertical = withPixels img (flip_vertical Rgb.NONE img.buffer) ∧
    img.rotate90 = withPixels img (rotate90 Rgb.NONE img.buffer) ∧
    img.rotate180 = withPixels img (rotate180 Rgb.NONE img.buffer) ∧
    img.rotate270 = withPixels img (rotate270 Rgb.NONE img.buffer) ∧
    (∀ mode, img.edge_detection mode = withPixels img (edge_detection img.buffer mode)) ∧
    (∀ w h filter, img.resize w h filter = withPixels img (resize img.buffer w h filter)) ∧
    (∀ r sigma, img.gaussian_blur r sigma = withPixels img (gaussian_blur img.buffer r sigma)) ∧
    (∀ r k sigma, img.unsharp r k sigma = withPixels img (unsharp img.buffer r k sigma)) ∧
    (∀ t, img.white_balance t = withPixels img (balance img.buffer .Rgb t)) ∧
    (∀ mode t, img.balance mode t = withPixels img (balance img.buffer mode t)) ∧
    (∀ r mode, img.drawing r mode = withPixels img (drawing img.buffer r mode)) ∧
    (∀ o, img.interlace o = withPixels img (interlace img.buffer o)) ∧
    (∀ t n, img.despeckle t n = withPixels img (despeckle img.buffer t n)) ∧
    (∀ t, img.stretch_contrast t = withPixels img (stretch_contrast img.buffer t)) ∧
    (∀ mode, img.equalize mode = withPixels img (equalize img.buffer mode)) ∧
    (∀ r c, img.symmetric_nearest_neighbor r c =
      withPixels img (symmetric_nearest_neighbor img.buffer r c)) ∧
    (∀ f, img.map_colors_enumerated f = withPixels img (img.buffer.map_colors_enumerated f)) ∧
    (∀ f, img.mod_colors_enumerated f = withPixels img (img.buffer.mod_colors_enumerated f)) ∧
    (∀ x y c, img.put_pixel x y c = withPixels img (img.buffer.put_pixel x y c)) ∧
    (∀ f : Col F → R (Col F), img.map_colors f = withPixels img (img.buffer.map_colorsM f)) := by
  refine ⟨fun _ _ _ _ => with_meta_eq _ _, with_meta_eq _ _, with_meta_eq _ _, with_meta_eq _ _,
    with_meta_eq _ _, with_meta_eq _ _, fun _ => with_meta_eq _ _, fun _ _ _ => with_meta_eq _ _,
    fun _ _ => with_meta_eq _ _, fun _ _ _ => with_meta_eq _ _, fun _ => with_meta_eq _ _,
    fun _ _ => with_meta_eq _ _, fun _ _ => with_meta_eq _ _, fun _ => with_meta_eq _ _,
    fun _ _ => with_meta_eq _ _, fun _ => with_meta_eq _ _, fun _ => with_meta_eq _ _,
    fun _ _ => with_meta_eq _ _, fun _ => with_meta_eq _ _, fun _ => with_meta_eq _ _,
    fun _ _ _ => with_meta_eq _ _, fun _ => with_meta_eq _ _⟩

/-- C65: the tonal optimisations, palettes, blending and the simulated JPEG quality. -/
theorem C65_operations_tone (D : Type) [Scalar D] [Widen F D] [FloatBytes F] (libs : Libs F)
    (img other : Image F) :
    (∀ o n t, img.change_color_temperature D o n t =
      withPixels img (change_color_temperature D img.buffer o n t)) ∧
    (∀ k t, img.optimize_color_temperature D k t =
      withPixels img (optimize_color_temperature D img.buffer k t)) ∧
    (∀ k, .ok (img.optimize_lightness D k) =
      withPixels img (.ok (optimize_lightness D img.buffer k))) ∧
    (∀ o mode, .ok (img.optimize_saturation o mode) =
      withPixels img (.ok (optimize_saturation img.buffer o mode))) ∧
    (.ok (img.apply_palette other) = withPixels img (.ok (apply_palette img.buffer .rgb other.buffer))) ∧
    (.ok (img.apply_palette_in_place other) =
      withPixels img (.ok (apply_palette_in_place img.buffer .rgb other.buffer))) ∧
    (∀ op i, img.blend other op i = withPixels img (blend_image img.buffer other.buffer op i)) ∧
    (∀ q preserve, img.with_jpeg_quality libs q preserve =
      withPixels img (jpeg_quality (jpegCodec libs) img.buffer q preserve)) := by
  exact ⟨fun _ _ _ => with_meta_eq _ _, fun _ _ => with_meta_eq _ _, fun _ => rfl, fun _ _ => rfl, rfl,
    rfl, fun _ _ => with_meta_eq _ _, fun _ _ => with_meta_eq _ _⟩

omit [Scalar F] in
theorem with_meta_stateT {σ : Type} (img : Image F) (x : StateT σ R (PixelBuffer (Col F))) (s : σ) :
    (do return Image.new_from_buffer_with_meta img (← x) : StateT σ R (Image F)) s =
      withPixelsAnd img (x s) := by
  simp only [bind, StateT.bind, Except.bind, withPixelsAnd]
  cases x s <;> rfl

omit [Scalar F] in
theorem with_buffer_stateT {σ : Type} (img : Image F) (x : StateT σ R (PixelBuffer (Col F))) (s : σ) :
    (do return { img with buffer := ← x } : StateT σ R (Image F)) s = withPixelsAnd img (x s) := by
  simp only [bind, StateT.bind, Except.bind, withPixelsAnd]
  cases x s <;> rfl

/-- C65: the noise operations, with any random number generator, on a copy and in place. -/
theorem C65_operations_noise {σ : Type} (g : Rng σ F) (img : Image F) (a : F) (s : σ) :
    img.random_noise g a s = withPixelsAnd img (random_noise g .rgb img.buffer a s) ∧
    img.add_random_noise g a s = withPixelsAnd img (add_random_noise g .rgb img.buffer a s) ∧
    img.gaussian_noise g a s = withPixelsAnd img (gaussian_noise g .rgb img.buffer a s) ∧
    img.add_gaussian_noise g a s = withPixelsAnd img (add_gaussian_noise g .rgb img.buffer a s) ∧
    img.salt_n_pepper_noise g a s = withPixelsAnd img (salt_n_pepper_noise g img.buffer a s) ∧
    img.add_salt_n_pepper_noise g a s = withPixelsAnd img (add_salt_n_pepper_noise g img.buffer a s) ∧
    img.rgb_noise g a s = withPixelsAnd img (rgb_noise g img.buffer a s) ∧
    img.add_rgb_noise g a s = withPixelsAnd img (add_rgb_noise g img.buffer a s) ∧
    (∀ f : Col F → StateT σ R (Col F),
      img.map_colors f s = withPixelsAnd img (img.buffer.map_colorsM f s)) :=
  ⟨with_meta_stateT _ _ _, with_buffer_stateT _ _ _, with_meta_stateT _ _ _, with_buffer_stateT _ _ _,
    with_meta_stateT _ _ _, with_buffer_stateT _ _ _, with_meta_stateT _ _ _, with_buffer_stateT _ _ _,
    fun _ => with_meta_stateT _ _ _⟩

/-- C65: reading from an image reads from its pixels; `mod_colors` and the fallible traversals work on
its pixels, and a failing `try_mod_colors` leaves the image with the pixels changed so far. -/
theorem C65_pixels (img : Image F) :
    img.width = img.buffer.width ∧ img.height = img.buffer.height ∧ img.data = img.buffer.data ∧
    img.is_empty = img.buffer.is_empty ∧ img.has_transparency = img.buffer.has_transparency ∧
    img.is_grayscale = img.buffer.is_grayscale ∧
    (∀ x y, img.get_pixel x y = img.buffer.get_pixel x y) ∧
    (∀ x y, img.get_pixel_clamped x y = img.buffer.get_pixel_clamped x y) ∧
    (∀ x y, img.get_pixel_optional x y = img.buffer.get_pixel_optional x y) ∧
    (∀ x y, img.is_in_image x y = img.buffer.is_in_image x y) ∧
    (∀ f, img.mod_colors f = ⟨img.buffer.mod_colors f, img.bg_color⟩) ∧
    (∀ (E : Type) (f : Nat → Nat → Col F → Except E (Col F)),
      img.try_mod_colors_enumerated f =
        (⟨(img.buffer.try_mod_colors_enumerated f).1, img.bg_color⟩,
          (img.buffer.try_mod_colors_enumerated f).2)) ∧
    (∀ (E : Type) (f : Nat → Nat → Col F → Except E (Col F)),
      img.try_map_colors_enumerated f =
        (img.buffer.try_map_colors_enumerated f).map fun b => ⟨b, img.bg_color⟩) ∧
    (∀ (E : Type) (f : Col F → R (Except E (Col F))),
      img.try_mod_colors (m := R) f =
        (img.buffer.try_mod_colors (m := R) f).map fun p => (⟨p.1, img.bg_color⟩, p.2)) ∧
    (∀ (E : Type) (f : Col F → R (Except E (Col F))),
      img.try_map_colors (m := R) f =
        (img.buffer.try_map_colors (m := R) f).map fun r => r.map fun b => ⟨b, img.bg_color⟩) := by
  refine ⟨rfl, rfl, rfl, rfl, rfl, rfl, fun _ _ => rfl, fun _ _ => rfl, fun _ _ => rfl, fun _ _ => rfl,
    fun _ => rfl, fun _ _ => rfl, fun E f => ?_, fun E f => ?_, fun E f => ?_⟩
  · unfold Image.try_map_colors_enumerated
    cases img.buffer.try_map_colors_enumerated f <;> rfl
  · unfold Image.try_mod_colors
    cases img.buffer.try_mod_colors (m := R) f <;> rfl
  · unfold Image.try_map_colors
    generalize img.buffer.try_map_colors (m := R) f = x
    rcases x with _ | (_ | _) <;> rfl

omit [Scalar F] in
/-- C65: composing images composes their pixels and takes the metadata of the first image. -/
theorem C65_compose (first : Image F) (rest : List (Image F)) (d : Col F) :
    (∀ f : Nat → Nat → List (Col F) → R (Col F), Image.compose_slice (first :: rest) d f =
      withPixels first (compose_slice ((first :: rest).map fun i => i.buffer) d f)) ∧
    (∀ (E : Type) (f : Nat → Nat → List (Col F) → R (Except E (Col F))),
      Image.try_compose_slice (first :: rest) d f =
        (try_compose_slice ((first :: rest).map fun i => i.buffer) d f).map fun r =>
          r.map fun b => ⟨b, first.bg_color⟩) := by
  refine ⟨fun f => ?_, fun E f => ?_⟩
  · unfold Image.compose_slice
    dsimp only
    generalize compose_slice (m := R) _ d f = x
    cases x <;> rfl
  · unfold Image.try_compose_slice
    dsimp only
    generalize try_compose_slice (m := R) _ d f = x
    rcases x with _ | (_ | _) <;> rfl

omit [Scalar F] in
/-- C65: the same for a fixed number of images. -/
theorem C65_compose_array {N : Nat} (images : Vector (Image F) N) (d : Col F) :
    (∀ (f : Nat → Nat → Vector (Col F) N → R (Col F)) (g : Nat → Nat → List (Col F) → R (Col F)),
      (∀ x y v, f x y v = g x y v.toList) →
      Image.compose images d f = Image.compose_slice images.toList d g) ∧
    (∀ (E : Type) (f : Nat → Nat → Vector (Col F) N → R (Except E (Col F)))
      (g : Nat → Nat → List (Col F) → R (Except E (Col F))), (∀ x y v, f x y v = g x y v.toList) →
      Image.try_compose images d f = Image.try_compose_slice images.toList d g) := by
  refine ⟨fun f g h => ?_, fun E f g h => ?_⟩
  · unfold Image.compose Image.compose_slice
    dsimp only
    rw [C38_compose_array d _ f g h, Vector.toList_map]
  · unfold Image.try_compose Image.try_compose_slice
    dsimp only
    rw [C38_try_compose_array d _ f g h, Vector.toList_map]

/-- C65: new images show what was given, and have no background colour; an image with the metadata of
another one takes its background colour. -/
theorem C65_new (w h : Nat) (c : Col F) (d : List (Col F)) (b : PixelBuffer (Col F)) (img : Image F) :
    (∀ i : Image F, Image.new w h = .ok i ↔ ∃ b, PixelBuffer.new Rgb.NONE w h = .ok b ∧ i = ⟨b, none⟩) ∧
    (∀ i, Image.new_with_color w h c = .ok i ↔
      ∃ b, PixelBuffer.new_with_color w h c = .ok b ∧ i = ⟨b, none⟩) ∧
    (∀ i, Image.new_from_raw w h d = .ok i ↔
      ∃ b, PixelBuffer.new_from_raw w h d = .ok b ∧ i = ⟨b, none⟩) ∧
    (∀ i, Image.new_from_raw_with_meta img w h d = .ok i ↔
      ∃ b, PixelBuffer.new_from_raw w h d = .ok b ∧ i = ⟨b, img.bg_color⟩) ∧
    Image.new_from_buffer b = ⟨b, none⟩ ∧
    Image.new_from_buffer_with_meta img b = ⟨b, img.bg_color⟩ := by
  refine ⟨fun i => ?_, fun i => ?_, fun i => ?_, fun i => ?_, rfl, rfl⟩
  · unfold Image.new
    generalize PixelBuffer.new _ w h = x
    cases x <;> simp [bind, Except.bind, pure, Except.pure, eq_comm]
  · unfold Image.new_with_color
    generalize PixelBuffer.new_with_color w h c = x
    cases x <;> simp [bind, Except.bind, pure, Except.pure, eq_comm]
  · unfold Image.new_from_raw
    generalize PixelBuffer.new_from_raw w h d = x
    cases x <;> simp [bind, Except.bind, pure, Except.pure, eq_comm]
  · unfold Image.new_from_raw_with_meta Image.new_from_buffer_with_meta
    generalize PixelBuffer.new_from_raw w h d = x
    cases x <;> simp [bind, Except.bind, pure, Except.pure, eq_comm]

/-- C65: opening images opens their pixels (C54 to C56); there is no background colour. -/
theorem C65_open (libs : Libs F) (fs : FS) (path : String) (bytes : List Nat) :
    (Image.open libs fs path).run =
      (decode_file libs fs path).run.map (fun r => r.map fun b => ⟨b, none⟩) ∧
    (Image.read_from_buffer libs bytes).run =
      (decode_buffer libs bytes).run.map (fun r => r.map fun b => ⟨b, none⟩) := by
  constructor
  · unfold Image.open
    simp only [ExceptT.run_bind, Image.new_from_buffer]
    generalize (decode_file libs fs path).run = x
    rcases x with _ | (_ | _) <;> rfl
  · unfold Image.read_from_buffer
    simp only [ExceptT.run_bind, Image.new_from_buffer]
    generalize (decode_buffer libs bytes).run = x
    rcases x with _ | (_ | _) <;> rfl

/-- C65: saving images saves their pixels (C57, C58): by name, with a given format, or to memory. -/
theorem C65_save [FloatBytes F] (libs : Libs F) (fs : FS) (path : String) (img : Image F)
    (format : EncodingFormat) :
    img.save libs fs path = encode_to_file libs fs path img.buffer none ∧
    img.save_with_format libs fs path format = encode_to_file libs fs path img.buffer (some format) ∧
    img.save_to_writer libs format = encode libs img.buffer format ∧
    img.save_to_buffer libs format = (encode libs img.buffer format).map (fun out =>
      out.result.map fun _ => out.bytes) := by
  refine ⟨rfl, rfl, rfl, ?_⟩
  unfold Image.save_to_buffer
  generalize encode libs img.buffer format = x
  rcases x with _ | ⟨_, _ | _⟩ <;> rfl

/-! ## C65 Size and metadata -/

omit [Scalar F] in
theorem withPixels_gives {img img' : Image F} {x : R (PixelBuffer (Col F))} {w h : Nat}
    (hx : Gives x w h) (he : withPixels img x = .ok img') :
    WellFormed img'.buffer ∧ img'.buffer.width = w ∧ img'.buffer.height = h ∧
      img'.bg_color = img.bg_color := by
  cases x with
  | error p => cases he
  | ok b => cases he; obtain ⟨h1, h2, h3⟩ := hx b rfl; exact ⟨h1, h2, h3, rfl⟩

omit [Scalar F] in
theorem withPixelsAnd_gives {σ : Type} {img img' : Image F} {x : StateT σ R (PixelBuffer (Col F))}
    {w h : Nat} {s s' : σ} (hx : GivesS x w h) (he : withPixelsAnd img (x s) = .ok (img', s')) :
    WellFormed img'.buffer ∧ img'.buffer.width = w ∧ img'.buffer.height = h ∧
      img'.bg_color = img.bg_color := by
  generalize hv : x s = v at he
  rcases v with _ | ⟨b, s''⟩
  · cases he
  · cases he; obtain ⟨h1, h2, h3⟩ := hx _ _ _ hv; exact ⟨h1, h2, h3, rfl⟩

omit [Scalar F] in
theorem meta_gives {img img' : Image F} {x : R (PixelBuffer (Col F))} {w h : Nat} (hx : Gives x w h)
    (he : (do return Image.new_from_buffer_with_meta img (← x)) = .ok img') :
    WellFormed img'.buffer ∧ img'.buffer.width = w ∧ img'.buffer.height = h ∧
      img'.bg_color = img.bg_color := withPixels_gives hx (by rw [← with_meta_eq]; exact he)

/-- C65: the methods of `Keeps` keep the width, the height and the background colour, and the result
again holds width * height pixels. -/
theorem C65_same_size {D : Type} [Scalar D] [Widen F D] {img img' : Image F}
    (hw : WellFormed img.buffer) (hk : Keeps D img img') :
    WellFormed img'.buffer ∧ img'.width = img.width ∧ img'.height = img.height ∧
      img'.bg_color = img.bg_color := by
  obtain ⟨hm1, hm2, hm3, hm4, hm5⟩ := gives_moves Rgb.NONE hw
  cases hk with
  | mod_colors f =>
    obtain ⟨h1, h2, h3⟩ := mod_colors_wf hw f
    exact ⟨h1, h2, h3, rfl⟩
  | try_mod_colors f _ res he =>
    rw [(C65_pixels img).2.2.2.2.2.2.2.2.2.2.2.2.2.1] at he
    generalize hv : img.buffer.try_mod_colors (m := R) f = v at he
    rcases v with _ | ⟨b, r⟩
    · cases he
    · cases he
      obtain ⟨h1, h2, h3⟩ := try_mod_size hw hv
      exact ⟨h1, h2, h3, rfl⟩
  | mod_colors_enumerated f _ he => exact meta_gives (gives_mod_enumerated hw f) he
  | try_mod_colors_enumerated f =>
    obtain ⟨h1, h2, h3⟩ := try_mod_enumerated_size hw f
    exact ⟨h1, h2, h3, rfl⟩
  | map_colors f s s' _ he =>
    exact withPixelsAnd_gives (givesS_map hw f) (by rw [← with_meta_stateT img]; exact he)
  | try_map_colors f _ he =>
    rw [(C65_pixels img).2.2.2.2.2.2.2.2.2.2.2.2.2.2] at he
    generalize hv : img.buffer.try_map_colors (m := R) f = v at he
    rcases v with _ | (_ | b)
    · cases he
    · cases he
    · cases he
      obtain ⟨h1, h2, h3⟩ := try_map_size hw hv
      exact ⟨h1, h2, h3, rfl⟩
  | map_colors_enumerated f _ he => exact meta_gives (gives_enumerated hw f) he
  | try_map_colors_enumerated f _ he =>
    rw [(C65_pixels img).2.2.2.2.2.2.2.2.2.2.2.2.1] at he
    generalize hv : img.buffer.try_map_colors_enumerated f = v at he
    rcases v with _ | b
    · cases he
    · cases he
      obtain ⟨h1, h2, h3⟩ := try_map_enumerated_size hw hv
      exact ⟨h1, h2, h3, rfl⟩
  | data_mut d hd => exact ⟨⟨hw.1, hd.trans hw.2⟩, rfl, rfl, rfl⟩
  | put_pixel x y c _ he => exact meta_gives (gives_put_pixel hw x y c) he
  | flip_horizontal _ he => exact meta_gives hm1 he
  | flip_vertical _ he => exact meta_gives hm2 he
  | rotate180 _ he => exact meta_gives hm3 he
  | rotate a filter _ he => exact meta_gives (gives_rotate hw _ _ _) he
  | edge_detection mode _ he => exact meta_gives (gives_edge_detection hw _) he
  | random_noise g a s s' _ he =>
    exact withPixelsAnd_gives (givesS_map hw _) (by rw [← with_meta_stateT img]; exact he)
  | add_random_noise g a s s' _ he =>
    exact withPixelsAnd_gives (givesS_mod hw _) (by rw [← with_buffer_stateT img]; exact he)
  | salt_n_pepper_noise g a s s' _ he =>
    exact withPixelsAnd_gives (givesS_map hw _) (by rw [← with_meta_stateT img]; exact he)
  | add_salt_n_pepper_noise g a s s' _ he =>
    exact withPixelsAnd_gives (givesS_mod hw _) (by rw [← with_buffer_stateT img]; exact he)
  | rgb_noise g a s s' _ he =>
    exact withPixelsAnd_gives (givesS_map hw _) (by rw [← with_meta_stateT img]; exact he)
  | add_rgb_noise g a s s' _ he =>
    exact withPixelsAnd_gives (givesS_mod hw _) (by rw [← with_buffer_stateT img]; exact he)
  | gaussian_noise g a s s' _ he =>
    exact withPixelsAnd_gives (givesS_map hw _) (by rw [← with_meta_stateT img]; exact he)
  | add_gaussian_noise g a s s' _ he =>
    exact withPixelsAnd_gives (givesS_mod hw _) (by rw [← with_buffer_stateT img]; exact he)
  | gaussian_blur r sigma _ he => exact meta_gives (gives_gaussian_blur hw _ _) he
  | unsharp r f sigma _ he => exact meta_gives (gives_unsharp hw _ _ _) he
  | white_balance t _ he => exact meta_gives (gives_balance hw _ _) he
  | balance mode t _ he => exact meta_gives (gives_balance hw _ _) he
  | drawing r mode _ he => exact meta_gives (gives_drawing hw _ _) he
  | interlace o _ he => exact meta_gives (gives_interlace _ _) he
  | despeckle t n _ he => exact meta_gives (gives_despeckle hw _ _) he
  | stretch_contrast t _ he => exact meta_gives (gives_stretch_contrast hw _) he
  | equalize mode _ he => exact meta_gives (gives_equalize hw _) he
  | symmetric_nearest_neighbor r c _ he => exact meta_gives (gives_snn _ _ _) he
  | change_color_temperature o n t _ he => exact meta_gives (gives_temperature hw _ _ _) he
  | optimize_color_temperature f t _ he => exact meta_gives (gives_temperature hw _ _ _) he
  | optimize_lightness f => exact ⟨map_wf hw _, rfl, rfl, rfl⟩
  | optimize_saturation o mode => exact ⟨map_wf hw _, rfl, rfl, rfl⟩
  | apply_palette palette => exact ⟨map_wf hw _, rfl, rfl, rfl⟩
  | apply_palette_in_place palette =>
    obtain ⟨h1, h2, h3⟩ := mod_colors_wf hw
      fun c => get_color_from_palette (palette.buffer.convert .rgb (.lab .D65 .O2)) c
    exact ⟨h1, h2, h3, rfl⟩

theorem decode_buffer_wf {libs : Libs F} (hl : Honest libs) {bytes : List Nat} {b : PixelBuffer (Col F)}
    (hv : (decode_buffer libs bytes).run = .ok (.ok b)) : WellFormed b := by
  unfold decode_buffer at hv
  cases hf : Format.from_reader bytes with
  | error e => rw [hf] at hv; cases hv
  | ok f =>
    rw [hf] at hv
    exact decode_wf libs hl _ _ hv

theorem jpegCodec_wf [FloatBytes F] {libs : Libs F} (hl : Honest libs) {b out : PixelBuffer (Col F)}
    {q : Nat} (hc : jpegCodec libs b q = some out) : WellFormed out := by
  unfold jpegCodec at hc
  repeat' split at hc
  all_goals first
    | (cases hc; exact decode_buffer_wf hl ‹_›)
    | cases hc

omit [Scalar F] in
theorem try_compose_stateT_wf {σ E : Type} {buffers : List (PixelBuffer (Col F))} {d : Col F}
    {f : Nat → Nat → List (Col F) → StateT σ R (Except E (Col F))} {s s' : σ} {b : PixelBuffer (Col F)}
    (h : try_compose_slice (m := StateT σ R) buffers d f s = .ok (.ok b, s')) : WellFormed b := by
  simp only [try_compose_slice, bind, StateT.bind, Except.bind] at h
  repeat' split at h
  all_goals first
    | exact (try_func_stateT_wf h).1
    | cases h

omit [Scalar F] in
theorem compose_stateT_wf {σ : Type} {buffers : List (PixelBuffer (Col F))} {d : Col F}
    {f : Nat → Nat → List (Col F) → StateT σ R (Col F)} {s s' : σ} {b : PixelBuffer (Col F)}
    (h : compose_slice (m := StateT σ R) buffers d f s = .ok (b, s')) : WellFormed b := by
  simp only [compose_slice, bind, StateT.bind, Except.bind] at h
  split at h
  · cases h
  · rename_i v hv
    obtain ⟨v1, v2⟩ := v
    cases v1 with
    | error e => cases h
    | ok b' => cases h; exact try_compose_stateT_wf hv

/-- C65: every image a program can hold is empty, or has between 1 and 1073741823 pixels, and stores
exactly width * height of them (if the codec libraries keep their contract). -/
theorem C65_wellFormed {D : Type} [Scalar D] [Widen F D] [FloatBytes F] {libs : Libs F} (hl : Honest libs)
    {img : Image F} (hm : Made D libs img) : WellFormed img.buffer := by
  induction hm with
  | new w h img he =>
    obtain ⟨b, h1, h2⟩ := ((C65_new w h Rgb.NONE [] img.buffer img).1 img).1 he
    rw [h2]
    exact C01_reachable_wellFormed (.new _ _ _ _ _ h1)
  | new_with_color w h c img he =>
    obtain ⟨b, h1, h2⟩ := ((C65_new w h c [] img.buffer img).2.1 img).1 he
    rw [h2]
    exact C01_reachable_wellFormed (.new_with_color _ _ _ _ _ h1)
  | new_from_raw w h d img he =>
    obtain ⟨b, h1, h2⟩ := ((C65_new w h Rgb.NONE d img.buffer img).2.2.1 img).1 he
    rw [h2]
    exact (gives_raw _ _ _ _ h1).1
  | new_from_buffer b hb => exact hb
  | new_from_raw_with_meta img w h d img' _ he ih =>
    obtain ⟨b, h1, h2⟩ := ((C65_new w h Rgb.NONE d img.buffer img).2.2.2.1 img').1 he
    rw [h2]
    exact (gives_raw _ _ _ _ h1).1
  | new_from_buffer_with_meta img b _ hb ih => exact hb
  | «open» fs path img he =>
    rw [(C65_open libs fs path []).1] at he
    generalize hv : (decode_file libs fs path).run = v at he
    rcases v with _ | (_ | b)
    · cases he
    · cases he
    · cases he
      unfold decode_file at hv
      repeat' split at hv
      all_goals first
        | cases hv
        | exact decode_wf libs hl _ _ hv
  | read_from_buffer bytes img he =>
    rw [(C65_open libs ⟨fun _ => 0, fun _ => none, fun _ => none, fun _ => none, fun _ d => d⟩ "" bytes).2] at he
    generalize hv : (decode_buffer libs bytes).run = v at he
    rcases v with _ | (_ | b)
    · cases he
    · cases he
    · cases he
      exact decode_buffer_wf hl hv
  | keeps img img' _ hk ih =>
    obtain ⟨h1, _⟩ := C65_same_size ih hk
    exact h1
  | buffer_mut img b _ hb ih => exact hb
  | crop img x y w h img' _ he ih =>
    rw [(C65_operations img).1] at he
    generalize hv : crop Rgb.NONE img.buffer x y w h = v at he
    cases v with
    | error p => cases he
    | ok b => cases he; exact crop_wf _ ih _ _ _ _ hv
  | rotate90 img img' _ he ih =>
    obtain ⟨h1, _⟩ := meta_gives (gives_moves Rgb.NONE ih).2.2.2.1 he
    exact h1
  | rotate270 img img' _ he ih =>
    obtain ⟨h1, _⟩ := meta_gives (gives_moves Rgb.NONE ih).2.2.2.2 he
    exact h1
  | resize img w h filter img' _ he ih =>
    obtain ⟨h1, _⟩ := meta_gives (gives_resize ih _ _ _) he
    exact h1
  | resize_pct img p filter img' _ he ih =>
    obtain ⟨h1, _⟩ := meta_gives (gives_resize ih _ _ _) he
    exact h1
  | with_jpeg_quality img q preserve img' _ he ih =>
    rw [(C65_operations_tone D libs img img).2.2.2.2.2.2.2] at he
    unfold jpeg_quality at he
    generalize hc : jpegCodec libs img.buffer q = c at he
    cases c with
    | none => cases he
    | some out =>
      cases preserve <;> cases he
      · exact jpegCodec_wf hl hc
      · exact ⟨(jpegCodec_wf hl hc).1, by rw [copyAlpha_length]; exact (jpegCodec_wf hl hc).2⟩
  | blend img other op i img' _ _ he ih _ =>
    obtain ⟨h1, _⟩ := meta_gives (gives_blend img.buffer other.buffer op i) he
    exact h1
  | compose images d f s s' img' _ he ih =>
    cases images with
    | nil => cases he
    | cons first rest =>
      simp only [Image.compose_slice, bind, StateT.bind, Except.bind] at he
      split at he
      · cases he
      · rename_i v hv
        cases he
        exact compose_stateT_wf hv
  | try_compose images d f s s' img' _ he ih =>
    cases images with
    | nil => cases he
    | cons first rest =>
      simp only [Image.try_compose_slice, bind, StateT.bind, Except.bind] at he
      split at he
      · cases he
      · rename_i v hv
        obtain ⟨v1, v2⟩ := v
        cases v1 with
        | error e => cases he
        | ok b =>
          cases he
          exact try_compose_stateT_wf hv

omit [Scalar F] in
theorem meta_bg {img img' : Image F} {x : R (PixelBuffer (Col F))}
    (he : (do return Image.new_from_buffer_with_meta img (← x)) = .ok img') :
    img'.bg_color = img.bg_color := by
  cases x <;> cases he
  rfl

omit [Scalar F] in
theorem meta_bg_stateT {σ : Type} {img img' : Image F} {x : StateT σ R (PixelBuffer (Col F))} {s s' : σ}
    (he : (do return Image.new_from_buffer_with_meta img (← x) : StateT σ R (Image F)) s = .ok (img', s')) :
    img'.bg_color = img.bg_color := by
  rw [with_meta_stateT] at he
  rcases hv : x s with _ | ⟨b, s''⟩ <;> rw [hv] at he <;> cases he
  rfl

theorem keeps_bg {D : Type} [Scalar D] [Widen F D] {img img' : Image F} (hk : Keeps D img img') :
    img'.bg_color = img.bg_color := by
  cases hk with
  | try_mod_colors f _ res he =>
    rw [(C65_pixels img).2.2.2.2.2.2.2.2.2.2.2.2.2.1] at he
    rcases hv : img.buffer.try_mod_colors (m := R) f with _ | ⟨b, r⟩ <;> rw [hv] at he <;> cases he
    rfl
  | try_map_colors f _ he =>
    rw [(C65_pixels img).2.2.2.2.2.2.2.2.2.2.2.2.2.2] at he
    rcases hv : img.buffer.try_map_colors (m := R) f with _ | (_ | b) <;> rw [hv] at he <;> cases he
    rfl
  | try_map_colors_enumerated f _ he =>
    rw [(C65_pixels img).2.2.2.2.2.2.2.2.2.2.2.2.1] at he
    rcases hv : img.buffer.try_map_colors_enumerated f with _ | b <;> rw [hv] at he <;> cases he
    rfl
  | map_colors f s s' _ he => exact meta_bg_stateT he
  | random_noise g a s s' _ he => exact meta_bg_stateT he
  | add_random_noise g a s s' _ he => exact meta_bg_stateT he
  | salt_n_pepper_noise g a s s' _ he => exact meta_bg_stateT he
  | add_salt_n_pepper_noise g a s s' _ he => exact meta_bg_stateT he
  | rgb_noise g a s s' _ he => exact meta_bg_stateT he
  | add_rgb_noise g a s s' _ he => exact meta_bg_stateT he
  | gaussian_noise g a s s' _ he => exact meta_bg_stateT he
  | add_gaussian_noise g a s s' _ he => exact meta_bg_stateT he
  | _ => first
    | rfl
    | exact meta_bg ‹_›

/-- C65: no image that a program can hold has a background colour. -/
theorem C65_no_background {D : Type} [Scalar D] [Widen F D] [FloatBytes F] {libs : Libs F} {img : Image F}
    (hm : Made D libs img) : img.bg_color = none := by
  induction hm with
  | new w h img he => obtain ⟨b, _, h2⟩ := ((C65_new w h Rgb.NONE [] img.buffer img).1 img).1 he; rw [h2]
  | new_with_color w h c img he =>
    obtain ⟨b, _, h2⟩ := ((C65_new w h c [] img.buffer img).2.1 img).1 he; rw [h2]
  | new_from_raw w h d img he =>
    obtain ⟨b, _, h2⟩ := ((C65_new w h Rgb.NONE d img.buffer img).2.2.1 img).1 he; rw [h2]
  | new_from_buffer b hb => rfl
  | new_from_buffer_with_meta img b _ hb ih => exact ih
  | buffer_mut img b _ hb ih => exact ih
  | «open» fs path img he =>
    rw [(C65_open libs fs path []).1] at he
    rcases hv : (decode_file libs fs path).run with _ | (_ | b) <;> rw [hv] at he <;> cases he
    rfl
  | read_from_buffer bytes img he =>
    rw [(C65_open libs ⟨fun _ => 0, fun _ => none, fun _ => none, fun _ => none, fun _ d => d⟩ "" bytes).2]
      at he
    rcases hv : (decode_buffer libs bytes).run with _ | (_ | b) <;> rw [hv] at he <;> cases he
    rfl
  | keeps img img' _ hk ih => exact (keeps_bg hk).trans ih
  | new_from_raw_with_meta img w h d img' _ he ih => exact (meta_bg he).trans ih
  | crop img x y w h img' _ he ih => exact (meta_bg he).trans ih
  | rotate90 img img' _ he ih => exact (meta_bg he).trans ih
  | rotate270 img img' _ he ih => exact (meta_bg he).trans ih
  | resize img w h filter img' _ he ih => exact (meta_bg he).trans ih
  | resize_pct img p filter img' _ he ih => exact (meta_bg he).trans ih
  | with_jpeg_quality img q preserve img' _ he ih => exact (meta_bg he).trans ih
  | blend img other op i img' _ _ he ih _ => exact (meta_bg he).trans ih
  | compose images d f s s' img' _ he ih =>
    cases images with
    | nil => cases he
    | cons first rest =>
      simp only [Image.compose_slice, bind, StateT.bind, Except.bind] at he
      split at he
      · cases he
      · cases he; exact ih first (by simp)
  | try_compose images d f s s' img' _ he ih =>
    cases images with
    | nil => cases he
    | cons first rest =>
      simp only [Image.try_compose_slice, bind, StateT.bind, Except.bind] at he
      split at he
      · cases he
      · rename_i v hv
        obtain ⟨v1, v2⟩ := v
        cases v1 <;> cases he
        exact ih first (by simp)

/-- C65: so a free rotation always fills the corners with transparent black (C21 says where). -/
theorem C65_rotate {D : Type} [Scalar D] [Widen F D] [FloatBytes F] {libs : Libs F} {img : Image F}
    (hm : Made D libs img) (angle : F) (filter : FilterMode) :
    img.rotate angle filter = withPixels img (rotate img.buffer angle Rgb.NONE filter) := by
  unfold Image.rotate
  rw [C65_no_background hm]
  exact with_meta_eq _ _

/-- C65: a free rotation uses the background colour of the image if it has one. -/
theorem C65_rotate_background (img : Image F) (angle : F) (filter : FilterMode) (bg : Col F)
    (hb : img.bg_color = some bg) :
    img.rotate angle filter = withPixels img (rotate img.buffer angle bg filter) := by
  unfold Image.rotate
  rw [hb]
  exact with_meta_eq _ _

/-! ## C66 Percentage resize -/

/-- C66: the result has the size computed from the percentage and shows the image resampled to it,
as `resize` does. (The automatic filter as in C18.) -/
theorem C66_resize_pct [Coords F] {img : Image F} {w h px} (s : Shows img.buffer w h px) (hw : 0 < w)
    (p : F) (filter : FilterMode) (hv : ValidSize (percentOf p w) (percentOf p h))
    (hne : ¬ (percentOf p w = w ∧ percentOf p h = h))
    (hauto : filter = .Auto → w ≤ 134217728 ∧ h ≤ 134217728) :
    ∃ img', img.resize_pct p filter = .ok img' ∧ img'.bg_color = img.bg_color ∧
      Shows img'.buffer (percentOf p w) (percentOf p h)
        (resized filter w h px (percentOf p w) (percentOf p h)) := by
  obtain ⟨b', h1, h2⟩ := C18_resize s hw _ _ hv hne filter hauto
  refine ⟨⟨b', img.bg_color⟩, ?_, rfl, h2⟩
  have e : img.resize_pct p filter =
      img.resize (percentOf p img.buffer.width) (percentOf p img.buffer.height) filter := by
    unfold percentOf; rw [Nat.max_comm 1, Nat.max_comm 1]; rfl
  rw [e, s.width, s.height, (C65_operations img).2.2.2.2.2.2.2.1, h1]
  rfl

/-- C66: a percentage that gives the old size changes nothing. -/
theorem C66_same (img : Image F) (p : F) (filter : FilterMode)
    (hw : percentOf p img.width = img.width) (hh : percentOf p img.height = img.height) :
    img.resize_pct p filter = .ok img := by
  have e : img.resize_pct p filter =
      img.resize (percentOf p img.width) (percentOf p img.height) filter := by
    unfold percentOf; rw [Nat.max_comm 1, Nat.max_comm 1]; rfl
  rw [e, hw, hh, (C65_operations img).2.2.2.2.2.2.2.1]
  show withPixels img (resize img.buffer img.buffer.width img.buffer.height filter) = _
  rw [C18_resize_same]
  rfl

/-- C66: a percentage that gives too many pixels panics. -/
theorem C66_too_large {img : Image F} (hb : WellFormed img.buffer) (p : F) (filter : FilterMode)
    (hv : ¬ ValidSize (percentOf p img.width) (percentOf p img.height)) :
    img.resize_pct p filter = .error .invalidSize := by
  have e : img.resize_pct p filter =
      img.resize (percentOf p img.width) (percentOf p img.height) filter := by
    unfold percentOf; rw [Nat.max_comm 1, Nat.max_comm 1]; rfl
  rw [e, (C65_operations img).2.2.2.2.2.2.2.1, C18_resize_invalid hb _ _ hv]
  rfl

/-- C66: an empty image cannot be resized by any percentage. -/
theorem C66_empty {img : Image F} {px} (s : Shows img.buffer 0 0 px) (p : F) (filter : FilterMode) :
    ∃ e, img.resize_pct p filter = .error e := by
  by_cases hv : ValidSize (percentOf p img.width) (percentOf p img.height)
  · have e : img.resize_pct p filter =
        img.resize (percentOf p img.width) (percentOf p img.height) filter := by
      unfold percentOf; rw [Nat.max_comm 1, Nat.max_comm 1]; rfl
    obtain ⟨e', h'⟩ := C18_resize_empty s _ _ hv (by unfold percentOf; omega) filter
    rw [e, (C65_operations img).2.2.2.2.2.2.2.1, h']
    exact ⟨_, rfl⟩
  · exact ⟨_, C66_too_large s.wellFormed p filter hv⟩

/-- C66 (exact arithmetic): `n` pixels at `p` per cent are `n * p / 100` pixels, rounded (halves up),
but at least 1. -/
theorem C66_side [Junk] (p : ℝ) (n : Nat) (hp : n * p / 100 < 4294967295) :
    (percentOf p n : Int) = max 1 ⌊n * p / 100 + 1 / 2⌋ := by
  have e : ((lit (n : ℚ) : ℝ) *. (p /. lit 100)) = n * p / 100 := by
    rw [Exact.mul, Exact.div (by rw [Exact.lit]; norm_num), Exact.lit, Exact.lit]
    push_cast; ring
  have r : Scalar.toInt 0 4294967295 (Scalar.round ((lit (n : ℚ) : ℝ) *. (p /. lit 100))) =
      max 0 (min 4294967295 (if (n * p / 100 : ℝ) < 0 then ⌈n * p / 100 - 1 / 2⌉
        else ⌊n * p / 100 + 1 / 2⌋)) := by
    rw [e, ← Exact.toInt_int]
    congr 1
    show (if _ then _ else _) = _
    split <;> simp
  have hu : ((Scalar.asU32 (Scalar.round ((lit (n : ℚ) : ℝ) *. (p /. lit 100))) : Nat) : Int) =
      max 0 (min 4294967295 (if (n * p / 100 : ℝ) < 0 then ⌈n * p / 100 - 1 / 2⌉
        else ⌊n * p / 100 + 1 / 2⌋)) := by
    unfold Scalar.asU32
    rw [r]
    exact Int.toNat_of_nonneg (le_max_left _ _)
  unfold percentOf
  rw [Nat.cast_max]
  show max 1 ((Scalar.asU32 (Scalar.round ((lit (n : ℚ) : ℝ) *. (p /. lit 100))) : Nat) : Int) = _
  rw [hu]
  split
  · rename_i hneg
    have h1 : ⌈(n * p / 100 - 1 / 2 : ℝ)⌉ ≤ 0 := Int.ceil_le.2 (by push_cast; linarith)
    have h2 : ⌊(n * p / 100 + 1 / 2 : ℝ)⌋ < 1 := Int.floor_lt.2 (by push_cast; linarith)
    omega
  · have h2 : ⌊(n * p / 100 + 1 / 2 : ℝ)⌋ < 4294967296 := Int.floor_lt.2 (by push_cast; linarith)
    omega

/-- C66 (exact arithmetic): 100 per cent changes nothing. -/
theorem C66_hundred_exact [Junk] {img : Image ℝ} {w h px} (s : Shows img.buffer w h px) (hw : 0 < w)
    (filter : FilterMode) : img.resize_pct 100 filter = .ok img := by
  have side : ∀ n : Nat, 0 < n → n ≤ 1073741823 → percentOf (100 : ℝ) n = n := by
    intro n hn hl
    have e : ((n : ℝ) * 100 / 100) = n := by ring
    have := C66_side 100 n (by rw [e]; have : (n : ℝ) ≤ 1073741823 := by exact_mod_cast hl
                               linarith)
    rw [e, show ((n : ℝ) + 1 / 2) = (((n : Int) : ℝ) + 1 / 2) by push_cast; rfl, Int.floor_intCast_add,
      show ⌊(1 / 2 : ℝ)⌋ = 0 by norm_num] at this
    omega
  have hh : 0 < h := by rcases s.size with ⟨h1, _⟩ | ⟨_, h, _⟩ <;> omega
  refine C66_same img 100 filter ?_ ?_
  · show percentOf (100 : ℝ) img.buffer.width = img.buffer.width
    rw [s.width]; exact side w hw s.size.width_le
  · show percentOf (100 : ℝ) img.buffer.height = img.buffer.height
    rw [s.height]; exact side h hh s.size.height_le

/-- C66 (the program's own arithmetic): 100 per cent changes nothing if no side is longer than 2^24. -/
theorem C66_hundred [Libm b32] {img : Image F32} {w h px} (s : Shows img.buffer w h px) (hw : 0 < w)
    (hw2 : w ≤ 16777216) (hh2 : h ≤ 16777216) (filter : FilterMode) :
    img.resize_pct (lit 100) filter = .ok img := by
  have side : ∀ n : Nat, 0 < n → n ≤ 16777216 → percentOf (lit 100 : F32) n = n := by
    intro n hn hl
    have l := FP.lit32 (n : Int) (by rw [Nat.abs_cast]; exact_mod_cast hl)
    have one : ((lit 100 : F32) /. lit 100) = FP.ofRat b32 false 1 := by
      show FP.div (FP.ofRat b32 false 100) (FP.ofRat b32 false 100) = _
      decide +kernel
    have hr := FP.int_finite (f := b32) (n : Int) (by rw [Nat.abs_cast]; exact_mod_cast hl)
    have m : (FP.mul (FP.ofRat b32 false ((n : Int) : ℚ)) (FP.ofRat b32 false 1)).fin = true ∧
        (FP.mul (FP.ofRat b32 false ((n : Int) : ℚ)) (FP.ofRat b32 false 1)).val = ((n : Int) : ℚ) := by
      rw [FP.mul_fin l.1 FP.lit1.1, l.2, FP.lit1.2, mul_one]
      exact FP.ofRat_rep hr.1 hr.2
    have hx : Scalar.asU32 (Scalar.round (FP.mul (FP.ofRat b32 false ((n : Int) : ℚ))
        (FP.ofRat b32 false 1) : F32)) = n := by
      revert m
      generalize FP.mul (FP.ofRat b32 false ((n : Int) : ℚ)) (FP.ofRat b32 false 1) = x
      rintro ⟨m1, m2⟩
      cases x with
      | nan => simp [FP.fin] at m1
      | inf b => simp [FP.fin] at m1
      | zero b =>
        rw [show (FP.zero b : F32).val = 0 from rfl] at m2
        have : (n : Int) = 0 := by exact_mod_cast m2.symm
        omega
      | num q hq =>
        have hq' : q = ((n : Int) : ℚ) := m2
        have hra : FP.roundAway q = n := by
          rw [hq']
          unfold FP.roundAway
          rw [if_neg (not_lt.2 (by push_cast; positivity)), Int.floor_intCast_add]
          norm_num
        show (FP.toInt 0 4294967295 (FP.ofRat b32 (decide (q < 0)) ((FP.roundAway q : Int) : ℚ))).toNat = n
        rw [hra]
        have o := FP.ofRat_rep (s := decide (q < 0)) hr.1 hr.2
        rw [FP.toInt_fin _ _ o.1, o.2]
        unfold FP.trunc
        rw [if_neg (not_lt.2 (by push_cast; positivity)), Int.floor_intCast]
        omega
    unfold percentOf
    rw [one]
    show max 1 (Scalar.asU32 (Scalar.round (FP.mul (FP.ofRat b32 false ((n : Nat) : ℚ))
        (FP.ofRat b32 false 1) : F32))) = n
    rw [show ((n : Nat) : ℚ) = (((n : Nat) : Int) : ℚ) by push_cast; rfl, hx]
    omega
  have hh : 0 < h := by rcases s.size with ⟨h1, _⟩ | ⟨_, h, _⟩ <;> omega
  refine C66_same img _ filter ?_ ?_
  · show percentOf _ img.buffer.width = img.buffer.width
    rw [s.width]; exact side w hw hw2
  · show percentOf _ img.buffer.height = img.buffer.height
    rw [s.height]; exact side h hh hh2

/-- C66: beyond 2^24 the program's arithmetic can lose a pixel: 100 per cent of 16777217 pixels are
16777216. -/
theorem C66_hundred_large [Libm b32] : percentOf (lit 100 : F32) 16777217 = 16777216 := by
  show max 1 (FP.toInt 0 4294967295 (FP.integral FP.roundAway (FP.mul (FP.ofRat b32 false 16777217)
    (FP.div (FP.ofRat b32 false 100) (FP.ofRat b32 false 100))))).toNat = 16777216
  decide +kernel

/-! ## Examples -/

section examples
variable [FloatBytes F] {D : Type} [Scalar D] [Widen F D]

/-- An image that went through several methods. -/
example : ∃ img : Image F, Made D demo img ∧ img.data = [Rgb.WHITE, Rgb.BLACK] ∧ img.bg_color = none :=
  ⟨⟨⟨1, 2, [Rgb.WHITE, Rgb.BLACK]⟩, none⟩,
    .rotate90 ⟨⟨2, 1, [Rgb.WHITE, Rgb.BLACK]⟩, none⟩ _
      (.keeps ⟨⟨2, 1, [Rgb.BLACK, Rgb.WHITE]⟩, none⟩ _
        (.new_from_raw 2 1 [Rgb.BLACK, Rgb.WHITE] _ rfl) (.flip_horizontal _ _ rfl)) rfl, rfl, rfl⟩

/-- The hypotheses of C65_same_size. -/
example : WellFormed (⟨2, 1, [Rgb.BLACK, Rgb.WHITE]⟩ : PixelBuffer (Col F)) ∧
    Keeps D (⟨⟨2, 1, [Rgb.BLACK, Rgb.WHITE]⟩, none⟩ : Image F)
      ⟨⟨2, 1, [Rgb.WHITE, Rgb.BLACK]⟩, none⟩ :=
  ⟨⟨by simp [ValidSize], rfl⟩, .flip_horizontal _ _ rfl⟩

end examples

/-- 50 per cent of 3 x 2 pixels: 2 x 1 (halves round up); 1 per cent: 1 x 1. -/
example [Junk] : percentOf (50 : ℝ) 3 = 2 ∧ percentOf (50 : ℝ) 2 = 1 ∧ percentOf (1 : ℝ) 3 = 1 := by
  have h1 := C66_side 50 3 (by norm_num)
  have h2 := C66_side 50 2 (by norm_num)
  have h3 := C66_side 1 3 (by norm_num)
  rw [show ⌊((3 : Nat) : ℝ) * 50 / 100 + 1 / 2⌋ = 2 by rw [Int.floor_eq_iff]; norm_num] at h1
  rw [show ⌊((2 : Nat) : ℝ) * 50 / 100 + 1 / 2⌋ = 1 by rw [Int.floor_eq_iff]; norm_num] at h2
  rw [show ⌊((3 : Nat) : ℝ) * 1 / 100 + 1 / 2⌋ = 0 by rw [Int.floor_eq_iff]; norm_num] at h3
  omega

/-- The hypotheses of C66_resize_pct, in the program's arithmetic. -/
example [Libm b32] : ValidSize (percentOf (lit 250 : F32) 3) (percentOf (lit 250 : F32) 2) ∧
    ¬ (percentOf (lit 250 : F32) 3 = 3 ∧ percentOf (lit 250 : F32) 2 = 2) := by
  have h1 : percentOf (lit 250 : F32) 3 = 8 := by
    show max 1 (FP.toInt 0 4294967295 (FP.integral FP.roundAway (FP.mul (FP.ofRat b32 false 3)
      (FP.div (FP.ofRat b32 false 250) (FP.ofRat b32 false 100))))).toNat = 8
    decide +kernel
  have h2 : percentOf (lit 250 : F32) 2 = 5 := by
    show max 1 (FP.toInt 0 4294967295 (FP.integral FP.roundAway (FP.mul (FP.ofRat b32 false 2)
      (FP.div (FP.ofRat b32 false 250) (FP.ofRat b32 false 100))))).toNat = 5
    decide +kernel
  rw [h1, h2]
  exact ⟨by simp [ValidSize], by omega⟩

end D10
