import Verif.Lemmas.EdgesAlike

/-!
# C127: a whole program of operations stays close to exact arithmetic
-/

namespace D10
open Spec
open Scalar (lit)

section
variable [Libm b32] [Junk]

/-! ## Colours -/

/-- Inverting, brightness, contrast, both, gray (except by saturation) and sepia: what each formula makes of a
difference there already was, and what rounding adds. -/
theorem C127_colours (b k : F32) (hb : b.fin = true) (hk : k.fin = true) (i : Intensity) :
    Follows 1 (1 / 33554432) Rgb.invert Rgb.invert ∧
    Follows 1 (1 / 16777216) (Rgb.with_brightness · b) (Rgb.with_brightness · b.val) ∧
    Follows (max 1 |(k.val : ℝ)|) ((|(k.val : ℝ)| + 4) / 33554432) (Rgb.with_contrast · k) (Rgb.with_contrast · k.val) ∧
    (|b.val| ≤ 1 → Follows (max 1 |(k.val : ℝ)|) ((|(k.val : ℝ)| * 6 + 4) / 33554432)
      (Rgb.with_brightness_contrast · b k) (Rgb.with_brightness_contrast · b.val k.val)) ∧
    (i ≠ .Saturation →
      Follows 1 (1 / 1048576) (Rgb.to_gray_with_intensity · i) (Rgb.to_gray_with_intensity · i)) ∧
    Follows 1.351 (1 / 1048576) Rgb.with_sepia Rgb.with_sepia :=
  ⟨follows_invert, follows_brightness hb, follows_contrast hk, fun h => follows_brightness_contrast hb h hk,
   follows_gray i, follows_sepia⟩

/-- Gamma up to 1, with a `powf` within `δ`. -/
theorem C127_gamma {δ : ℝ} (hL : PowWithin δ) (g : F32) (hg : g.fin = true) (g0 : 1 / 2 ^ 100 ≤ g.val) (g1 : g.val ≤ 1) :
    Follows (1 / (g.val : ℝ)) (δ + 1 / 8388608) (Rgb.with_gamma · g) (Rgb.with_gamma · g.val) :=
  follows_gamma hL hg g0 g1

/-! ## Pictures -/

omit [Junk] in
/-- A picture in range and the same picture in exact numbers are alike, without any distance. -/
theorem C127_same {b : PixelBuffer (Col F32)} (hb : WellFormed b) (hu : ∀ c ∈ b.data, UnitCol c) :
    Alike 0 b (b.map_colors exact) := by
  obtain ⟨px, s⟩ := wf_shows Rgb.NONE hb
  refine ⟨_, _, px, _, s, C07_map_colors s exact, fun x y hx hy => ?_⟩
  have u : UnitCol (px x y) := hu _ (by
    rw [s.pixels]
    exact List.mem_flatMap.2 ⟨y, List.mem_range.2 hy, List.mem_map.2 ⟨x, List.mem_range.2 hx, rfl⟩⟩)
  exact ⟨u, exact_unitReal u, close_exact u⟩

omit [Libm b32] [Junk] in
theorem Spec.Alike.more {ε ε' : ℝ} {a b} (h : Alike ε a b) (he : ε ≤ ε') : Alike ε' a b := by
  obtain ⟨w, h', px, ex, s, t, k⟩ := h
  exact ⟨w, h', px, ex, s, t, fun x y hx hy => ⟨(k x y hx hy).1, (k x y hx hy).2.1,
    (k x y hx hy).2.2.via (s := 0) (by simp [Apart]) (by linarith)⟩⟩

omit [Libm b32] [Junk] in
theorem Spec.Alike.colors {ε L η : ℝ} {a b} (k : Alike ε a b) {f g} (hf : Follows L η f g) :
    Alike (L * ε + η) (a.map_colors f) (b.map_colors g) := by
  obtain ⟨w, h, px, ex, s, t, k⟩ := k
  refine ⟨w, h, _, _, C07_map_colors s f, C07_map_colors t g, fun x y hx hy => ?_⟩
  obtain ⟨k1, k2, k3⟩ := k x y hx hy
  exact ⟨hf.range _ k1, hf.range_exact _ k2, hf.close _ _ _ k1 k2 k3⟩

/-- **Both or neither.** On alike pictures each of these calls succeeds on both sides, with alike results, or on
neither. -/
theorem C127_both {ε : ℝ} {a : Image F32} {b : Image ℝ} (k : Alike ε a.buffer b.buffer) :
    (∀ x y w h, ∃ a' b', a.crop x y w h = .ok a' ∧ b.crop x y w h = .ok b' ∧ Alike ε a'.buffer b'.buffer) ∧
    (∃ a' b', a.flip_horizontal = .ok a' ∧ b.flip_horizontal = .ok b' ∧ Alike ε a'.buffer b'.buffer) ∧
    (∃ a' b', a.flip_vertical = .ok a' ∧ b.flip_vertical = .ok b' ∧ Alike ε a'.buffer b'.buffer) ∧
    (∃ a' b', a.rotate90 = .ok a' ∧ b.rotate90 = .ok b' ∧ Alike ε a'.buffer b'.buffer) ∧
    (∃ a' b', a.rotate180 = .ok a' ∧ b.rotate180 = .ok b' ∧ Alike ε a'.buffer b'.buffer) ∧
    (∃ a' b', a.rotate270 = .ok a' ∧ b.rotate270 = .ok b' ∧ Alike ε a'.buffer b'.buffer) ∧
    (∀ offset, offset < 2 ^ 31 → a.width + offset ≤ 2 ^ 31 →
      ∃ a' b', a.interlace offset = .ok a' ∧ b.interlace offset = .ok b' ∧ Alike ε a'.buffer b'.buffer) ∧
    (∀ x y c d, UnitCol c → UnitReal d → CloseCol ε c d →
      (∃ a' b', a.put_pixel x y c = .ok a' ∧ b.put_pixel x y d = .ok b' ∧ Alike ε a'.buffer b'.buffer) ∨
      (∃ p, a.put_pixel x y c = .error p ∧ b.put_pixel x y d = .error p)) ∧
    (∀ nw nh filter, a.width ≤ 2 ^ 21 → a.height ≤ 2 ^ 21 → nw ≤ 2 ^ 21 → nh ≤ 2 ^ 21 →
      (filter = .Bilinear ∨ filter = .Bicubic ∨ filter = .Auto ∧ (a.width ≤ nw ∨ a.height ≤ nh)) →
      (∃ a' b', a.resize nw nh filter = .ok a' ∧ b.resize nw nh filter = .ok b' ∧
        Alike (if filter = .Bilinear then ε + (((a.width : ℝ) + a.height) / 2 ^ 22 + 20 / 2 ^ 24)
          else 25 / 16 * ε + (5 / 2 * ((a.width : ℝ) + a.height) / 2 ^ 22 + 2470 / 2 ^ 24)) a'.buffer b'.buffer) ∨
      (∃ p q, a.resize nw nh filter = .error p ∧ b.resize nw nh filter = .error q)) := by
  obtain ⟨w, h, px, ex, s, t, k⟩ := k
  have wd : a.width = w := s.width
  have hd : a.height = h := s.height
  have again : ∀ {f : R (PixelBuffer (Col F32))} {g : R (PixelBuffer (Col ℝ))}, (∃ a' b', f = .ok a' ∧ g = .ok b' ∧ Alike ε a' b') →
      ∃ a' b', (f >>= fun p => (.ok (Image.new_from_buffer_with_meta a p) : R _)) = .ok a' ∧
        (g >>= fun p => (.ok (Image.new_from_buffer_with_meta b p) : R _)) = .ok b' ∧ Alike ε a'.buffer b'.buffer := by
    rintro f g ⟨a', b', rfl, rfl, k⟩
    exact ⟨_, _, rfl, rfl, k⟩
  refine ⟨fun x y cw ch => again ?_, again ?_, again ?_, again ?_, again ?_, again ?_, fun off h1 h2 => ?_, fun x y c d hc hd' hcd => ?_,
    fun nw nh filter w1 w2 w3 w4 hf => ?_⟩
  · obtain ⟨a', e1, s'⟩ := C16_crop Rgb.NONE s x y cw ch
    obtain ⟨b', e2, t'⟩ := C16_crop Rgb.NONE t x y cw ch
    refine ⟨a', b', e1, e2, ?_⟩
    split at s'
    · rename_i hc
      rw [if_pos hc] at t'
      exact ⟨0, 0, px, ex, s', t', fun x y hx _ => absurd hx (by omega)⟩
    · rename_i hc
      rw [if_neg hc] at t'
      exact ⟨_, _, _, _, s', t', fun i j hi hj => k _ _ (by omega) (by omega)⟩
  · obtain ⟨a', e1, s'⟩ := C13_flip_horizontal Rgb.NONE s
    obtain ⟨b', e2, t'⟩ := C13_flip_horizontal Rgb.NONE t
    exact ⟨a', b', e1, e2, _, _, _, _, s', t', fun i j hi hj => k _ _ (by omega) (by omega)⟩
  · obtain ⟨a', e1, s'⟩ := C13_flip_vertical Rgb.NONE s
    obtain ⟨b', e2, t'⟩ := C13_flip_vertical Rgb.NONE t
    exact ⟨a', b', e1, e2, _, _, _, _, s', t', fun i j hi hj => k _ _ (by omega) (by omega)⟩
  · obtain ⟨a', e1, s'⟩ := C14_rotate90 Rgb.NONE s
    obtain ⟨b', e2, t'⟩ := C14_rotate90 Rgb.NONE t
    exact ⟨a', b', e1, e2, _, _, _, _, s', t', fun i j hi hj => k _ _ (by omega) (by omega)⟩
  · obtain ⟨a', e1, s'⟩ := C14_rotate180 Rgb.NONE s
    obtain ⟨b', e2, t'⟩ := C14_rotate180 Rgb.NONE t
    exact ⟨a', b', e1, e2, _, _, _, _, s', t', fun i j hi hj => k _ _ (by omega) (by omega)⟩
  · obtain ⟨a', e1, s'⟩ := C14_rotate270 Rgb.NONE s
    obtain ⟨b', e2, t'⟩ := C14_rotate270 Rgb.NONE t
    exact ⟨a', b', e1, e2, _, _, _, _, s', t', fun i j hi hj => k _ _ (by omega) (by omega)⟩
  · refine again ?_
    obtain ⟨a', e1, s'⟩ := C22_interlace s off h1 (by omega)
    obtain ⟨b', e2, t'⟩ := C22_interlace t off h1 (by omega)
    refine ⟨a', b', e1, e2, _, _, _, _, s', t', fun i j hi hj => ?_⟩
    split <;> exact k _ _ (nearest_inside (by omega) _) hj
  · by_cases hin : x < w ∧ y < h
    · obtain ⟨a', e1, s'⟩ := (C03_put_pixel s x y c).1 hin
      obtain ⟨b', e2, t'⟩ := (C03_put_pixel t x y d).1 hin
      refine .inl ⟨{ a with buffer := a' }, { b with buffer := b' }, ?_, ?_, _, _, _, _, s', t', fun i j hi hj => ?_⟩
      · simp only [Image.put_pixel, e1]; rfl
      · simp only [Image.put_pixel, e2]; rfl
      · split
        · exact ⟨hc, hd', hcd⟩
        · exact k i j hi hj
    · refine .inr ⟨.assertion, ?_, ?_⟩
      · simp only [Image.put_pixel, (C03_put_pixel s x y c).2 hin]; rfl
      · simp only [Image.put_pixel, (C03_put_pixel t x y d).2 hin]; rfl
  · have bad : ∀ {p q}, D10.resize a.buffer nw nh filter = .error p → D10.resize b.buffer nw nh filter = .error q →
        ∃ p q, a.resize nw nh filter = .error p ∧ b.resize nw nh filter = .error q := fun e1 e2 =>
      ⟨_, _, by simp only [Image.resize, e1]; rfl, by simp only [Image.resize, e2]; rfl⟩
    by_cases hv : ValidSize nw nh
    · rcases Nat.eq_zero_or_pos w with h0 | hw
      · have h0' : h = 0 := by rcases s.size with ⟨_, h⟩ | ⟨h, _⟩ <;> omega
        subst h0 h0'
        by_cases hn : 0 < nw
        · obtain ⟨p, e1⟩ := C18_resize_empty s nw nh hv hn filter
          obtain ⟨q, e2⟩ := C18_resize_empty t nw nh hv hn filter
          exact .inr (bad e1 e2)
        · have n0 : nw = 0 ∧ nh = 0 := by rcases hv with h | ⟨h, _⟩ <;> omega
          obtain ⟨rfl, rfl⟩ := n0
          have e1 := C18_resize_same a.buffer filter
          have e2 := C18_resize_same b.buffer filter
          rw [s.width, s.height] at e1
          rw [t.width, t.height] at e2
          refine .inl ⟨Image.new_from_buffer_with_meta a a.buffer, Image.new_from_buffer_with_meta b b.buffer, ?_, ?_, 0, 0, px, ex, s, t, ?_⟩
          · simp only [Image.resize, e1]; rfl
          · simp only [Image.resize, e2]; rfl
          · exact fun x y hx _ => absurd hx (by omega)
      · left
        rw [wd, hd] at *
        have fin : ∀ {η a1 b1 px' ex'}, D10.resize a.buffer nw nh filter = .ok a1 → Shows a1 nw nh px' →
            D10.resize b.buffer nw nh filter = .ok b1 → Shows b1 nw nh ex' →
            (∀ x y, x < nw → y < nh → AlikeAt η (px' x y) (ex' x y)) →
            ∃ a' b', a.resize nw nh filter = .ok a' ∧ b.resize nw nh filter = .ok b' ∧ Alike η a'.buffer b'.buffer := by
          intro η a1 b1 px' ex' e1 s' e2 t' c
          refine ⟨Image.new_from_buffer_with_meta a a1, Image.new_from_buffer_with_meta b b1, ?_, ?_, nw, nh, px', ex', s', t', c⟩
          · simp only [Image.resize, e1]; rfl
          · simp only [Image.resize, e2]; rfl
        rcases hf with rfl | hf
        · obtain ⟨a1, b1, px', ex', e1, s', e2, t', c⟩ := bilinear_alike s t hw k hv w1 w2 w3 w4
          simp only [if_true]
          exact fin e1 s' e2 t' c
        · obtain ⟨a1, b1, px', ex', e1, s', e2, t', c⟩ := bicubic_alike s t hw k hv w1 w2 w3 w4 hf
          rw [if_neg (by rintro rfl; rcases hf with h | ⟨h, _⟩ <;> cases h)]
          exact fin e1 s' e2 t' c
    · exact .inr (bad (C18_resize_invalid s.wellFormed nw nh hv filter) (C18_resize_invalid t.wellFormed nw nh hv filter))

/-- Sharpening succeeds on both sides too. -/
theorem C127_unsharp {δ : ℝ} (he : ExpWithin δ) (hδ : δ ≤ 1 / 2) (hs : SqrtWithin) {ε : ℝ} {a : Image F32} {b : Image ℝ}
    (k : Alike ε a.buffer b.buffer) (radius : Nat) (factor : F32) (sigma : Option F32) (m : Nat) (h1 : 1 ≤ radius)
    (h2 : radius ≤ 1023) (hm : m ≤ 50) (hf : factor.fin = true) (hf2 : |(factor.val : ℝ)| ≤ 2 ^ m)
    (hσ : ∀ σ, sigma = some σ → SigmaOK σ) (hc : sharpenCost δ radius ≤ 1 / 2) :
    ∃ a' b', a.unsharp radius factor sigma = .ok a' ∧
      b.unsharp radius (factor.val : ℝ) (sigma.map fun σ => (σ.val : ℝ)) = .ok b' ∧
      Alike ((1 + 2 * 2 ^ m) * ε + 2 ^ m * (sharpenCost δ radius + 8 / 16777216)) a'.buffer b'.buffer := by
  obtain ⟨w, h, px, ex, s, t, k⟩ := k
  obtain ⟨a1, b1, px', ex', e1, s', e2, t', c⟩ := sharpen_alike he hδ hs s t k radius h1 h2 sigma hσ factor m hm hf hf2 hc
  refine ⟨Image.new_from_buffer_with_meta a a1, Image.new_from_buffer_with_meta b b1, ?_, ?_, w, h, px', ex', s', t', c⟩
  · simp only [Image.unsharp, e1]; rfl
  · simp only [Image.unsharp, e2]; rfl

/-- Looking for edges by Sobel succeeds on both sides. -/
theorem C127_edges (hs : SqrtWithin) {ε : ℝ} {a : Image F32} {b : Image ℝ} (k : Alike ε a.buffer b.buffer) :
    ∃ a' b', a.edge_detection .Sobel = .ok a' ∧ b.edge_detection .Sobel = .ok b' ∧
      Alike (16 * ε + 1 / 50000) a'.buffer b'.buffer := by
  obtain ⟨w, h, px, ex, s, t, k⟩ := k
  obtain ⟨a1, b1, px', ex', e1, s', e2, t', c⟩ := sobel_alike hs s t k
  refine ⟨Image.new_from_buffer_with_meta a a1, Image.new_from_buffer_with_meta b b1, ?_, ?_, w, h, px', ex', s', t', c⟩
  · simp only [Image.edge_detection, e1]; rfl
  · simp only [Image.edge_detection, e2]; rfl

/-- **Whole programs.** If the same calls are made on a picture in 32-bit numbers and on one in exact numbers, the
two results have the same size, are in range, and differ by no more than the sum counted up by `SameSteps`. -/
theorem C127_close {δ : ℝ} (he : ExpWithin δ) (hδ : δ ≤ 1 / 2) (hs : SqrtWithin) {ε : ℝ} {a : Image F32} {b : Image ℝ}
    (h : SameSteps δ ε a b) : Alike ε a.buffer b.buffer := by
  have pick : ∀ {η : ℝ} {p : R (Image F32)} {q : R (Image ℝ)} {a' b'}, p = .ok a' → q = .ok b' →
      (∃ a' b', p = .ok a' ∧ q = .ok b' ∧ Alike η a'.buffer b'.buffer) → Alike η a'.buffer b'.buffer := by
    rintro η p q a' b' e1 e2 ⟨a2, b2, f1, f2, k⟩
    rw [e1] at f1; rw [e2] at f2
    cases f1; cases f2
    exact k
  induction h with
  | start ε a b k => exact k
  | more ε ε' a b _ hle ih => exact ih.more hle
  | mod_colors ε L η a b f g _ hf ih =>
    have := ih.colors hf
    rwa [← C07_mod_colors, ← C07_mod_colors] at this
  | map_colors ε L η a b f g _ hf ih =>
    have := ih.colors hf
    rw [← C07_mod_colors, ← C07_mod_colors] at this
    unfold PixelBuffer.mod_colors at this
    rwa [C07_mod_eq_map, C07_mod_eq_map] at this
  | put_pixel ε a b x y c d a' b' _ hc hd hcd e1 e2 ih =>
    rcases (C127_both ih).2.2.2.2.2.2.2.1 x y c d hc hd hcd with k | ⟨p, k, _⟩
    · exact pick e1 e2 k
    · rw [e1] at k; cases k
  | crop ε a b x y w h a' b' _ e1 e2 ih => exact pick e1 e2 ((C127_both ih).1 x y w h)
  | flip_horizontal ε a b a' b' _ e1 e2 ih => exact pick e1 e2 (C127_both ih).2.1
  | flip_vertical ε a b a' b' _ e1 e2 ih => exact pick e1 e2 (C127_both ih).2.2.1
  | rotate90 ε a b a' b' _ e1 e2 ih => exact pick e1 e2 (C127_both ih).2.2.2.1
  | rotate180 ε a b a' b' _ e1 e2 ih => exact pick e1 e2 (C127_both ih).2.2.2.2.1
  | rotate270 ε a b a' b' _ e1 e2 ih => exact pick e1 e2 (C127_both ih).2.2.2.2.2.1
  | interlace ε a b off a' b' _ h1 h2 e1 e2 ih => exact pick e1 e2 ((C127_both ih).2.2.2.2.2.2.1 off h1 h2)
  | resize_bilinear ε a b nw nh a' b' _ h1 h2 h3 h4 e1 e2 ih =>
    rcases (C127_both ih).2.2.2.2.2.2.2.2 nw nh .Bilinear h1 h2 h3 h4 (.inl rfl) with k | ⟨p, q, k, _⟩
    · have := pick e1 e2 k
      rwa [if_pos rfl] at this
    · rw [e1] at k; cases k
  | resize_bicubic ε a b nw nh filter a' b' _ h1 h2 h3 h4 hf e1 e2 ih =>
    rcases (C127_both ih).2.2.2.2.2.2.2.2 nw nh filter h1 h2 h3 h4 (.inr hf) with k | ⟨p, q, k, _⟩
    · have := pick e1 e2 k
      rwa [if_neg (by rintro rfl; rcases hf with h | ⟨h, _⟩ <;> cases h)] at this
    · rw [e1] at k; cases k
  | unsharp ε a b radius factor sigma m a' b' _ h1 h2 hm hf hf2 hσ hc e1 e2 ih =>
    exact pick e1 e2 (C127_unsharp he hδ hs ih radius factor sigma m h1 h2 hm hf hf2 hσ hc)
  | edges ε a b a' b' _ e1 e2 ih => exact pick e1 e2 (C127_edges hs ih)

/-- **The file in the end.** The bytes saved by the 32-bit program differ from those of the exact one by at most the
distance of the pictures, enlarged by the sRGB curve, and one unit. -/
theorem C127_bytes {δ δ' : ℝ} (he : ExpWithin δ) (hδ : δ ≤ 1 / 2) (hs : SqrtWithin) (hL : PowWithin δ') (hδ' : δ' ≤ 1 / 1024)
    {ε : ℝ} {a : Image F32} {b : Image ℝ} (h : SameSteps δ ε a b) :
    OffBy (255 * (13 * ε + 1.06 * δ' + 1 / 200000) + 1 + 1 / 65536) (to_rgba8_vec a.buffer) (to_rgba8_vec b.buffer) ∧
    OffBy (255 * (13 * ε + 1.06 * δ' + 1 / 200000) + 1 + 1 / 65536) (to_rgb8_vec a.buffer) (to_rgb8_vec b.buffer) := by
  obtain ⟨w, h, px, ex, s, t, k⟩ := C127_close he hδ hs h
  exact C108_bytes hL hδ' s t (fun x y hx hy => (k x y hx hy).1) (fun x y hx hy => (k x y hx hy).2.1)
    (fun x y hx hy => (k x y hx hy).2.2)

/-- **The file in the beginning.** A file is a start: both programs, given by their libraries the same bytes of a PNG, GIF
or WebP file, open pictures that are alike up to the accuracy of `powf` and a millionth. -/
theorem C127_open {δ : ℝ} (hL : PowWithin δ) (libs : Libs F32) (libs' : Libs ℝ) (input : List Nat) :
    (∀ (rd : PngReader) (w h : Nat) (ct : PngColorType) (data : List Nat)
        (hl : data.length = w * h * (channels ct * sampleSize ct)), libs.png_read input = .ok rd → libs'.png_read input = .ok rd →
        rd.width = w → rd.height = h → ValidSize w h → rd.color_type = pngColor ct → rd.bits = pngDepth ct →
        rd.next_frame (w * h * (channels ct * sampleSize ct)) = .ok ⟨data, hl⟩ → (∀ v ∈ data, v < 256) →
        ∃ a b, (decode libs input .Png).run = .ok (.ok a) ∧ (decode libs' input .Png).run = .ok (.ok b) ∧
          Alike (δ + 1 / 1000000) a b) ∧
    (∀ frame : GifFrame, libs.gif_read input = .ok (some frame) → libs'.gif_read input = .ok (some frame) →
        frame.buffer.length = frame.width * frame.height * 4 → ValidSize frame.width frame.height → (∀ v ∈ frame.buffer, v < 256) →
        ∃ a b, (decode libs input .Gif).run = .ok (.ok a) ∧ (decode libs' input .Gif).run = .ok (.ok b) ∧
          Alike (δ + 1 / 1000000) a b) ∧
    (∀ img : WebPDecoded, libs.webp_info input = true → libs'.webp_info input = true → libs.webp_read input = some img →
        libs'.webp_read input = some img → ValidSize img.width img.height → (∀ v ∈ img.data.1, v < 256) →
        ∃ a b, (decode libs input .WebP).run = .ok (.ok a) ∧ (decode libs' input .WebP).run = .ok (.ok b) ∧
          Alike (δ + 1 / 1000000) a b) := by
  have byte : ∀ {data : List Nat}, (∀ v ∈ data, v < 256) → ∀ w n x y k, bytesAt data w n x y k < 256 := by
    intro data hd w n x y k
    unfold bytesAt
    rw [List.getD_eq_getElem?_getD]
    cases e : data[(y * w + x) * n + k]? with
    | none => simp
    | some v => exact hd v (List.mem_of_getElem? e)
  refine ⟨?_, ?_, ?_⟩
  · intro rd w h ct data hl r1 r2 hw hh hv hc hb hd hbytes
    obtain ⟨a, e1, s⟩ := C50_read_png libs r1 hw hh hv ct hc hb rfl hd
    obtain ⟨b, e2, t⟩ := C50_read_png libs' r2 hw hh hv ct hc hb rfl hd
    exact ⟨a, b, e1, e2, _, _, _, _, s, t, fun x y _ _ => colour_alike hL ct _ fun k => byte hbytes _ _ _ _ _⟩
  · intro frame r1 r2 hl hv hbytes
    obtain ⟨a, e1, s⟩ := C50_read_gif libs r1 hl hv
    obtain ⟨b, e2, t⟩ := C50_read_gif libs' r2 hl hv
    exact ⟨a, b, e1, e2, _, _, _, _, s, t, fun x y _ _ => colour_alike hL _ _ fun k => byte hbytes _ _ _ _ _⟩
  · intro img i1 i2 r1 r2 hv hbytes
    obtain ⟨a, e1, s⟩ := C50_read_webp libs i1 r1 hv
    obtain ⟨b, e2, t⟩ := C50_read_webp libs' i2 r2 hv
    exact ⟨a, b, e1, e2, _, _, _, _, s, t, fun x y _ _ => colour_alike hL _ _ fun k => byte hbytes _ _ _ _ _⟩

/-- **Blurring at the end.** A blurred picture may leave the range by a rounding error, so blurring is not one of the steps,
but as the last call it keeps the two pictures together too. -/
theorem C127_blur {δ : ℝ} (he : ExpWithin δ) (hδ : δ ≤ 1 / 2) (hs : SqrtWithin) {ε : ℝ} {a : Image F32} {b : Image ℝ}
    (h : SameSteps δ ε a b) (radius : Nat) (sigma : Option F32) (h1 : 1 ≤ radius) (h2 : radius ≤ 1023)
    (hσ : ∀ σ, sigma = some σ → SigmaOK σ) :
    ∃ a' b' w h px ex, a.gaussian_blur radius sigma = .ok a' ∧
      b.gaussian_blur radius (sigma.map fun σ => (σ.val : ℝ)) = .ok b' ∧ Shows a'.buffer w h px ∧ Shows b'.buffer w h ex ∧
      w = a.width ∧ h = a.height ∧ ∀ x y, x < w → y < h → CloseCol (ε + sharpenCost δ radius) (px x y) (ex x y) := by
  obtain ⟨w, h, px, ex, s, t, k⟩ := C127_close he hδ hs h
  obtain ⟨a1, b1, px', ex', e1, s', e2, t', c⟩ := blur_alike he hδ hs s t k radius h1 h2 sigma hσ
  refine ⟨Image.new_from_buffer_with_meta a a1, Image.new_from_buffer_with_meta b b1, w, h, px', ex', ?_, ?_, s', t',
    s.width.symm, s.height.symm, fun x y hx hy => (c x y hx hy).2⟩
  · simp only [Image.gaussian_blur, e1]; rfl
  · simp only [Image.gaussian_blur, e2]; rfl

/-- **Laplace edges at the end.** They are not clamped, so they are the last call too. -/
theorem C127_laplace {δ : ℝ} (he : ExpWithin δ) (hδ : δ ≤ 1 / 2) (hs : SqrtWithin) {ε : ℝ} {a : Image F32} {b : Image ℝ}
    (h : SameSteps δ ε a b) :
    ∃ a' b' w h px ex, a.edge_detection .Laplace = .ok a' ∧ b.edge_detection .Laplace = .ok b' ∧
      Shows a'.buffer w h px ∧ Shows b'.buffer w h ex ∧ w = a.width ∧ h = a.height ∧
      ∀ x y, x < w → y < h → CloseCol (16 * ε + 27 / 2 ^ 21) (px x y) (ex x y) := by
  obtain ⟨w, h, px, ex, s, t, k⟩ := C127_close he hδ hs h
  obtain ⟨a1, b1, px', ex', e1, s', e2, t', c⟩ := laplace_alike s t k
  refine ⟨Image.new_from_buffer_with_meta a a1, Image.new_from_buffer_with_meta b b1, w, h, px', ex', ?_, ?_, s', t',
    s.width.symm, s.height.symm, fun x y hx hy => ?_⟩
  · simp only [Image.edge_detection, e1]; rfl
  · simp only [Image.edge_detection, e2]; rfl
  · rw [show (27 / 2 ^ 21 : ℝ) = 432 / 33554432 by norm_num]
    exact c x y hx hy

end

/-! ## A program -/

/-- `powf`, `exp` and `sqrt` next to the exact values. -/
@[instance_reducible] noncomputable def nearestAll : Libm b32 := { nearestExp with powf := nearestPow.powf }

theorem nearestAll_near : @ExpWithin nearestAll (1 / 16777216) ∧ @SqrtWithin nearestAll ∧ @PowWithin nearestAll (1 / 1048576) :=
  ⟨nearestExp_exp, nearestExp_sqrt, nearestPow_within⟩

/-- Opening a picture of 640 by 360 pixels, darkening it, raising its contrast by a quarter, turning it, enlarging it, making
it gray: after six calls no channel is off by more than 1/2000. -/
example [Junk] : letI := nearestAll
    ∀ (a : Image F32) (b : Image ℝ) (a2 a3 : Image F32) (b2 b3 : Image ℝ), a.width = 640 → a.height = 360 →
      Alike (1 / 1048576 + 1 / 1000000) a.buffer b.buffer →
      ((a.mod_colors (Rgb.with_brightness · (FP.ofRat b32 false (1 / 8)))).mod_colors
        (Rgb.with_contrast · (FP.ofRat b32 false (5 / 4)))).rotate90 = .ok a2 →
      ((b.mod_colors (Rgb.with_brightness · (((FP.ofRat b32 false (1 / 8)).val : ℚ) : ℝ))).mod_colors
        (Rgb.with_contrast · (((FP.ofRat b32 false (5 / 4)).val : ℚ) : ℝ))).rotate90 = .ok b2 →
      a2.width = 360 → a2.height = 640 →
      a2.resize 720 1280 .Bilinear = .ok a3 → b2.resize 720 1280 .Bilinear = .ok b3 →
      Alike (1 / 2000) (a3.mod_colors (Rgb.to_gray_with_intensity · .Rec709Luma)).buffer
        (b3.mod_colors (Rgb.to_gray_with_intensity · .Rec709Luma)).buffer := by
  let _ := nearestAll
  intro a b a2 a3 b2 b3 hw hh k e1 e2 w2 h2 e3 e4
  have v1 : (FP.ofRat b32 false (5 / 4)).val = 5 / 4 := by decide +kernel
  have s0 : SameSteps (1 / 16777216) _ a b := .start _ _ _ k
  have s1 := s0.mod_colors _ _ _ _ _ _ _ (C127_colours (FP.ofRat b32 false (1 / 8)) (FP.ofRat b32 false (5 / 4))
    (by decide +kernel) (by decide +kernel) .Red).2.1
  have s2 := s1.mod_colors _ _ _ _ _ _ _ (C127_colours (FP.ofRat b32 false (1 / 8)) (FP.ofRat b32 false (5 / 4))
    (by decide +kernel) (by decide +kernel) .Red).2.2.1
  have s3 := s2.rotate90 _ _ _ _ _ e1 e2
  have s4 := s3.resize_bilinear _ _ _ _ _ _ _ (by omega) (by omega) (by norm_num) (by norm_num) e3 e4
  have s5 := s4.mod_colors _ _ _ _ _ _ _ ((C127_colours (FP.ofRat b32 false (1 / 8)) (FP.ofRat b32 false (5 / 4))
    (by decide +kernel) (by decide +kernel) .Rec709Luma).2.2.2.2.1 (by simp))
  refine (C127_close nearestAll_near.1 (by norm_num) nearestAll_near.2.1 s5).more ?_
  rw [w2, h2, v1]
  norm_num

/-- Looking for edges in a picture just read, then inverting it: no channel is off by more than 1/15000. -/
example [Junk] : letI := nearestAll
    ∀ (a : Image F32) (b : Image ℝ), Alike (1 / 1048576 + 1 / 1000000) a.buffer b.buffer →
      ∃ a' b', a.edge_detection .Sobel = .ok a' ∧ b.edge_detection .Sobel = .ok b' ∧
        Alike (1 / 15000) (a'.mod_colors Rgb.invert).buffer (b'.mod_colors Rgb.invert).buffer := by
  let _ := nearestAll
  intro a b k
  obtain ⟨a', b', e1, e2, -⟩ := C127_edges nearestAll_near.2.1 k
  refine ⟨a', b', e1, e2, ?_⟩
  have s0 : SameSteps (1 / 16777216) _ a b := .start _ _ _ k
  have s1 := (s0.edges _ _ _ _ _ e1 e2).mod_colors _ _ _ _ _ _ _ (C127_colours (FP.ofRat b32 false 1) (FP.ofRat b32 false 1)
    (by decide +kernel) (by decide +kernel) .Red).1
  refine (C127_close nearestAll_near.1 (by norm_num) nearestAll_near.2.1 s1).more ?_
  norm_num

/-- A picture of two different pixels to start from. -/
example : Alike 0 (⟨2, 1, [twoPixels 0 0, twoPixels 1 0]⟩ : PixelBuffer (Col F32))
    ⟨2, 1, [exact (twoPixels 0 0), exact (twoPixels 1 0)]⟩ := by
  let _ := nearestAll
  refine C127_same (b := ⟨2, 1, [twoPixels 0 0, twoPixels 1 0]⟩) ⟨by norm_num [ValidSize], rfl⟩ ?_
  intro c hc
  rcases List.mem_cons.1 hc with rfl | hc
  · exact ⟨by decide +kernel, by decide +kernel, by decide +kernel, by decide +kernel⟩
  · rw [List.mem_singleton.1 hc]
    exact ⟨by decide +kernel, by decide +kernel, by decide +kernel, by decide +kernel⟩

end D10
