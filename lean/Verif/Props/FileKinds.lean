import Verif.SpecFileKinds
import Verif.Props.Chain

/-!
# The accuracy of every kind of file (C131)
-/

namespace D10
open Spec
open Scalar (lit)

section
variable [Libm b32] [Junk]

/-! ## Writing -/

/-- C131: a 16-bit sample of a channel within `e` of an exact one. -/
theorem C131_level {x : F32} {q e : ℝ} (h : Close x q e) (h0 : 0 ≤ q) (h1 : q ≤ 1) :
    |(as_u16 x : ℝ) - as_u16 q| < 65535 * e + 1 + 1 / 256 := by
  have e0 := (abs_nonneg _).trans h.err
  rcases le_or_gt e 1 with he | he
  · rw [C49_encode _ h.fin, C49_encode_exact]
    have hb : |(x.val : ℝ)| ≤ 2 := by
      have := h.err; rw [abs_le] at this ⊢; constructor <;> linarith
    have hq : |x.val * 65535| ≤ pow2 17 := by
      have t : ((|x.val * 65535| : ℚ) : ℝ) ≤ ((131072 : ℚ) : ℝ) := by
        push_cast
        rw [abs_mul, abs_of_pos (show (0 : ℝ) < 65535 by norm_num)]
        linarith
      have t := (Rat.cast_le (K := ℝ)).1 t
      exact t.trans (by norm_num [pow2])
    have r := rn_err_le (f := b32) (k := 17) (by decide) hq
    have r' : |((rn b32 (x.val * 65535) : ℚ) : ℝ) - (x.val : ℝ) * 65535| ≤ 1 / 256 := by
      have : pow2 (17 - (b32.prec : Int)) / 2 = 1 / 256 := by decide +kernel
      rw [this] at r
      have := (Rat.cast_le (K := ℝ)).2 r
      push_cast at this; exact this
    have d : |((rn b32 (x.val * 65535) : ℚ) : ℝ) - q * 65535| ≤ 65535 * e + 1 / 256 := by
      have e1 : |(x.val : ℝ) * 65535 - q * 65535| ≤ 65535 * e := by
        rw [← sub_mul, abs_mul, abs_of_pos (show (0 : ℝ) < 65535 by norm_num)]
        linarith [h.err]
      refine (abs_sub_le _ _ _).trans ((add_le_add r' e1).trans (by linarith))
    have f := floor_off d 65535
    have fl : ⌊((rn b32 (x.val * 65535) : ℚ) : ℝ)⌋₊ = ⌊rn b32 (x.val * 65535)⌋₊ := by
      rw [← Int.floor_toNat, ← Int.floor_toNat, Rat.floor_cast]
    rw [fl] at f
    linarith
  · have a := (C49_word x)
    have b := (C49_word q)
    have a' : (as_u16 x : ℝ) ≤ 65535 := by exact_mod_cast a
    have b' : (as_u16 q : ℝ) ≤ 65535 := by exact_mod_cast b
    have a0 : (0 : ℝ) ≤ as_u16 x := Nat.cast_nonneg _
    have b0 : (0 : ℝ) ≤ as_u16 q := Nat.cast_nonneg _
    rw [abs_lt]; constructor <;> linarith

/-- The sRGB channels of a pixel in both arithmetics. -/
theorem srgb_close {δ ε : ℝ} (hL : PowWithin δ) (hδ : δ ≤ 1 / 1024) {c : Col F32} {d : Col ℝ} (hc : UnitCol c)
    (hd : UnitReal d) (h : CloseCol ε c d) :
    CloseCol (13 * ε + 1.06 * δ + 1 / 200000) (Rgb.to_srgb c) (Rgb.to_srgb d) ∧ UnitReal (Rgb.to_srgb d) := by
  have δ0 := PowWithin.nonneg hL
  have ε0 := (abs_nonneg _).trans h.c0.err
  have chan : ∀ {v : F32} {q : ℝ}, (v.fin = true ∧ 0 ≤ v.val ∧ v.val ≤ 1) → 0 ≤ q → q ≤ 1 → Close v q ε →
      Close (clamp01 (linear_to_gamma v) : F32) (clamp01 (linear_to_gamma q) : ℝ) (13 * ε + 1.06 * δ + 1 / 200000) := by
    intro v q hv q0 q1 hvq
    have g := close_clamp (C86_linear_to_gamma δ hL hδ v hv)
    have n := l2g_near (unit_real hv).1 q0
    have m := clamp_sub (linear_to_gamma (v.val : ℝ)) (linear_to_gamma q)
    rw [← Exact.clamp01, ← Exact.clamp01] at m
    refine ⟨g.fin, (abs_sub_le _ _ _).trans ((add_le_add g.err (m.trans n)).trans ?_)⟩
    have := hvq.err
    norm_num at this ⊢
    linarith
  refine ⟨⟨chan hc.c0 hd.c0.1 hd.c0.2 h.c0, chan hc.c1 hd.c1.1 hd.c1.2 h.c1, chan hc.c2 hd.c2.1 hd.c2.2 h.c2,
    (close_clamp h.alpha).mono ?_⟩, clamp01_unit _, clamp01_unit _, clamp01_unit _, clamp01_unit _⟩
  norm_num
  linarith

/-- The samples of one pixel as numbers. -/
def pixelSamples {F : Type} [Scalar F] (c : Col F) : PngColorType → List Nat
  | .L8 => sampleBytes c .L8
  | .La8 => sampleBytes c .La8
  | .Rgb8 => sampleBytes c .Rgb8
  | .Rgba8 => sampleBytes c .Rgba8
  | .L16 => [as_u16 (grayLevel c)]
  | .La16 => [as_u16 (grayLevel c), as_u16 (Rgb.to_srgb (Rgb.to_gray c)).alpha]
  | .Rgb16 => [as_u16 (Rgb.to_srgb c).c0, as_u16 (Rgb.to_srgb c).c1, as_u16 (Rgb.to_srgb c).c2]
  | .Rgba16 => [as_u16 (Rgb.to_srgb c).c0, as_u16 (Rgb.to_srgb c).c1, as_u16 (Rgb.to_srgb c).c2,
      as_u16 (Rgb.to_srgb c).alpha]

omit [Libm b32] [Junk] in
theorem pairUp_bigEndian (v : Nat) (l : List Nat) : pairUp (bigEndian v ++ l) = v :: pairUp l := by
  show (v / 256 * 256 + v % 256) :: pairUp l = _
  rw [Nat.div_add_mod']

omit [Libm b32] [Junk] in
theorem stored_flatMap {F : Type} [Scalar F] (ct : PngColorType) (l : List (Col F)) :
    storedSamples ct (l.flatMap (sampleBytes · ct)) = l.flatMap (pixelSamples · ct) := by
  cases ct
  case L8 | La8 | Rgb8 | Rgba8 => exact if_pos rfl
  all_goals
    refine (if_neg (by decide)).trans ?_
    induction l with
    | nil => rfl
    | cons c l ih =>
      rw [List.flatMap_cons, List.flatMap_cons]
      simp only [sampleBytes, List.append_assoc, pairUp_bigEndian, pixelSamples, List.cons_append, List.nil_append] at ih ⊢
      rw [ih]

/-- The samples of one pixel. -/
theorem samples_off {δ ε : ℝ} (hL : PowWithin δ) (hδ : δ ≤ 1 / 1024) {c : Col F32} {d : Col ℝ} (hc : UnitCol c)
    (hd : UnitReal d) (h : CloseCol ε c d) (ct : PngColorType) :
    OffBy (storedError ct ε δ) (pixelSamples c ct) (pixelSamples d ct) := by
  have g := follows_gray .Rec709Luma (by decide)
  obtain ⟨k, u⟩ := srgb_close hL hδ hc hd h
  obtain ⟨k', u'⟩ := srgb_close hL hδ (g.range c hc) (g.range_exact d hd) (g.close ε c d hc hd h)
  rw [one_mul] at k'
  rw [← add_zero ε] at k
  have b8 : ∀ {x : F32} {q a : ℝ} (ct : PngColorType), sampleSize ct = 1 → grayCost ct = a →
      Close x q (13 * (ε + a) + 1.06 * δ + 1 / 200000) → (0 ≤ q ∧ q ≤ 1) →
      |(as_u8 x : ℝ) - as_u8 q| < storedError ct ε δ := by
    intro x q a ct h1 h2 h u
    unfold storedError
    rw [if_pos h1, h2]
    exact C108_level h u.1 u.2
  have b16 : ∀ {x : F32} {q a : ℝ} (ct : PngColorType), sampleSize ct ≠ 1 → grayCost ct = a →
      Close x q (13 * (ε + a) + 1.06 * δ + 1 / 200000) → (0 ≤ q ∧ q ≤ 1) →
      |(as_u16 x : ℝ) - as_u16 q| < storedError ct ε δ := by
    intro x q a ct h1 h2 h u
    unfold storedError
    rw [if_neg h1, h2]
    exact C131_level h u.1 u.2
  cases ct
  case L8 => exact .cons (b8 _ rfl rfl k'.c0 u'.c0) .nil
  case La8 => exact .cons (b8 _ rfl rfl k'.c0 u'.c0) (.cons (b8 _ rfl rfl k'.alpha u'.alpha) .nil)
  case L16 => exact .cons (b16 _ (by decide) rfl k'.c0 u'.c0) .nil
  case La16 => exact .cons (b16 _ (by decide) rfl k'.c0 u'.c0) (.cons (b16 _ (by decide) rfl k'.alpha u'.alpha) .nil)
  case Rgb8 => exact .cons (b8 _ rfl rfl k.c0 u.c0) (.cons (b8 _ rfl rfl k.c1 u.c1) (.cons (b8 _ rfl rfl k.c2 u.c2) .nil))
  case Rgba8 => exact .cons (b8 _ rfl rfl k.c0 u.c0) (.cons (b8 _ rfl rfl k.c1 u.c1) (.cons (b8 _ rfl rfl k.c2 u.c2)
      (.cons (b8 _ rfl rfl k.alpha u.alpha) .nil)))
  case Rgb16 => exact .cons (b16 _ (by decide) rfl k.c0 u.c0) (.cons (b16 _ (by decide) rfl k.c1 u.c1)
      (.cons (b16 _ (by decide) rfl k.c2 u.c2) .nil))
  case Rgba16 => exact .cons (b16 _ (by decide) rfl k.c0 u.c0) (.cons (b16 _ (by decide) rfl k.c1 u.c1)
      (.cons (b16 _ (by decide) rfl k.c2 u.c2) (.cons (b16 _ (by decide) rfl k.alpha u.alpha) .nil)))

/-- The samples of a picture. -/
theorem data_off {δ ε : ℝ} (hL : PowWithin δ) (hδ : δ ≤ 1 / 1024) {a : PixelBuffer (Col F32)} {b : PixelBuffer (Col ℝ)}
    (h : Alike ε a b) (ct : PngColorType) :
    OffBy (storedError ct ε δ) (storedSamples ct (a.data.flatMap (sampleBytes · ct)))
      (storedSamples ct (b.data.flatMap (sampleBytes · ct))) := by
  obtain ⟨w, hh, px, ex, s, t, k⟩ := h.same
  rw [stored_flatMap, stored_flatMap, s.pixels, t.pixels]
  exact offBy_flatMap (forall₂_rows fun x y hx hy =>
    samples_off hL hδ (k x y hx hy).1 (k x y hx hy).2.1 (k x y hx hy).2.2 ct)

omit [Libm b32] [Junk] in
theorem encode_png_data {F : Type} [Scalar F] [FloatBytes F] (libs : Libs F) (b : PixelBuffer (Col F)) (ct : PngColorType)
    (hct : ct ≠ .L16) (cmp : PngCompression) (flt : PngFilterType) :
    encode libs b (.Png ct cmp flt) = .ok (libs.png_write ⟨b.width, b.height, pngColor ct, pngDepth ct, cmp, flt,
      b.data.flatMap (sampleBytes · ct)⟩) := by
  show Except.ok (encode_png libs b ct cmp flt) = _
  unfold encode_png
  cases ct
  · rw [vec_l8]; rfl
  · rw [vec_la8]; rfl
  · exact absurd rfl hct
  · rw [vec_la16]; rfl
  · rw [vec_rgb8]; rfl
  · rw [vec_rgba8]; rfl
  · rw [vec_rgb16]; rfl
  · rw [vec_rgba16]; rfl

omit [Libm b32] [Junk] in
theorem imageBytes_data {F : Type} [Scalar F] (b : PixelBuffer (Col F)) (ct : ImageColorType) :
    imageBytes b ct = b.data.flatMap (sampleBytes · (imageSamples ct)) := by
  cases ct
  · exact vec_l8 b
  · exact vec_la8 b
  · exact vec_rgb8 b
  · exact vec_rgba8 b

variable [FloatBytes ℝ]

/-- **PNG**, of every kind but 16-bit gray (C51): both programs hand the same header to the library, and no sample differs
by more than `storedError` allows. -/
theorem C131_png {δ ε : ℝ} (hL : PowWithin δ) (hδ : δ ≤ 1 / 1024) {a : PixelBuffer (Col F32)} {b : PixelBuffer (Col ℝ)}
    (h : Alike ε a b) (libs : Libs F32) (libs' : Libs ℝ) (ct : PngColorType) (hct : ct ≠ .L16) (cmp : PngCompression)
    (flt : PngFilterType) :
    ∃ data data', encode libs a (.Png ct cmp flt) =
        .ok (libs.png_write ⟨a.width, a.height, pngColor ct, pngDepth ct, cmp, flt, data⟩) ∧
      encode libs' b (.Png ct cmp flt) =
        .ok (libs'.png_write ⟨a.width, a.height, pngColor ct, pngDepth ct, cmp, flt, data'⟩) ∧
      OffBy (storedError ct ε δ) (storedSamples ct data) (storedSamples ct data') := by
  obtain ⟨w, hh, px, ex, s, t, k⟩ := h.same
  refine ⟨_, _, encode_png_data libs a ct hct cmp flt, ?_, data_off hL hδ h ct⟩
  rw [encode_png_data libs' b ct hct, t.width, t.height, s.width, s.height]

/-- **BMP and ICO.** -/
theorem C131_image {δ ε : ℝ} (hL : PowWithin δ) (hδ : δ ≤ 1 / 1024) {a : PixelBuffer (Col F32)} {b : PixelBuffer (Col ℝ)}
    (h : Alike ε a b) (libs : Libs F32) (libs' : Libs ℝ) (ct : ImageColorType) :
    ∃ data data', encode libs a (.Bmp ct) = .ok (libs.bmp_write ⟨data, a.width, a.height, ct⟩) ∧
      encode libs' b (.Bmp ct) = .ok (libs'.bmp_write ⟨data', a.width, a.height, ct⟩) ∧
      encode libs a (.Ico ct) = .ok (libs.ico_write ⟨data, a.width, a.height, ct⟩) ∧
      encode libs' b (.Ico ct) = .ok (libs'.ico_write ⟨data', a.width, a.height, ct⟩) ∧
      OffBy (storedError (imageSamples ct) ε δ) data data' := by
  obtain ⟨w, hh, px, ex, s, t, k⟩ := h.same
  refine ⟨imageBytes a ct, imageBytes b ct, rfl, ?_, rfl, ?_, ?_⟩
  · rw [s.width, s.height, ← t.width, ← t.height]; rfl
  · rw [s.width, s.height, ← t.width, ← t.height]; rfl
  · have o := data_off hL hδ h (imageSamples ct)
    rw [imageBytes_data, imageBytes_data]
    have e : sampleSize (imageSamples ct) = 1 := by cases ct <;> rfl
    unfold storedSamples at o
    rwa [if_pos e, if_pos e] at o

/-- **JPEG**, colour or gray, up to 65535 by 65535: what the library is given before it compresses. -/
theorem C131_jpeg {δ ε : ℝ} (hL : PowWithin δ) (hδ : δ ≤ 1 / 1024) {a : PixelBuffer (Col F32)} {b : PixelBuffer (Col ℝ)}
    (h : Alike ε a b) (libs : Libs F32) (libs' : Libs ℝ) (hw : a.width ≤ 65535) (hh : a.height ≤ 65535) (q : Nat) (prog : Bool)
    (sf : Option JpegSamplingFactor) (gray opt : Bool) :
    ∃ data data', encode libs a (.Jpeg q prog sf gray opt) =
        .ok (libs.jpeg_write ⟨max 1 (min q 100), sf, prog, opt, data, a.width, a.height, gray⟩) ∧
      encode libs' b (.Jpeg q prog sf gray opt) =
        .ok (libs'.jpeg_write ⟨max 1 (min q 100), sf, prog, opt, data', a.width, a.height, gray⟩) ∧
      OffBy (storedError (if gray then .L8 else .Rgb8) ε δ) data data' := by
  obtain ⟨w, hh', px, ex, s, t, k⟩ := h.same
  have e : ∀ {F : Type} [Scalar F] [FloatBytes F] (libs : Libs F) (b : PixelBuffer (Col F)), b.width ≤ 65535 → b.height ≤ 65535 →
      encode libs b (.Jpeg q prog sf gray opt) =
      .ok (libs.jpeg_write ⟨max 1 (min q 100), sf, prog, opt,
        b.data.flatMap (sampleBytes · (if gray then .L8 else .Rgb8)), b.width, b.height, gray⟩) := by
    intro F _ _ libs b hw hh
    show Except.ok (encode_jpeg libs b q prog sf gray opt) = _
    unfold encode_jpeg
    simp only []
    rw [if_neg (by omega), Nat.mod_eq_of_lt (by omega), Nat.mod_eq_of_lt (by omega), min_comm]
    cases gray
    · rw [if_neg (by simp), vec_rgb8]; rfl
    · rw [if_pos rfl, vec_l8]; rfl
  have hw' : b.width ≤ 65535 := by rw [t.width, ← s.width]; exact hw
  have hh'' : b.height ≤ 65535 := by rw [t.height, ← s.height]; exact hh
  refine ⟨_, b.data.flatMap (sampleBytes · (if gray then .L8 else .Rgb8)), e libs a hw hh, ?_, ?_⟩
  · rw [e libs' b hw' hh'', t.width, t.height, s.width, s.height]
  · have o := data_off hL hδ h (if gray then .L8 else .Rgb8)
    have e : sampleSize (if gray then .L8 else .Rgb8) = 1 := by cases gray <;> rfl
    unfold storedSamples at o
    rwa [if_pos e, if_pos e] at o

/-- **GIF**, up to 65535 by 65535: what the library is given before it chooses a palette. -/
theorem C131_gif {δ ε : ℝ} (hL : PowWithin δ) (hδ : δ ≤ 1 / 1024) {a : PixelBuffer (Col F32)} {b : PixelBuffer (Col ℝ)}
    (h : Alike ε a b) (libs : Libs F32) (libs' : Libs ℝ) (hw : a.width ≤ 65535) (hh : a.height ≤ 65535) :
    ∃ data data', encode libs a .Gif = .ok (libs.gif_write ⟨a.width, a.height, data, 10⟩) ∧
      encode libs' b .Gif = .ok (libs'.gif_write ⟨a.width, a.height, data', 10⟩) ∧ OffBy (storedError .Rgba8 ε δ) data data' := by
  obtain ⟨w, hh', px, ex, s, t, k⟩ := h.same
  have e : ∀ {F : Type} [Scalar F] [FloatBytes F] (libs : Libs F) {b : PixelBuffer (Col F)} {px}, Shows b w hh' px →
      encode libs b .Gif = .ok (libs.gif_write ⟨w, hh', b.data.flatMap (sampleBytes · .Rgba8), 10⟩) := by
    intro F _ _ libs b px sh
    rw [s.width] at hw
    rw [s.height] at hh
    have l : Layout w hh' 4 (to_rgba8_vec b) fun x y => sampleBytes (px x y) .Rgba8 := by
      rw [vec_rgba8]; exact layout_flatMap sh _ fun _ => rfl
    rw [← vec_rgba8]
    show encode_gif libs b = _
    unfold encode_gif
    rw [sh.width, sh.height]
    simp only []
    rw [if_neg (by omega), Nat.mod_eq_of_lt (by omega), Nat.mod_eq_of_lt (by omega)]
    unfold assert
    rw [if_pos (decide_eq_true l.length.symm)]
    rfl
  rw [s.width, s.height]
  exact ⟨_, _, e libs s, e libs' t, data_off hL hδ h .Rgba8⟩

omit [Libm b32] [Junk] [FloatBytes ℝ] in
theorem word_samples {a r g b : Nat} (hr : r < 256) (hg : g < 256) (hb : b < 256) :
    wordSamples [word a r g b] = [a, r, g, b] := by
  unfold wordSamples word
  simp only [List.flatMap_cons, List.flatMap_nil, List.append_nil, List.cons.injEq, and_true]
  refine ⟨?_, ?_, ?_, ?_⟩ <;> omega

/-- **WebP**: the words with alpha, red, green and blue that the library is given. -/
theorem C131_webp {δ ε : ℝ} (hL : PowWithin δ) (hδ : δ ≤ 1 / 1024) {a : PixelBuffer (Col F32)} {b : PixelBuffer (Col ℝ)}
    (h : Alike ε a b) (libs : Libs F32) (libs' : Libs ℝ) (q : Nat) (p : WebPPreset) :
    ∃ argb argb', encode libs a (.WebP q p) =
        .ok (webpOutcome (libs.webp_write ⟨if p = .Lossless then none else some (p, min q 100), a.width, a.height, argb⟩)) ∧
      encode libs' b (.WebP q p) =
        .ok (webpOutcome (libs'.webp_write ⟨if p = .Lossless then none else some (p, min q 100), a.width, a.height, argb'⟩)) ∧
      OffBy (storedError .Rgba8 ε δ) (wordSamples argb) (wordSamples argb') := by
  obtain ⟨w, hh', px, ex, s, t, k⟩ := h.same
  have e : ∀ {F : Type} [Scalar F] [LawfulCast F] (b : PixelBuffer (Col F)), wordSamples (to_argb8_vec32 b) =
      b.data.flatMap fun c => [as_u8 (Rgb.to_srgb c).alpha, as_u8 (Rgb.to_srgb c).c0,
          as_u8 (Rgb.to_srgb c).c1, as_u8 (Rgb.to_srgb c).c2] := by
    intro F _ _ b
    have e : to_argb8_vec32 b = b.data.flatMap fun c =>
        [word (as_u8 (Rgb.to_srgb c).alpha) (as_u8 (Rgb.to_srgb c).c0)
            (as_u8 (Rgb.to_srgb c).c1) (as_u8 (Rgb.to_srgb c).c2)] := by
      unfold to_argb8_vec32
      refine Eq.trans ?_ ((foldl_append_flatMap _ b.data []).trans (List.nil_append _))
      congr 1
      funext out c
      have h1 := C48_byte (Rgb.to_srgb c).c0
      have h2 := C48_byte (Rgb.to_srgb c).c1
      have h3 := C48_byte (Rgb.to_srgb c).c2
      simp only []
      rw [argb_word (by omega) (by omega) (by omega)]
    rw [e]
    unfold wordSamples
    rw [List.flatMap_assoc]
    congr 1
    funext c
    have h1 := C48_byte (Rgb.to_srgb c).c0
    have h2 := C48_byte (Rgb.to_srgb c).c1
    have h3 := C48_byte (Rgb.to_srgb c).c2
    exact word_samples (by omega) (by omega) (by omega)
  have f : ∀ {F : Type} [Scalar F] [FloatBytes F] (libs : Libs F) {b : PixelBuffer (Col F)} {px}, Shows b w hh' px →
      encode libs b (.WebP q p) = .ok (webpOutcome
        (libs.webp_write ⟨if p = .Lossless then none else some (p, min q 100), w, hh', to_argb8_vec32 b⟩)) := by
    intro F _ _ libs b px sh
    have hw := sh.size.width_le
    have hh := sh.size.height_le
    show Except.ok (encode_webp libs b q p) = _
    unfold encode_webp
    have hasI : ∀ n : Nat, n ≤ 1073741823 → asI32 n = (n : Int) := by
      intro n hn; unfold asI32; rw [if_pos (by omega)]; exact congrArg _ (Nat.mod_eq_of_lt (by omega))
    rw [sh.width, sh.height, hasI w hw, hasI hh' hh]
    simp only []
    rw [min_comm]
    clear e
    cases p <;> simp only [reduceCtorEq, if_false, if_true] <;>
      (generalize libs.webp_write _ = r; rcases r with (_ | _) | ⟨bytes, _ | err, _ | _⟩ <;> rfl)
  rw [s.width, s.height]
  refine ⟨_, _, f libs s, f libs' t, ?_⟩
  rw [e, e, s.pixels, t.pixels]
  refine offBy_flatMap (forall₂_rows fun x y hx hy => ?_)
  have o := samples_off hL hδ (k x y hx hy).1 (k x y hx hy).2.1 (k x y hx hy).2.2 .Rgba8
  rcases o with _ | ⟨o0, _ | ⟨o1, _ | ⟨o2, _ | ⟨o3, _⟩⟩⟩⟩
  exact .cons o3 (.cons o0 (.cons o1 (.cons o2 .nil)))

/-! ## Reading -/

omit [FloatBytes ℝ] in
/-- A level of a file without the clamping of the colour's constructor. -/
theorem level_plain {δ : ℝ} (hL : PowWithin δ) {n v : Nat} (hn : n = 255 ∨ n = 65535) (hv : v ≤ n) :
    Close (clamp01 (gamma_to_linear (lit (v : ℚ) /. lit (n : ℚ) : F32)))
      (clamp01 (gamma_to_linear (lit (v : ℚ) /. lit (n : ℚ) : ℝ))) (δ + 1 / 1000000) ∧
    Close (clamp01 (lit (v : ℚ) /. lit (n : ℚ) : F32)) (clamp01 (lit (v : ℚ) /. lit (n : ℚ) : ℝ)) (δ + 1 / 1000000) := by
  obtain ⟨u, e⟩ := level_near hn hv
  have n0 : (0 : ℝ) < n := by rcases hn with rfl | rfl <;> norm_num
  have q : ((lit (v : ℚ) : ℝ) /. lit (n : ℚ)) = (v : ℝ) / n := by
    ex_simp
    exact Exact.div n0.ne'
  have q0 : (0 : ℝ) ≤ (v : ℝ) / n := by positivity
  have q1 : (v : ℝ) / n ≤ 1 := by rw [div_le_one n0]; exact_mod_cast hv
  have k := level_alike hL hn hv
  have δ0 := PowWithin.nonneg hL
  rw [q, Exact.clamp01_id q0 q1, Exact.clamp01_id q0 q1, clamp_self32 u, clamp_self32 u] at k
  rw [q, Exact.clamp01_id q0 q1, clamp_self32 u]
  exact ⟨k.1, k.2.mono (by linarith)⟩

omit [FloatBytes ℝ] in
theorem alike_clamped {t : ℝ} {r g b a : F32} {r' g' b' a' : ℝ} (h1 : Close (clamp01 r) (clamp01 r') t)
    (h2 : Close (clamp01 g) (clamp01 g') t) (h3 : Close (clamp01 b) (clamp01 b') t) (h4 : Close (clamp01 a) (clamp01 a') t) :
    AlikeAt t ⟨clamp01 r, clamp01 g, clamp01 b, clamp01 a⟩ ⟨clamp01 r', clamp01 g', clamp01 b', clamp01 a'⟩ :=
  ⟨⟨clamped_unit h1.fin, clamped_unit h2.fin, clamped_unit h3.fin, clamped_unit h4.fin⟩,
   ⟨clamp01_unit _, clamp01_unit _, clamp01_unit _, clamp01_unit _⟩, h1, h2, h3, h4⟩

omit [FloatBytes ℝ] in
theorem one_alike {t : ℝ} (ht : 0 ≤ t) : Close (clamp01 (lit 1 : F32)) (clamp01 (lit 1 : ℝ)) t := by
  have l1 : (lit 1 : F32).fin = true ∧ (lit 1 : F32).val = 1 := FP.lit1
  refine close_clamp ⟨l1.1, ?_⟩
  rw [l1.2]
  ex_simp
  norm_num
  exact ht

omit [Junk] [FloatBytes ℝ] in
/-- The products that CMYK files are made of are exact in 32 bits. -/
theorem cmyk_level {c k : Nat} (hc : c < 256) (hk : k < 256) :
    let x : F32 := (lit 255 -. lit (c : ℚ)) *. (lit 255 -. lit (k : ℚ)) /. lit 65536
    x.fin = true ∧ x.val = (255 - c) * (255 - k) / 65536 := by
  intro x
  have sub : ∀ {n : Nat}, n < 256 → (FP.sub (FP.ofRat b32 false 255) (FP.ofRat b32 false (n : ℚ))).fin = true ∧
      (FP.sub (FP.ofRat b32 false 255) (FP.ofRat b32 false (n : ℚ))).val = 255 - n := by
    intro n hn
    have l := FP.lit32 255 (by norm_num)
    have m := FP.lit32 (n : Int) (by rw [abs_of_nonneg (by omega)]; norm_num; omega)
    rw [Int.cast_natCast] at m
    push_cast at l
    rw [FP.sub_fin l.1 m.1, l.2, m.2]
    have z : |(255 - n : Int)| ≤ 2 ^ 24 := by rw [abs_le]; constructor <;> norm_num <;> omega
    have i := FP.int_finite (f := b32) (255 - n) z
    have o := FP.ofRat_rep (s := (FP.ofRat b32 false 255).isNeg && (FP.ofRat b32 false (n : ℚ)).neg.isNeg) i.1 i.2
    push_cast at o
    exact o
  obtain ⟨f1, v1⟩ := sub hc
  obtain ⟨f2, v2⟩ := sub hk
  have e : x = FP.div (FP.mul (FP.sub (FP.ofRat b32 false 255) (FP.ofRat b32 false (c : ℚ)))
      (FP.sub (FP.ofRat b32 false 255) (FP.ofRat b32 false (k : ℚ)))) (FP.ofRat b32 false 65536) := rfl
  have l := FP.lit32 65536 (by norm_num)
  push_cast at l
  have p0 : (0 : Int) ≤ (255 - c) * (255 - k) := mul_nonneg (by omega) (by omega)
  have p1 : ((255 - c) * (255 - k) : Int) ≤ 65025 := by nlinarith [Int.natCast_nonneg c, Int.natCast_nonneg k]
  have i := FP.int_finite (f := b32) ((255 - c) * (255 - k)) (by rw [abs_of_nonneg p0]; exact p1.trans (by norm_num [b32]))
  have m : ∀ s, (FP.ofRat b32 s (((255 - c : ℚ)) * (255 - k))).fin = true ∧
      (FP.ofRat b32 s (((255 - c : ℚ)) * (255 - k))).val = (255 - c) * (255 - k) := by
    intro s
    have o := FP.ofRat_rep (s := s) i.1 i.2
    push_cast at o
    exact o
  rw [e, FP.mul_fin f1 f2, v1, v2, FP.div_fin (m _).1 l.1 (by rw [l.2]; norm_num), (m _).2, l.2]
  refine FP.ofRat_rep ⟨(255 - c) * (255 - k), -16, ?_, by decide, ?_⟩ ?_
  · rw [abs_of_nonneg p0]; exact p1.trans_lt (by norm_num [b32])
  · push_cast
    rw [show pow2 (-16) = 1 / 65536 by decide +kernel]
    ring
  · have q0 : (0 : ℚ) ≤ (255 - c) * (255 - k) := by exact_mod_cast p0
    have q1 : ((255 - c) * (255 - k) : ℚ) ≤ 65025 := by exact_mod_cast p1
    rw [abs_of_nonneg (by positivity)]
    refine lt_of_lt_of_le (b := 1) ?_ (by decide +kernel)
    rw [div_lt_one (by norm_num)]
    linarith

omit [FloatBytes ℝ] in
theorem cmyk_alike {δ : ℝ} (hL : PowWithin δ) {c m y k : Nat} (hc : c < 256) (hm : m < 256) (hy : y < 256) (hk : k < 256) :
    AlikeAt (δ + 1 / 1000000) (cmyk_to_rgb c m y k) (cmyk_to_rgb c m y k) := by
  have δ0 := PowWithin.nonneg hL
  have one : ∀ {n : Nat}, n < 256 →
      Close (clamp01 (gamma_to_linear (clamp01 ((lit 255 -. lit (n : ℚ)) *. (lit 255 -. lit (k : ℚ)) /. lit 65536 : F32))))
        (clamp01 (gamma_to_linear (clamp01 ((lit 255 -. lit (n : ℚ)) *. (lit 255 -. lit (k : ℚ)) /. lit 65536 : ℝ)))) (δ + 1 / 1000000) := by
    intro n hn
    obtain ⟨f, v⟩ := cmyk_level hn hk
    have n0 : (0 : ℚ) ≤ 255 - n := by have : (n : ℚ) ≤ 255 := by exact_mod_cast (by omega : n ≤ 255)
                                      linarith
    have k0 : (0 : ℚ) ≤ 255 - k := by have : (k : ℚ) ≤ 255 := by exact_mod_cast (by omega : k ≤ 255)
                                      linarith
    have v0 : (0 : ℚ) ≤ (255 - n) * (255 - k) / 65536 := by positivity
    have v1 : ((255 - n) * (255 - k) / 65536 : ℚ) ≤ 1 := by
      rw [div_le_one (by norm_num)]
      nlinarith [(Nat.cast_nonneg n : (0 : ℚ) ≤ n), (Nat.cast_nonneg k : (0 : ℚ) ≤ k)]
    have u : _ ∧ _ ∧ _ := ⟨f, v.symm ▸ v0, v.symm ▸ v1⟩
    have r : ((lit 255 -. lit (n : ℚ)) *. (lit 255 -. lit (k : ℚ)) /. lit 65536 : ℝ) =
        ((((lit 255 -. lit (n : ℚ)) *. (lit 255 -. lit (k : ℚ)) /. lit 65536 : F32).val : ℚ) : ℝ) := by
      rw [v]
      ex_simp
      push_cast
      rfl
    rw [r, clamp_self32 u, Exact.clamp01_id (unit_real u).1 (unit_real u).2]
    exact (close_clamp (C86_gamma_to_linear δ hL _ u)).mono (by norm_num)
  exact alike_clamped (one hc) (one hm) (one hy) (one_alike (by linarith))

omit [FloatBytes ℝ] in
/-- **Reading JPEG files** of every kind that the library has: both programs open pictures that are alike. -/
theorem C131_read_jpeg {δ : ℝ} (hL : PowWithin δ) (libs : Libs F32) (libs' : Libs ℝ) (hlib : libs'.little = libs.little)
    {input data : List Nat} {info : JpegInfo} (hr : libs.jpeg_read input = .ok data) (hr' : libs'.jpeg_read input = .ok data)
    (hi : libs.jpeg_info input = some info) (hi' : libs'.jpeg_info input = some info)
    (hl : data.length = info.width * info.height * jpegSize info.pixel_format) (hv : ValidSize info.width info.height)
    (hd : ∀ v ∈ data, v < 256) :
    ∃ a b, (decode libs input .Jpeg).run = .ok (.ok a) ∧ (decode libs' input .Jpeg).run = .ok (.ok b) ∧
      a.width = info.width ∧ a.height = info.height ∧ Alike (δ + 1 / 1000000) a b := by
  obtain ⟨a, e1, s⟩ := C50_read_jpeg libs hr hi hl hv
  obtain ⟨b, e2, t⟩ := C50_read_jpeg libs' hr' hi' hl hv
  refine ⟨a, b, e1, e2, s.width, s.height, _, _, _, _, s, t, fun x y _ _ => ?_⟩
  have δ0 := PowWithin.nonneg hL
  have byte : ∀ k, bytesAt data info.width (jpegSize info.pixel_format) x y k < 256 := by
    intro k
    unfold bytesAt
    rw [List.getD_eq_getElem?_getD]
    cases e : data[(y * info.width + x) * jpegSize info.pixel_format + k]? with
    | none => simp
    | some v => exact hd v (List.mem_of_getElem? e)
  cases hp : info.pixel_format <;> rw [hp] at byte
  · exact colour_alike hL .L8 _ byte
  · have b0 := byte 0
    have b1 := byte 1
    have k := (level_alike hL (n := 65535) (v := if libs.little then bytesAt data info.width (jpegSize .L16) x y 1 * 256 +
      bytesAt data info.width (jpegSize .L16) x y 0 else bytesAt data info.width (jpegSize .L16) x y 0 * 256 +
      bytesAt data info.width (jpegSize .L16) x y 1) (.inr rfl) (by split <;> omega)).1
    rw [Nat.cast_ofNat] at k
    have e : native16 libs' (bytesAt data info.width (jpegSize .L16) x y) = (lit (((if libs.little then
      bytesAt data info.width (jpegSize .L16) x y 1 * 256 +
      bytesAt data info.width (jpegSize .L16) x y 0 else bytesAt data info.width (jpegSize .L16) x y 0 * 256 +
      bytesAt data info.width (jpegSize .L16) x y 1) : Nat) : ℚ) /. lit 65535 : ℝ) := by
      unfold native16
      rw [hlib]
    show AlikeAt _ (Srgb.to_rgb (Srgb.new (native16 libs _) (native16 libs _) (native16 libs _)))
      (Srgb.to_rgb (Srgb.new (native16 libs' _) (native16 libs' _) (native16 libs' _)))
    rw [e]
    exact alike_clamped k k k (one_alike (by linarith))
  · exact colour_alike hL .Rgb8 _ byte
  · exact cmyk_alike hL (byte 0) (byte 1) (byte 2) (byte 3)

omit [FloatBytes ℝ] in
theorem dyn_alike {δ : ℝ} (hL : PowWithin δ) {p : DynPixels F32} {p' : DynPixels ℝ} (h : SamePixels p p') {i : Nat}
    {c : Col F32} {d : Col ℝ} (hc : (dynAt p i).map Srgb.to_rgb = some c) (hd : (dynAt p' i).map Srgb.to_rgb = some d) :
    AlikeAt (δ + 1 / 1000000) c d := by
  have δ0 := PowWithin.nonneg hL
  have one := one_alike (t := δ + 1 / 1000000) (by linarith)
  have l8 : ∀ v : Nat, v ≤ 255 → Close (clamp01 (gamma_to_linear (sampleLevel 255 v : F32)))
      (clamp01 (gamma_to_linear (sampleLevel 255 v : ℝ))) (δ + 1 / 1000000) ∧
      Close (clamp01 (sampleLevel 255 v : F32)) (clamp01 (sampleLevel 255 v : ℝ)) (δ + 1 / 1000000) := fun v h => by
    have := level_plain hL (n := 255) (.inl rfl) h
    rw [Nat.cast_ofNat] at this
    exact this
  have l16 : ∀ v : Nat, v ≤ 65535 → Close (clamp01 (gamma_to_linear (sampleLevel 65535 v : F32)))
      (clamp01 (gamma_to_linear (sampleLevel 65535 v : ℝ))) (δ + 1 / 1000000) ∧
      Close (clamp01 (sampleLevel 65535 v : F32)) (clamp01 (sampleLevel 65535 v : ℝ)) (δ + 1 / 1000000) := fun v h => by
    have := level_plain hL (n := 65535) (.inr rfl) h
    rw [Nat.cast_ofNat] at this
    exact this
  cases h with
  | _ l hl =>
    simp only [dynAt] at hc hd
    cases e : l[i]? with
    | none => rw [e] at hc; cases hc
    | some v =>
      rw [e] at hc hd
      have m := hl v (List.mem_of_getElem? e)
      simp only [Option.map_some, Option.some.injEq] at hc hd
      subst hc hd
      first
        | exact alike_clamped (l8 _ m).1 (l8 _ m).1 (l8 _ m).1 one
        | exact alike_clamped (l16 _ m).1 (l16 _ m).1 (l16 _ m).1 one
        | exact alike_clamped (l8 _ m.1).1 (l8 _ m.1).1 (l8 _ m.1).1 (l8 _ m.2).2
        | exact alike_clamped (l16 _ m.1).1 (l16 _ m.1).1 (l16 _ m.1).1 (l16 _ m.2).2
        | exact alike_clamped (l8 _ m.1).1 (l8 _ m.2.1).1 (l8 _ m.2.2).1 one
        | exact alike_clamped (l8 _ m.1).1 (l8 _ m.2.1).1 (l8 _ m.2.2.1).1 (l8 _ m.2.2.2).2
        | exact alike_clamped (l16 _ m.1).1 (l16 _ m.2.1).1 (l16 _ m.2.2.1).1 (l16 _ m.2.2.2).2

omit [FloatBytes ℝ] in
/-- **Reading BMP and ICO files.** -/
theorem C131_read_image {δ : ℝ} (hL : PowWithin δ) (libs : Libs F32) (libs' : Libs ℝ) {input : List Nat}
    {img : DynamicImage F32} {img' : DynamicImage ℝ} (hs : SameImage img img') (hv : ValidSize img.width img.height) :
    (libs.bmp_read input = .ok img → libs'.bmp_read input = .ok img' →
      ∃ a b, (decode libs input .Bmp).run = .ok (.ok a) ∧ (decode libs' input .Bmp).run = .ok (.ok b) ∧
        a.width = img.width ∧ a.height = img.height ∧ Alike (δ + 1 / 1000000) a b) ∧
    (libs.ico_read input = .ok img → libs'.ico_read input = .ok img' →
      ∃ a b, (decode libs input .Ico).run = .ok (.ok a) ∧ (decode libs' input .Ico).run = .ok (.ok b) ∧
        a.width = img.width ∧ a.height = img.height ∧ Alike (δ + 1 / 1000000) a b) := by
  have hv' : ValidSize img'.width img'.height := by rw [hs.width, hs.height]; exact hv
  have n' : dynCount img'.pixels = some (img'.width * img'.height) := by
    have c : ∀ {p : DynPixels F32} {p' : DynPixels ℝ}, SamePixels p p' → dynCount p' = dynCount p := by
      intro p p' h; cases h <;> rfl
    rw [hs.width, hs.height, ← hs.count, c hs.pixels]
  have r : (∀ l, img.pixels ≠ .Rgb16 l) ∧ ∀ l, img'.pixels ≠ .Rgb16 l := by
    have c : ∀ {p : DynPixels F32} {p' : DynPixels ℝ}, SamePixels p p' → (∀ l, p ≠ .Rgb16 l) ∧ ∀ l, p' ≠ .Rgb16 l := by
      intro p p' h; cases h <;> exact ⟨fun _ => nofun, fun _ => nofun⟩
    exact c hs.pixels
  have key : ∀ {a : PixelBuffer (Col F32)} {b : PixelBuffer (Col ℝ)} {px ex}, Shows a img.width img.height px →
      Shows b img'.width img'.height ex →
      (∀ x y, x < img.width → y < img.height → (dynAt img.pixels (y * img.width + x)).map Srgb.to_rgb = some (px x y)) →
      (∀ x y, x < img'.width → y < img'.height → (dynAt img'.pixels (y * img'.width + x)).map Srgb.to_rgb = some (ex x y)) →
      Alike (δ + 1 / 1000000) a b := by
    intro a b px ex s t k k'
    rw [hs.width, hs.height] at t k'
    exact ⟨_, _, _, _, s, t, fun x y hx hy => dyn_alike hL hs.pixels (k x y hx hy) (k' x y hx hy)⟩
  constructor
  · intro h h'
    obtain ⟨a, px, e1, s, k⟩ := C50_read_bmp libs h hv hs.count r.1
    obtain ⟨b, ex, e2, t, k'⟩ := C50_read_bmp libs' h' hv' n' r.2
    exact ⟨a, b, e1, e2, s.width, s.height, key s t k k'⟩
  · intro h h'
    obtain ⟨a, px, e1, s, k⟩ := C50_read_ico libs h hv hs.count r.1
    obtain ⟨b, ex, e2, t, k'⟩ := C50_read_ico libs' h' hv' n' r.2
    exact ⟨a, b, e1, e2, s.width, s.height, key s t k k'⟩

/-- A JPEG file with one CMYK pixel. -/
example {δ : ℝ} (hL : PowWithin δ) (l : Libs F32) (l' : Libs ℝ) :
    let libs := { l with little := true, jpeg_read := fun _ => .ok [0, 10, 200, 30], jpeg_info := fun _ => some ⟨1, 1, .CMYK32⟩ }
    let libs' := { l' with little := true, jpeg_read := fun _ => .ok [0, 10, 200, 30], jpeg_info := fun _ => some ⟨1, 1, .CMYK32⟩ }
    ∃ a b, (decode libs [1, 2, 3] .Jpeg).run = .ok (.ok a) ∧ (decode libs' [1, 2, 3] .Jpeg).run = .ok (.ok b) ∧
      Alike (δ + 1 / 1000000) a b := by
  intro libs libs'
  obtain ⟨a, b, h1, h2, _, _, h⟩ := C131_read_jpeg hL libs libs' rfl (input := [1, 2, 3]) (info := ⟨1, 1, .CMYK32⟩) rfl rfl rfl rfl rfl
    (Or.inr (by norm_num)) (by decide)
  exact ⟨a, b, h1, h2, h⟩

end

/-- On a platform with a good `powf`, a BMP file of 2 by 1 pixels that is opened and stored as 16-bit PNG has samples at
most three steps of 65535 off; stored as gray JPEG, at most one step of 255. -/
example [Junk] [FloatBytes ℝ] (l : Libs F32) (l' : Libs ℝ) : letI := nearestAll
    let libs := { l with bmp_read := fun _ => .ok ⟨2, 1, .Rgba8 [(0, 1, 2, 3), (255, 128, 7, 9)]⟩ }
    let libs' := { l' with bmp_read := fun _ => .ok ⟨2, 1, .Rgba8 [(0, 1, 2, 3), (255, 128, 7, 9)]⟩ }
    ∃ a b data data' gray gray', (decode libs [1] .Bmp).run = .ok (.ok a) ∧ (decode libs' [1] .Bmp).run = .ok (.ok b) ∧
      encode libs a (.Png .Rgba16 .Default .Sub) = .ok (libs.png_write ⟨2, 1, .Rgba, .Sixteen, .Default, .Sub, data⟩) ∧
      encode libs' b (.Png .Rgba16 .Default .Sub) = .ok (libs'.png_write ⟨2, 1, .Rgba, .Sixteen, .Default, .Sub, data'⟩) ∧
      OffBy 4 (pairUp data) (pairUp data') ∧
      encode libs a (.Jpeg 90 false none true false) = .ok (libs.jpeg_write ⟨90, none, false, false, gray, 2, 1, true⟩) ∧
      encode libs' b (.Jpeg 90 false none true false) = .ok (libs'.jpeg_write ⟨90, none, false, false, gray', 2, 1, true⟩) ∧
      OffBy 2 gray gray' := by
  let _ := nearestAll
  intro libs libs'
  have hL : PowWithin (1 / 1048576) := nearestAll_near.2.2
  have hs : SameImage (⟨2, 1, .Rgba8 [(0, 1, 2, 3), (255, 128, 7, 9)]⟩ : DynamicImage F32)
      (⟨2, 1, .Rgba8 [(0, 1, 2, 3), (255, 128, 7, 9)]⟩ : DynamicImage ℝ) := ⟨rfl, rfl, .rgba8 _ (by decide), rfl⟩
  obtain ⟨a, b, h1, h2, hw, hh, k⟩ := (C131_read_image hL libs libs' (input := [1]) hs (Or.inr (by norm_num))).1 rfl rfl
  obtain ⟨d, d', e1, e2, o⟩ := C131_png hL (by norm_num) k libs libs' .Rgba16 (by decide) .Default .Sub
  obtain ⟨g, g', f1, f2, o'⟩ := C131_jpeg hL (by norm_num) k libs libs' (hw.le.trans (by norm_num))
    (hh.le.trans (by norm_num)) 90 false none true false
  have hle : storedError .Rgba16 (1 / 1048576 + 1 / 1000000) (1 / 1048576) ≤ 4 := by
    norm_num [storedError, sampleSize, grayCost]
  have hle' : storedError .L8 (1 / 1048576 + 1 / 1000000) (1 / 1048576) ≤ 2 := by
    norm_num [storedError, sampleSize, grayCost]
  rw [hw, hh] at e1 e2 f1 f2
  exact ⟨a, b, d, d', g, g', h1, h2, e1, e2, o.imp fun _ _ h => h.trans_le hle, f1, f2, o'.imp fun _ _ h => h.trans_le hle'⟩

end D10
