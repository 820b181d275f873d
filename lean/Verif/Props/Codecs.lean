import Verif.Props.Quant
import Verif.Props.Drawing
import Verif.Float.Bits

/-! # Properties of the codecs: C50 - C53, C58, C59, C77 -/

namespace D10
open Spec
open Scalar (isNan lit)

/-! ## Serialisation -/

section
variable {F : Type} [Scalar F]

theorem vec_l8 (b : PixelBuffer (Col F)) : to_l8_vec b = b.data.flatMap (sampleBytes · .L8) := by
  unfold to_l8_vec
  exact (foldl_append_flatMap (fun c : Col F => sampleBytes c .L8) b.data []).trans (List.nil_append _)

theorem vec_la8 (b : PixelBuffer (Col F)) : to_la8_vec b = b.data.flatMap (sampleBytes · .La8) := by
  unfold to_la8_vec
  simp only [List.append_assoc]
  exact (foldl_append_flatMap (fun c : Col F => sampleBytes c .La8) b.data []).trans (List.nil_append _)

theorem vec_rgb8 (b : PixelBuffer (Col F)) : to_rgb8_vec b = b.data.flatMap (sampleBytes · .Rgb8) := by
  unfold to_rgb8_vec
  simp only [List.append_assoc]
  exact (foldl_append_flatMap (fun c : Col F => sampleBytes c .Rgb8) b.data []).trans (List.nil_append _)

theorem vec_rgba8 (b : PixelBuffer (Col F)) :
    to_rgba8_vec b = b.data.flatMap (sampleBytes · .Rgba8) := by
  unfold to_rgba8_vec
  simp only [List.append_assoc]
  exact (foldl_append_flatMap (fun c : Col F => sampleBytes c .Rgba8) b.data []).trans (List.nil_append _)

theorem vec_la16 (b : PixelBuffer (Col F)) :
    to_la16_be_vec b = b.data.flatMap (sampleBytes · .La16) := by
  unfold to_la16_be_vec
  simp only [List.append_assoc]
  exact (foldl_append_flatMap (fun c : Col F => sampleBytes c .La16) b.data []).trans (List.nil_append _)

theorem vec_rgb16 (b : PixelBuffer (Col F)) :
    to_rgb16_be_vec b = b.data.flatMap (sampleBytes · .Rgb16) := by
  unfold to_rgb16_be_vec
  simp only [List.append_assoc]
  exact (foldl_append_flatMap (fun c : Col F => sampleBytes c .Rgb16) b.data []).trans (List.nil_append _)

theorem vec_rgba16 (b : PixelBuffer (Col F)) :
    to_rgba16_be_vec b = b.data.flatMap (sampleBytes · .Rgba16) := by
  unfold to_rgba16_be_vec
  simp only [List.append_assoc]
  exact (foldl_append_flatMap (fun c : Col F => sampleBytes c .Rgba16) b.data []).trans (List.nil_append _)

theorem vec_l16 [FloatBytes F] (b : PixelBuffer (Col F)) :
    to_l16_be_vec b = b.data.flatMap fun c => FloatBytes.be (grayLevel c) := by
  unfold to_l16_be_vec
  exact (foldl_append_flatMap (fun c : Col F => FloatBytes.be (grayLevel c)) b.data []).trans
    (List.nil_append _)

theorem sampleBytes_length (c : Col F) (ct : PngColorType) :
    (sampleBytes c ct).length = channels ct * sampleSize ct := by cases ct <;> rfl

/-! ## C50: layout -/

/-- What the PNG encoder hands to the library, except for 16-bit gray (C51): the image size, the
channels and the sample size chosen, and for every pixel its samples, row by row. -/
theorem C50_png [FloatBytes F] (libs : Libs F) {b : PixelBuffer (Col F)} {w h : Nat}
    {px : Nat → Nat → Col F} (sh : Shows b w h px) (ct : PngColorType) (hct : ct ≠ .L16)
    (cmp : PngCompression) (flt : PngFilterType) :
    ∃ data, encode libs b (.Png ct cmp flt) =
        .ok (libs.png_write ⟨w, h, pngColor ct, pngDepth ct, cmp, flt, data⟩) ∧
      Layout w h (channels ct * sampleSize ct) data fun x y => sampleBytes (px x y) ct := by
  refine ⟨b.data.flatMap (sampleBytes · ct), ?_, layout_flatMap sh _ fun c => sampleBytes_length c ct⟩
  show Except.ok (encode_png libs b ct cmp flt) = _
  unfold encode_png
  rw [sh.width, sh.height]
  cases ct
  · rw [vec_l8]; rfl
  · rw [vec_la8]; rfl
  · exact absurd rfl hct
  · rw [vec_la16]; rfl
  · rw [vec_rgb8]; rfl
  · rw [vec_rgba8]; rfl
  · rw [vec_rgb16]; rfl
  · rw [vec_rgba16]; rfl

/-- The kinds of samples of BMP and ICO files. -/
def Spec.imageSamples : ImageColorType → PngColorType
  | .L8 => .L8 | .La8 => .La8 | .Rgb8 => .Rgb8 | .Rgba8 => .Rgba8

theorem imageBytes_layout {b : PixelBuffer (Col F)} {w h : Nat} {px : Nat → Nat → Col F}
    (sh : Shows b w h px) (ct : ImageColorType) :
    Layout w h (channels (imageSamples ct)) (imageBytes b ct)
      fun x y => sampleBytes (px x y) (imageSamples ct) := by
  cases ct
  · show Layout w h 1 (to_l8_vec b) _; rw [vec_l8]; exact layout_flatMap sh _ fun _ => rfl
  · show Layout w h 2 (to_la8_vec b) _; rw [vec_la8]; exact layout_flatMap sh _ fun _ => rfl
  · show Layout w h 3 (to_rgb8_vec b) _; rw [vec_rgb8]; exact layout_flatMap sh _ fun _ => rfl
  · show Layout w h 4 (to_rgba8_vec b) _; rw [vec_rgba8]; exact layout_flatMap sh _ fun _ => rfl

/-- The same for BMP. -/
theorem C50_bmp [FloatBytes F] (libs : Libs F) {b : PixelBuffer (Col F)} {w h : Nat}
    {px : Nat → Nat → Col F} (sh : Shows b w h px) (ct : ImageColorType) :
    ∃ data, encode libs b (.Bmp ct) = .ok (libs.bmp_write ⟨data, w, h, ct⟩) ∧
      Layout w h (channels (imageSamples ct)) data
        fun x y => sampleBytes (px x y) (imageSamples ct) :=
  ⟨imageBytes b ct, by rw [← sh.width, ← sh.height]; rfl, imageBytes_layout sh ct⟩

/-- The same for ICO. -/
theorem C50_ico [FloatBytes F] (libs : Libs F) {b : PixelBuffer (Col F)} {w h : Nat}
    {px : Nat → Nat → Col F} (sh : Shows b w h px) (ct : ImageColorType) :
    ∃ data, encode libs b (.Ico ct) = .ok (libs.ico_write ⟨data, w, h, ct⟩) ∧
      Layout w h (channels (imageSamples ct)) data
        fun x y => sampleBytes (px x y) (imageSamples ct) :=
  ⟨imageBytes b ct, by rw [← sh.width, ← sh.height]; rfl, imageBytes_layout sh ct⟩

/-- JPEG images up to 65535 x 65535: three bytes per pixel, or one for grayscale; the options are
passed on, the quality is moved into 1..100. -/
theorem C50_jpeg [FloatBytes F] (libs : Libs F) {b : PixelBuffer (Col F)} {w h : Nat}
    {px : Nat → Nat → Col F} (sh : Shows b w h px) (hw : w ≤ 65535) (hh : h ≤ 65535) (q : Nat)
    (prog : Bool) (sf : Option JpegSamplingFactor) (gray opt : Bool) :
    ∃ data, encode libs b (.Jpeg q prog sf gray opt) =
        .ok (libs.jpeg_write ⟨max 1 (min q 100), sf, prog, opt, data, w, h, gray⟩) ∧
      Layout w h (if gray then 1 else 3) data
        fun x y => sampleBytes (px x y) (if gray then .L8 else .Rgb8) := by
  have e : encode libs b (.Jpeg q prog sf gray opt) =
      .ok (libs.jpeg_write ⟨max 1 (min q 100), sf, prog, opt,
        if gray then to_l8_vec b else to_rgb8_vec b, w, h, gray⟩) := by
    show Except.ok (encode_jpeg libs b q prog sf gray opt) = _
    unfold encode_jpeg
    rw [sh.width, sh.height]
    simp only []
    rw [if_neg (by omega), Nat.mod_eq_of_lt (by omega), Nat.mod_eq_of_lt (by omega), min_comm]
    cases gray <;> rfl
  refine ⟨_, e, ?_⟩
  cases gray
  · show Layout w h 3 (to_rgb8_vec b) _; rw [vec_rgb8]; exact layout_flatMap sh _ fun _ => rfl
  · show Layout w h 1 (to_l8_vec b) _; rw [vec_l8]; exact layout_flatMap sh _ fun _ => rfl

/-- GIF images up to 65535 x 65535: four bytes per pixel; the length check of the library does not
fail. -/
theorem C50_gif [FloatBytes F] (libs : Libs F) {b : PixelBuffer (Col F)} {w h : Nat}
    {px : Nat → Nat → Col F} (sh : Shows b w h px) (hw : w ≤ 65535) (hh : h ≤ 65535) :
    ∃ data, encode libs b .Gif = .ok (libs.gif_write ⟨w, h, data, 10⟩) ∧
      Layout w h 4 data fun x y => sampleBytes (px x y) .Rgba8 := by
  have l : Layout w h 4 (to_rgba8_vec b) fun x y => sampleBytes (px x y) .Rgba8 := by
    rw [vec_rgba8]; exact layout_flatMap sh _ fun _ => rfl
  refine ⟨to_rgba8_vec b, ?_, l⟩
  show encode_gif libs b = _
  unfold encode_gif
  rw [sh.width, sh.height]
  simp only []
  rw [if_neg (by omega), Nat.mod_eq_of_lt (by omega), Nat.mod_eq_of_lt (by omega)]
  unfold assert
  rw [if_pos (decide_eq_true l.length.symm)]
  rfl

/-- The four bytes of a word, the highest first. -/
def Spec.word (a r g b : Nat) : Nat := a * 2 ^ 24 + r * 2 ^ 16 + g * 2 ^ 8 + b

theorem argb_word {a r g b : Nat} (hr : r < 256) (hg : g < 256) (hb : b < 256) :
    (a <<< 24 ||| r <<< 16 ||| g <<< 8 ||| b) = word a r g b := by
  have h1 : a <<< 24 ||| r <<< 16 = a * 2 ^ 24 + r * 2 ^ 16 := by
    rw [← Nat.shiftLeft_add_eq_or_of_lt (by rw [Nat.shiftLeft_eq]; omega), Nat.shiftLeft_eq,
      Nat.shiftLeft_eq]
  have h2 : (a * 2 ^ 24 + r * 2 ^ 16) = (a * 2 ^ 8 + r) <<< 16 := by rw [Nat.shiftLeft_eq]; ring
  have h3 : ((a * 2 ^ 8 + r) <<< 16 ||| g <<< 8) = (a * 2 ^ 16 + r * 2 ^ 8 + g) <<< 8 := by
    rw [← Nat.shiftLeft_add_eq_or_of_lt (by rw [Nat.shiftLeft_eq]; omega), Nat.shiftLeft_eq,
      Nat.shiftLeft_eq, Nat.shiftLeft_eq]; ring
  rw [h1, h2, h3, ← Nat.shiftLeft_add_eq_or_of_lt (by omega), Nat.shiftLeft_eq]
  unfold word; ring

/-- WebP: one word per pixel with alpha, red, green and blue in its four bytes; the preset and the
quality (at most 100) are passed on. -/
theorem C50_webp [LawfulCast F] [FloatBytes F] (libs : Libs F) {b : PixelBuffer (Col F)} {w h : Nat}
    {px : Nat → Nat → Col F} (sh : Shows b w h px) (q : Nat) (p : WebPPreset) :
    ∃ argb, encode libs b (.WebP q p) = .ok (
        match libs.webp_write ⟨if p = .Lossless then none else some (p, min q 100), w, h, argb⟩ with
        | .error false => ⟨[], .error (.Encoding "Unable to init webp encoder config")⟩
        | .error true => ⟨[], .error (.Encoding "Unable to init webp picture config")⟩
        | .ok (bytes, some err, _) => ⟨bytes, .error (.IoError err)⟩
        | .ok (bytes, none, false) => ⟨bytes, .error (.Encoding "Error encoding webp file")⟩
        | .ok (bytes, none, true) => ⟨bytes, .ok ()⟩) ∧
      Layout w h 1 argb fun x y =>
        [word (as_u8 (Rgb.to_srgb (px x y)).alpha) (as_u8 (Rgb.to_srgb (px x y)).c0)
          (as_u8 (Rgb.to_srgb (px x y)).c1) (as_u8 (Rgb.to_srgb (px x y)).c2)] := by
  have hw := sh.size.width_le
  have hh := sh.size.height_le
  have e : to_argb8_vec32 b = b.data.flatMap fun c =>
      [word (as_u8 (Rgb.to_srgb c).alpha) (as_u8 (Rgb.to_srgb c).c0)
          (as_u8 (Rgb.to_srgb c).c1) (as_u8 (Rgb.to_srgb c).c2)] := by
    unfold to_argb8_vec32
    refine Eq.trans ?_ ((foldl_append_flatMap _ b.data []).trans (List.nil_append _))
    congr 1
    funext out c
    have h1 := C48_byte (Rgb.to_srgb c).c0
    have h2 := C48_byte (Rgb.to_srgb c).c1
    have h3 := C48_byte (Rgb.to_srgb c).c2
    simp only []
    rw [argb_word (by omega) (by omega) (by omega)]
  refine ⟨to_argb8_vec32 b, ?_, ?_⟩
  · show Except.ok (encode_webp libs b q p) = _
    unfold encode_webp
    have hasI : ∀ n : Nat, n ≤ 1073741823 → asI32 n = (n : Int) := by
      intro n hn; unfold asI32; rw [if_pos (by omega)]; exact congrArg _ (Nat.mod_eq_of_lt (by omega))
    rw [sh.width, sh.height, hasI w hw, hasI h hh]
    simp only []
    rw [min_comm]
    clear e
    cases p <;> simp only [reduceCtorEq, if_false, if_true] <;>
      (generalize libs.webp_write _ = r; rcases r with (_ | _) | ⟨bytes, _ | err, _ | _⟩ <;> rfl)
  · rw [e]; exact layout_flatMap sh _ fun _ => rfl

/-! ## C50: reading -/

theorem px_lt {w h x y : Nat} (hx : x < w) (hy : y < h) : y * w + x < w * h := by
  have : (y + 1) * w ≤ h * w := Nat.mul_le_mul_right _ hy
  rw [Nat.succ_mul, Nat.mul_comm h w] at this; omega

omit [Scalar F] in
/-- The last steps of every reader: pieces of `n` bytes are made to colours and put in a buffer. -/
theorem read_pieces {w h n : Nat} (hv : ValidSize w h) (hn : 0 < n) {data : List Nat}
    (hl : data.length = w * h * n) {f : List Nat → R (Col F)} {g : (Nat → Nat) → Col F}
    (hf : ∀ i < w * h, f ((data.drop (i * n)).take n) = .ok (g fun k => data.getD (i * n + k) 0)) :
    ∃ b, (do let raw ← perChunk n data f
             liftM (PixelBuffer.new_from_raw w h raw) : Dec (PixelBuffer (Col F))).run =
        .ok (.ok b) ∧ Shows b w h fun x y => g (bytesAt data w n x y) := by
  obtain ⟨b, hb, sh⟩ := new_from_raw_shows hv fun i => g fun k => data.getD (i * n + k) 0
  refine ⟨b, ?_, sh⟩
  rw [perChunk_ok hn hl hf, pure_bind, hb]; rfl

theorem list_eq_range {α : Type} (l : List α) (d : α) {m : Nat} (h : l.length = m) :
    l = (List.range m).map fun i => l.getD i d := by
  subst h
  apply List.ext_getElem?
  intro i
  by_cases hi : i < l.length
  · rw [List.getElem?_map, List.getElem?_range hi]; simp [List.getD, List.getElem?_eq_getElem hi]
  · rw [List.getElem?_eq_none (by omega), List.getElem?_eq_none (by simp; omega)]

omit [Scalar F] in
/-- The same where every byte is a pixel. -/
theorem read_bytes {w h : Nat} (hv : ValidSize w h) {data : List Nat}
    (hl : data.length = w * h) (g : Nat → Col F) :
    ∃ b, (liftM (PixelBuffer.new_from_raw w h (data.map g)) : Dec (PixelBuffer (Col F))).run =
        .ok (.ok b) ∧ Shows b w h fun x y => g (bytesAt data w 1 x y 0) := by
  obtain ⟨b, hb, sh⟩ := new_from_raw_shows hv fun i => g (data.getD i 0)
  refine ⟨b, ?_, sh.congr fun x y _ _ => by unfold bytesAt; simp⟩
  have e : data.map g = (List.range (w * h)).map fun i => g (data.getD i 0) := by
    conv_lhs => rw [list_eq_range data 0 hl]
    rw [List.map_map]; rfl
  rw [e, hb]; rfl

theorem of_ok_bind {α β : Type} (a : α) (f : α → Dec β) : (Dec.of (.ok a) >>= f) = f a := rfl
theorem of_err_bind {α β : Type} (e : DecodingError) (f : α → Dec β) :
    (Dec.of (.error e) >>= f) = throw e := rfl
theorem lift_ok_bind {α β : Type} (a : α) (f : α → Dec β) :
    ((liftM (Except.ok a : R α) : Dec α) >>= f) = f a := rfl
theorem throw_bind {α β : Type} (e : DecodingError) (f : α → Dec β) :
    ((throw e : Dec α) >>= f) = throw e := rfl

omit [Scalar F] in
theorem png_start (libs : Libs F) {input : List Nat} {rd : PngReader}
    (_hr : libs.png_read input = .ok rd) (hv : ValidSize rd.width rd.height) :
    is_valid_buffer_size rd.width rd.height = true ∧
      u32 (rd.width * rd.height) = .ok (rd.width * rd.height) := by
  refine ⟨(is_valid_iff _ _).2 hv, u32_ok ?_⟩
  have := hv.mul_le
  omega

/-- Reading a PNG file of one of the eight kinds that the encoder writes (the library announces
size, channels and sample size, and delivers `data`): an image of that size in which every pixel
has the colour its bytes stand for. -/
theorem C50_read_png (libs : Libs F) {input : List Nat} {rd : PngReader} {w h : Nat}
    (hr : libs.png_read input = .ok rd) (hw : rd.width = w) (hh : rd.height = h)
    (hv : ValidSize w h) (ct : PngColorType) (hc : rd.color_type = pngColor ct)
    (hb : rd.bits = pngDepth ct) {n : Nat} (hn : n = w * h * (channels ct * sampleSize ct))
    {data : List Nat} {hl : data.length = n} (hd : rd.next_frame n = .ok ⟨data, hl⟩) :
    ∃ b, (decode libs input .Png).run = .ok (.ok b) ∧
      Shows b w h fun x y => colourOf (bytesAt data w (channels ct * sampleSize ct) x y) ct := by
  subst hw hh
  obtain ⟨h1, h2⟩ := png_start libs hr hv
  have e : decode libs input .Png = decode_png libs input := rfl
  rw [e]
  unfold decode_png
  rw [hr]
  simp only [of_ok_bind, lift_ok_bind, h1, h2, Bool.not_true, Bool.false_eq_true, if_false, hc, hb]
  cases ct
  · have : n = rd.width * rd.height := by simpa [channels, sampleSize] using hn
    subst this
    obtain ⟨b, h3, h4⟩ := read_bytes hv hl fun v =>
      (Srgb.to_rgb (Srgb.new (from_u8 v) (from_u8 v) (from_u8 v)) : Col F)
    refine ⟨b, ?_, h4⟩
    rw [← h3]
    simp only [pngColor, pngDepth, sampleSize, if_true]
    rw [hd]; rfl
  all_goals
    subst hn
    simp only [pngColor, pngDepth, sampleSize, channels, if_true, Nat.mul_one] at hd ⊢
    try simp only [Nat.reduceMul, OfNat.ofNat_ne_one, if_false] at hd ⊢
    rw [hd, of_ok_bind]
    have hl2 := hl
    simp only [channels, sampleSize, Nat.reduceMul] at hl2
    refine read_pieces hv (by decide) hl2 (g := fun d => colourOf d _) ?_
    intro i hi
    simp only [index_chunk hl2 hi, Nat.reduceLT, Nat.ofNat_pos, Nat.one_lt_ofNat, ok_bind]
    rfl

/-- Failures of reading a PNG file: the library's own errors are passed on, a size that no buffer
can have and every other kind of PNG are errors too, in this order. -/
theorem C50_read_png_fail (libs : Libs F) (input : List Nat) :
    (∀ e, libs.png_read input = .error e → (decode libs input .Png).run = .ok (.error e)) ∧
    ∀ rd, libs.png_read input = .ok rd →
      (¬ ValidSize rd.width rd.height → (decode libs input .Png).run =
        .ok (.error (.InvalidBufferSize rd.width rd.height))) ∧
      (ValidSize rd.width rd.height →
        (∀ ct, rd.color_type = pngColor ct → rd.bits = pngDepth ct → ∀ n e,
          n = rd.width * rd.height * (channels ct * sampleSize ct) → rd.next_frame n = .error e →
          (decode libs input .Png).run = .ok (.error e)) ∧
        ((∀ ct, ¬ (rd.color_type = pngColor ct ∧ rd.bits = pngDepth ct)) →
          (decode libs input .Png).run = .ok (.error (.Decoding "Unsupported png")))) := by
  have e0 : decode libs input .Png = decode_png libs input := rfl
  rw [e0]
  unfold decode_png
  refine ⟨fun e he => by rw [he]; rfl, fun rd hr => ⟨fun hv => ?_, fun hv => ⟨fun ct hc hb n e hn he => ?_, fun hn => ?_⟩⟩⟩
  · have : is_valid_buffer_size rd.width rd.height = false := by
      rw [Bool.eq_false_iff]; exact fun h => hv ((is_valid_iff _ _).1 h)
    rw [hr]
    simp only [of_ok_bind, this, Bool.not_false, if_true]; rfl
  · obtain ⟨h1, h2⟩ := png_start libs hr hv
    rw [hr]
    simp only [of_ok_bind, lift_ok_bind, h1, h2, Bool.not_true, Bool.false_eq_true, if_false, hc, hb]
    cases ct <;> simp only [pngColor, pngDepth, sampleSize, channels, if_true, Nat.mul_one] at hn ⊢ <;>
      (try simp only [Nat.reduceMul, OfNat.ofNat_ne_one, if_false] at hn ⊢) <;>
      (subst hn; rw [he]; rfl)
  · obtain ⟨h1, h2⟩ := png_start libs hr hv
    rw [hr]
    simp only [of_ok_bind, lift_ok_bind, h1, h2, Bool.not_true, Bool.false_eq_true, if_false]
    have n1 := hn .L8
    have n2 := hn .La8
    have n3 := hn .Rgb8
    have n4 := hn .Rgba8
    have n5 := hn .L16
    have n6 := hn .La16
    have n7 := hn .Rgb16
    have n8 := hn .Rgba16
    cases hc : rd.color_type <;> cases hb : rd.bits <;>
      simp only [hc, hb, pngColor, pngDepth, sampleSize, if_true, OfNat.ofNat_ne_one, if_false,
        and_self, not_true_eq_false] at n1 n2 n3 n4 n5 n6 n7 n8 <;> rfl

/-- The value of a 16-bit sample in the byte order of the machine. -/
def Spec.native16 (libs : Libs F) (d : Nat → Nat) : F :=
  lit (((if libs.little then d 1 * 256 + d 0 else d 0 * 256 + d 1) : Nat) : ℚ) /. lit 65535

/-- The colour of a pixel in the output of the JPEG library. -/
def Spec.jpegColour (libs : Libs F) (d : Nat → Nat) : JpegPixelFormat → Col F
  | .L8 => colourOf d .L8
  | .L16 => Srgb.to_rgb (Srgb.new (native16 libs d) (native16 libs d) (native16 libs d))
  | .RGB24 => colourOf d .Rgb8
  | .CMYK32 => cmyk_to_rgb (d 0) (d 1) (d 2) (d 3)

/-- Reading a JPEG file whose data has the announced length and whose size a buffer can have. -/
theorem C50_read_jpeg (libs : Libs F) {input data : List Nat} {info : JpegInfo}
    (hr : libs.jpeg_read input = .ok data) (hi : libs.jpeg_info input = some info)
    (hl : data.length = info.width * info.height * jpegSize info.pixel_format)
    (hv : ValidSize info.width info.height) :
    ∃ b, (decode libs input .Jpeg).run = .ok (.ok b) ∧
      Shows b info.width info.height fun x y =>
        jpegColour libs (bytesAt data info.width (jpegSize info.pixel_format) x y) info.pixel_format := by
  have e0 : decode libs input .Jpeg = decode_jpeg libs input := rfl
  rw [e0]
  unfold decode_jpeg
  rw [hr, hi]
  simp only [of_ok_bind]
  cases hp : info.pixel_format <;> rw [hp] at hl
  · refine read_bytes hv (by rw [hl]; exact Nat.mul_one _) fun v =>
      (Srgb.to_rgb (Srgb.new (from_u8 v) (from_u8 v) (from_u8 v)) : Col F)
  all_goals
    simp only [jpegSize] at hl
    refine read_pieces hv (by decide) hl (g := fun d => jpegColour libs d _) ?_
    intro i hi
    simp only [index_chunk hl hi, Nat.reduceLT, Nat.ofNat_pos, Nat.one_lt_ofNat, ok_bind]
    rfl

/-- Failures of reading a JPEG file: the library's error, or a missing header. -/
theorem C50_read_jpeg_fail (libs : Libs F) (input : List Nat) :
    (∀ e, libs.jpeg_read input = .error e → (decode libs input .Jpeg).run = .ok (.error e)) ∧
    ∀ data, libs.jpeg_read input = .ok data → libs.jpeg_info input = none →
      (decode libs input .Jpeg).run = .ok (.error (.Decoding "Missing jpeg info")) := by
  have e0 : decode libs input .Jpeg = decode_jpeg libs input := rfl
  rw [e0]
  unfold decode_jpeg
  exact ⟨fun e he => by rw [he]; rfl, fun data hd hi => by rw [hd, hi]; rfl⟩

/-- Reading a GIF file: its first frame, four bytes per pixel. -/
theorem C50_read_gif (libs : Libs F) {input : List Nat} {frame : GifFrame}
    (hr : libs.gif_read input = .ok (some frame))
    (hl : frame.buffer.length = frame.width * frame.height * 4)
    (hv : ValidSize frame.width frame.height) :
    ∃ b, (decode libs input .Gif).run = .ok (.ok b) ∧
      Shows b frame.width frame.height fun x y =>
        colourOf (bytesAt frame.buffer frame.width 4 x y) .Rgba8 := by
  have e0 : decode libs input .Gif = decode_gif libs input := rfl
  rw [e0]
  unfold decode_gif
  rw [hr]
  simp only [of_ok_bind, (is_valid_iff _ _).2 hv, Bool.not_true, Bool.false_eq_true, if_false]
  refine read_pieces hv (by decide) hl (g := fun d => colourOf d .Rgba8) ?_
  intro i hi
  simp only [index_chunk hl hi, Nat.reduceLT, Nat.ofNat_pos, Nat.one_lt_ofNat, ok_bind]
  rfl

/-- Failures of reading a GIF file. -/
theorem C50_read_gif_fail (libs : Libs F) (input : List Nat) :
    (∀ e, libs.gif_read input = .error e → (decode libs input .Gif).run = .ok (.error e)) ∧
    (libs.gif_read input = .ok none →
      (decode libs input .Gif).run = .ok (.error (.Decoding "No frame found"))) ∧
    ∀ frame, libs.gif_read input = .ok (some frame) →
      frame.buffer.length = frame.width * frame.height * 4 →
      ¬ ValidSize frame.width frame.height →
      (decode libs input .Gif).run = .ok (.error (.InvalidBufferSize frame.width frame.height)) := by
  have e0 : decode libs input .Gif = decode_gif libs input := rfl
  rw [e0]
  unfold decode_gif
  refine ⟨fun e he => by rw [he]; rfl, fun he => by rw [he]; rfl, fun frame hf hl hv => ?_⟩
  rw [hf]
  simp only [of_ok_bind]
  have : is_valid_buffer_size frame.width frame.height = false := by
    rw [Bool.eq_false_iff]; exact fun h => hv ((is_valid_iff _ _).1 h)
  rw [this, perChunk_ok (by decide) hl (g := fun d => (colourOf d .Rgba8 : Col F))]
  · rfl
  · intro i hi
    simp only [index_chunk hl hi, Nat.reduceLT, Nat.ofNat_pos, Nat.one_lt_ofNat, ok_bind]
    rfl

/-- Reading a WebP file: four bytes per pixel. -/
theorem C50_read_webp (libs : Libs F) {input : List Nat} {img : WebPDecoded}
    (hi : libs.webp_info input = true) (hr : libs.webp_read input = some img)
    (hv : ValidSize img.width img.height) :
    ∃ b, (decode libs input .WebP).run = .ok (.ok b) ∧
      Shows b img.width img.height fun x y => colourOf (bytesAt img.data.1 img.width 4 x y) .Rgba8 := by
  have e0 : decode libs input .WebP = decode_webp libs input := rfl
  rw [e0]
  unfold decode_webp
  rw [hr, hi]
  have hx : ∀ x y k, x < img.width → y < img.height → k < 4 →
      index img.data.1 ((x + y * img.width) * 4 + k) = .ok (bytesAt img.data.1 img.width 4 x y k) := by
    intro x y k hx hy hk
    have h1 := px_lt hx hy
    have hlt : (y * img.width + x) * 4 + k < img.data.1.length := by rw [img.data.2]; omega
    unfold index bytesAt
    rw [Nat.add_comm x, List.getElem?_eq_getElem hlt]
    simp [List.getD, List.getElem?_eq_getElem hlt]
  obtain ⟨b, hb, sh⟩ := (C02_new_from_func img.width img.height (fun x y => do
      let offset := (x + y * img.width) * 4
      return Srgb.to_rgb (Srgb.new_with_alpha
        (from_u8 (← index img.data.1 offset)) (from_u8 (← index img.data.1 (offset + 1)))
        (from_u8 (← index img.data.1 (offset + 2))) (from_u8 (← index img.data.1 (offset + 3)))))
    (fun x y => (colourOf (bytesAt img.data.1 img.width 4 x y) .Rgba8 : Col F)) (by
      intro x y h1 h2
      have h0 := hx x y 0 h1 h2 (by decide)
      rw [Nat.add_zero] at h0
      simp only [h0, hx x y _ h1 h2, Nat.reduceLT, Nat.one_lt_ofNat, ok_bind]
      rfl)).1 hv
  refine ⟨b, ?_, sh⟩
  simp only [Bool.not_true, Bool.false_eq_true, if_false]
  rw [hb]; rfl

/-- Failures of reading a WebP file. -/
theorem C50_read_webp_fail (libs : Libs F) (input : List Nat) :
    (libs.webp_info input = false →
      (decode libs input .WebP).run = .ok (.error (.Decoding "Bad webp file"))) ∧
    (libs.webp_info input = true → libs.webp_read input = none →
      (decode libs input .WebP).run = .ok (.error (.Decoding "Error decoding webp file"))) := by
  have e0 : decode libs input .WebP = decode_webp libs input := rfl
  rw [e0]
  unfold decode_webp
  exact ⟨fun h => by rw [h]; rfl, fun h h2 => by rw [h, h2]; rfl⟩

theorem read_list {α : Type} {w h : Nat} (hv : ValidSize w h) {l : List α} (hl : l.length = w * h)
    (g : α → Col F) :
    ∃ b px, (liftM (PixelBuffer.new_from_raw w h (l.map g)) : Dec (PixelBuffer (Col F))).run =
        .ok (.ok b) ∧ Shows b w h px ∧
        ∀ x y, x < w → y < h → l[y * w + x]?.map g = some (px x y) := by
  have wf : WellFormed (⟨w, h, l.map g⟩ : PixelBuffer (Col F)) := ⟨hv, by simpa using hl⟩
  obtain ⟨px, sh⟩ := wf_shows ⟨lit 0, lit 0, lit 0, lit 0⟩ wf
  refine ⟨_, px, ?_, sh, ?_⟩
  · unfold PixelBuffer.new_from_raw
    rw [if_neg (by simp [hl]), validate_ok hv]; rfl
  · intro x y hx hy
    have := sh.getElem? hx hy
    rw [Nat.add_comm, ← this]
    simp

/-- Images of the `image` crate, except 16-bit RGB (C52): every pixel has the colour of its samples. -/
theorem read_image {img : DynamicImage F} (hv : ValidSize img.width img.height)
    (hn : dynCount img.pixels = some (img.width * img.height)) (h16 : ∀ l, img.pixels ≠ .Rgb16 l) :
    ∃ b px, (read_into_buffer img).run = .ok (.ok b) ∧ Shows b img.width img.height px ∧
      ∀ x y, x < img.width → y < img.height →
        (dynAt img.pixels (y * img.width + x)).map Srgb.to_rgb = some (px x y) := by
  unfold read_into_buffer
  simp only [(is_valid_iff _ _).2 hv, Bool.not_true, Bool.false_eq_true, if_false]
  cases hp : img.pixels <;> rw [hp] at hn h16 <;> simp only [dynCount, Option.some.injEq, reduceCtorEq] at hn
  case Rgb16 l => exact absurd rfl (h16 l)
  all_goals
    obtain ⟨b, px, h1, h2, h3⟩ := read_list (F := F) hv hn _
    refine ⟨b, px, h1, h2, fun x y hx hy => Eq.trans ?_ (h3 x y hx hy)⟩
    simp only [dynAt, Option.map_map]
    rfl

/-- Reading a BMP file. -/
theorem C50_read_bmp (libs : Libs F) {input : List Nat} {img : DynamicImage F}
    (hr : libs.bmp_read input = .ok img) (hv : ValidSize img.width img.height)
    (hn : dynCount img.pixels = some (img.width * img.height)) (h16 : ∀ l, img.pixels ≠ .Rgb16 l) :
    ∃ b px, (decode libs input .Bmp).run = .ok (.ok b) ∧ Shows b img.width img.height px ∧
      ∀ x y, x < img.width → y < img.height →
        (dynAt img.pixels (y * img.width + x)).map Srgb.to_rgb = some (px x y) := by
  have e0 : decode libs input .Bmp = decode_bmp libs input := rfl
  rw [e0]
  unfold decode_bmp
  rw [hr, of_ok_bind]
  exact read_image hv hn h16

/-- Reading an ICO file. -/
theorem C50_read_ico (libs : Libs F) {input : List Nat} {img : DynamicImage F}
    (hr : libs.ico_read input = .ok img) (hv : ValidSize img.width img.height)
    (hn : dynCount img.pixels = some (img.width * img.height)) (h16 : ∀ l, img.pixels ≠ .Rgb16 l) :
    ∃ b px, (decode libs input .Ico).run = .ok (.ok b) ∧ Shows b img.width img.height px ∧
      ∀ x y, x < img.width → y < img.height →
        (dynAt img.pixels (y * img.width + x)).map Srgb.to_rgb = some (px x y) := by
  have e0 : decode libs input .Ico = decode_ico libs input := rfl
  rw [e0]
  unfold decode_ico
  rw [hr, of_ok_bind]
  exact read_image hv hn h16

theorem read_image_fail (img : DynamicImage F) :
    (¬ ValidSize img.width img.height →
      (read_into_buffer img).run = .ok (.error (.InvalidBufferSize img.width img.height))) ∧
    (∀ name, ValidSize img.width img.height → img.pixels = .other name →
      (read_into_buffer img).run =
        .ok (.error (.Decoding ("Unsupported image format: " ++ name)))) := by
  unfold read_into_buffer
  constructor
  · intro hv
    have : is_valid_buffer_size img.width img.height = false := by
      rw [Bool.eq_false_iff]; exact fun h => hv ((is_valid_iff _ _).1 h)
    simp only [this, Bool.not_false, if_true]; rfl
  · intro name hv hp
    simp only [(is_valid_iff _ _).2 hv, Bool.not_true, Bool.false_eq_true, if_false, hp]
    rfl

/-- Failures of reading BMP and ICO files. -/
theorem C50_read_bmp_ico_fail (libs : Libs F) (input : List Nat) :
    (∀ e, libs.bmp_read input = .error e → (decode libs input .Bmp).run = .ok (.error e)) ∧
    (∀ e, libs.ico_read input = .error e → (decode libs input .Ico).run = .ok (.error e)) ∧
    ∀ img f, (f = .Bmp ∧ libs.bmp_read input = .ok img) ∨ (f = .Ico ∧ libs.ico_read input = .ok img) →
      (¬ ValidSize img.width img.height → (decode libs input f).run =
        .ok (.error (.InvalidBufferSize img.width img.height))) ∧
      ∀ name, ValidSize img.width img.height → img.pixels = .other name →
        (decode libs input f).run = .ok (.error (.Decoding ("Unsupported image format: " ++ name))) := by
  have e0 : decode libs input .Bmp = decode_bmp libs input := rfl
  have e1 : decode libs input .Ico = decode_ico libs input := rfl
  refine ⟨fun e he => ?_, fun e he => ?_, ?_⟩
  · rw [e0]; unfold decode_bmp; rw [he]; rfl
  · rw [e1]; unfold decode_ico; rw [he]; rfl
  · rintro img f (⟨rfl, h⟩ | ⟨rfl, h⟩)
    · rw [e0]; unfold decode_bmp; rw [h, of_ok_bind]; exact read_image_fail img
    · rw [e1]; unfold decode_ico; rw [h, of_ok_bind]; exact read_image_fail img

/-! ## C51: 16-bit gray -/

/-- Saving as 16-bit gray PNG hands four bytes per pixel to the library (those of the binary32
number), although it announces 16-bit gray samples, which take two. -/
theorem C51_length [FloatBytes F] (libs : Libs F) {b : PixelBuffer (Col F)} {w h : Nat}
    {px : Nat → Nat → Col F} (sh : Shows b w h px) (cmp : PngCompression) (flt : PngFilterType) :
    ∃ data, encode libs b (.Png .L16 cmp flt) =
        .ok (libs.png_write ⟨w, h, .Grayscale, .Sixteen, cmp, flt, data⟩) ∧
      Layout w h 4 data (fun x y => FloatBytes.be (grayLevel (px x y))) ∧
      (0 < w → 0 < h → data.length ≠ w * h * 2) := by
  have l := layout_flatMap sh (fun c : Col F => FloatBytes.be (grayLevel c)) fun c =>
    FloatBytes.be_length _
  refine ⟨_, ?_, l, fun hw hh => ?_⟩
  · show Except.ok (encode_png libs b .L16 cmp flt) = _
    unfold encode_png
    rw [sh.width, sh.height]
    simp only []
    rw [vec_l16]
  · rw [l.length]
    have := Nat.mul_pos hw hh
    omega

/-- So a library that accepts no data of a wrong length fails for every non-empty image. -/
theorem C51_rejected [FloatBytes F] (libs : Libs F) {b : PixelBuffer (Col F)} {w h : Nat}
    {px : Nat → Nat → Col F} (sh : Shows b w h px) (hw : 0 < w) (hh : 0 < h)
    (strict : ∀ img : PngImage, img.color = .Grayscale → img.depth = .Sixteen →
      img.data.length ≠ img.width * img.height * 2 → ∃ e, (libs.png_write img).result = .error e)
    (cmp : PngCompression) (flt : PngFilterType) :
    ∃ out e, encode libs b (.Png .L16 cmp flt) = .ok out ∧ out.result = .error e := by
  obtain ⟨data, h1, -, h3⟩ := C51_length libs sh cmp flt
  obtain ⟨e, he⟩ := strict ⟨w, h, .Grayscale, .Sixteen, cmp, flt, data⟩ rfl rfl (h3 hw hh)
  exact ⟨_, e, h1, he⟩

end

/-! ## C52: alpha of files without alpha -/

section
variable {F : Type} [Scalar F] [LawfulScalar F]

theorem clamp01_lit1 : clamp01 (lit 1 : F) = lit 1 :=
  clamp01_id (le_of_lit (by norm_num)) (le_of_lit (by norm_num))

theorem opaque_rgb (a b c : F) : (Srgb.to_rgb (Srgb.new a b c)).alpha = lit 1 := clamp01_lit1

theorem cmyk_opaque (c m y k : Nat) : (cmyk_to_rgb c m y k : Col F).alpha = lit 1 := clamp01_lit1

omit [Scalar F] [LawfulScalar F] in
theorem from_raw_ok {w h : Nat} {raw : List (Col F)} {b : PixelBuffer (Col F)}
    (hb : PixelBuffer.new_from_raw w h raw = .ok b) :
    b = ⟨w, h, raw⟩ ∧ ValidSize w h ∧ raw.length = w * h := by
  unfold PixelBuffer.new_from_raw at hb
  simp only at hb
  split at hb
  · exact absurd hb (by simp)
  · rename_i hl
    by_cases hv : ValidSize w h
    · rw [validate_ok hv] at hb
      exact ⟨(Except.ok.inj hb).symm, hv, by omega⟩
    · rw [validate_err hv] at hb
      exact absurd hb (by simp [bind, Except.bind])

theorem dec_bind_ok {α β : Type} {m : Dec α} {f : α → Dec β} {b : β}
    (h : (m >>= f).run = .ok (.ok b)) : ∃ a, m.run = .ok (.ok a) ∧ (f a).run = .ok (.ok b) := by
  rcases hm : m.run with p | e | a
  · rw [ExceptT.run_bind, hm] at h; exact absurd h (by simp [bind, Except.bind])
  · rw [ExceptT.run_bind, hm] at h; exact absurd h (by simp [bind, Except.bind, pure, Except.pure])
  · rw [ExceptT.run_bind, hm] at h; exact ⟨a, rfl, h⟩

theorem lift_ok {α : Type} {m : R α} {b : α} (h : (liftM m : Dec α).run = .ok (.ok b)) : m = .ok b := by
  rcases m with p | a
  · exact absurd (show Except.error p = Except.ok (Except.ok b) from h) (by simp)
  · have : (Except.ok (Except.ok a) : R (Except DecodingError α)) = .ok (.ok b) := h
    rw [Except.ok.inj (Except.ok.inj this)]

theorem throw_ne {α : Type} (e : DecodingError) (b : α) : (throw e : Dec α).run ≠ .ok (.ok b) := by
  intro h
  cases (show (Except.ok (Except.error e) : R (Except DecodingError α)) = .ok (.ok b) from h)

theorem throw_bind_ne {α β : Type} (e : DecodingError) (f : α → Dec β) (b : β) :
    ((throw e : Dec α) >>= f).run ≠ .ok (.ok b) := by
  rw [throw_bind]; exact throw_ne e b

omit [Scalar F] [LawfulScalar F] in
theorem from_raw_all {w h : Nat} {m : Dec (List (Col F))} {b : PixelBuffer (Col F)} {P : Col F → Prop}
    (hb : (do let raw ← m; liftM (PixelBuffer.new_from_raw w h raw) :
      Dec (PixelBuffer (Col F))).run = .ok (.ok b))
    (hm : ∀ raw, m.run = .ok (.ok raw) → ∀ c ∈ raw, P c) : ∀ c ∈ b.data, P c := by
  obtain ⟨raw, h1, h2⟩ := dec_bind_ok hb
  rw [(from_raw_ok (lift_ok h2)).1]
  exact hm raw h1

theorem mapM_mem {α β : Type} {f : α → R β} {l : List α} {r : List β} (h : l.mapM f = .ok r) :
    ∀ c ∈ r, ∃ a, f a = .ok c := by
  induction l generalizing r with
  | nil => rw [List.mapM_nil] at h; cases h; simp
  | cons a l ih =>
    rw [List.mapM_cons] at h
    rcases ha : f a with p | c
    · rw [ha] at h; exact absurd h (by simp [bind, Except.bind])
    · rcases hr : l.mapM f with p | cs
      · rw [ha, hr] at h; exact absurd h (by simp [bind, Except.bind])
      · rw [ha, hr] at h
        cases h
        intro d hd
        rcases List.mem_cons.1 hd with rfl | hd
        · exact ⟨a, ha⟩
        · exact ih hr d hd

theorem perChunk_mem {α : Type} {n : Nat} {data : List Nat} {f : List Nat → R α} {r : List α}
    (h : (perChunk n data f).run = .ok (.ok r)) : ∀ c ∈ r, ∃ a, f a = .ok c := by
  unfold perChunk at h
  exact mapM_mem (lift_ok h)

theorem r_bind_ok {α β : Type} {m : R α} {f : α → R β} {b : β} (h : (m >>= f) = .ok b) :
    ∃ a, m = .ok a ∧ f a = .ok b := by
  rcases m with p | a
  · exact absurd h (by simp [bind, Except.bind])
  · exact ⟨a, rfl, h⟩

/-- Every pixel of an image read from a file without transparency is opaque. -/
theorem C52_opaque (libs : Libs F) (input : List Nat) (f : Format) (hf : NoAlpha libs input f)
    (b : PixelBuffer (Col F)) (hb : (decode libs input f).run = .ok (.ok b)) :
    ∀ c ∈ b.data, c.alpha = lit 1 := by
  have img : ∀ img : DynamicImage F, NoAlpha.plain img.pixels →
      (read_into_buffer img).run = .ok (.ok b) → ∀ c ∈ b.data, c.alpha = lit 1 := by
    intro img hp hb
    unfold read_into_buffer at hb
    by_cases hv : is_valid_buffer_size img.width img.height
    · simp only [hv, Bool.not_true, Bool.false_eq_true, if_false] at hb
      cases hpx : img.pixels <;> rw [hpx] at hp hb <;> try exact hp.elim
      all_goals
        refine from_raw_all hb fun raw hraw c hc => ?_
        cases hraw
        obtain ⟨p, -, rfl⟩ := List.mem_map.1 hc
        exact clamp01_lit1
    · rw [Bool.not_eq_true] at hv
      simp only [hv, Bool.not_false, if_true] at hb
      exact absurd hb (throw_bind_ne _ _ _)
  cases f
  case Gif => exact hf.elim
  case WebP => exact hf.elim
  case Bmp =>
    obtain ⟨i, hi, hp⟩ := hf
    have e0 : decode libs input .Bmp = decode_bmp libs input := rfl
    rw [e0] at hb; unfold decode_bmp at hb; rw [hi, of_ok_bind] at hb
    exact img i hp hb
  case Ico =>
    obtain ⟨i, hi, hp⟩ := hf
    have e0 : decode libs input .Ico = decode_ico libs input := rfl
    rw [e0] at hb; unfold decode_ico at hb; rw [hi, of_ok_bind] at hb
    exact img i hp hb
  case Jpeg =>
    have e0 : decode libs input .Jpeg = decode_jpeg libs input := rfl
    rw [e0] at hb; unfold decode_jpeg at hb
    obtain ⟨data, -, hb⟩ := dec_bind_ok hb
    cases hi : libs.jpeg_info input with
    | none => rw [hi] at hb; exact absurd hb (throw_ne _ _)
    | some info =>
      rw [hi] at hb
      simp only at hb
      cases hp : info.pixel_format <;> rw [hp] at hb
      · refine from_raw_all hb fun raw hraw c hc => ?_
        cases hraw
        obtain ⟨p, -, rfl⟩ := List.mem_map.1 hc
        exact clamp01_lit1
      all_goals
        refine from_raw_all hb fun raw hraw c hc => ?_
        obtain ⟨ch, hc⟩ := perChunk_mem hraw c hc
        repeat (obtain ⟨_, -, hc⟩ := r_bind_ok hc)
        cases hc
        exact clamp01_lit1
  case Png =>
    obtain ⟨rd, hr, hc⟩ := hf
    have e0 : decode libs input .Png = decode_png libs input := rfl
    rw [e0] at hb; unfold decode_png at hb
    rw [hr] at hb
    simp only [of_ok_bind] at hb
    by_cases hv : is_valid_buffer_size rd.width rd.height
    · simp only [hv, Bool.not_true, Bool.false_eq_true, if_false] at hb
      obtain ⟨np, -, hb⟩ := dec_bind_ok hb
      rcases hc with hc | hc <;> cases hbits : rd.bits <;> simp only [hc, hbits] at hb
      all_goals try (exact absurd hb (throw_bind_ne _ _ _))
      · obtain ⟨fr, -, hb⟩ := dec_bind_ok hb
        refine from_raw_all hb fun raw hraw c hc => ?_
        cases hraw
        obtain ⟨p, -, rfl⟩ := List.mem_map.1 hc
        exact clamp01_lit1
      all_goals
        obtain ⟨fr, -, hb⟩ := dec_bind_ok hb
        refine from_raw_all hb fun raw hraw c hc => ?_
        obtain ⟨ch, hc⟩ := perChunk_mem hraw c hc
        repeat (obtain ⟨_, -, hc⟩ := r_bind_ok hc)
        cases hc
        exact clamp01_lit1
    · rw [Bool.not_eq_true] at hv
      simp only [hv, Bool.not_false, if_true] at hb
      exact absurd hb (throw_bind_ne _ _ _)

theorem clamp01_lit0 : clamp01 (lit 0 : F) = lit 0 :=
  clamp01_id (le_of_lit (by norm_num)) (le_of_lit (by norm_num))

/-- But 16-bit RGB images of the `image` crate (BMP and ICO files) come out fully transparent; the
colours themselves are right. -/
theorem C52_rgb16_transparent (libs : Libs F) (input : List Nat) {img : DynamicImage F} (f : Format)
    (hr : (f = .Bmp ∧ libs.bmp_read input = .ok img) ∨ (f = .Ico ∧ libs.ico_read input = .ok img))
    (l : List (Nat × Nat × Nat)) (hp : img.pixels = .Rgb16 l) (hv : ValidSize img.width img.height)
    (hl : l.length = img.width * img.height) :
    ∃ b px, (decode libs input f).run = .ok (.ok b) ∧ Shows b img.width img.height px ∧
      ∀ x y, x < img.width → y < img.height → (px x y).alpha = lit 0 ∧
        ∃ c, dynAt img.pixels (y * img.width + x) = some c ∧
          px x y = { Srgb.to_rgb c with alpha := lit 0 } := by
  have key : ∃ b px, (read_into_buffer img).run = .ok (.ok b) ∧ Shows b img.width img.height px ∧
      ∀ x y, x < img.width → y < img.height → (px x y).alpha = lit 0 ∧
        ∃ c, dynAt img.pixels (y * img.width + x) = some c ∧
          px x y = { Srgb.to_rgb c with alpha := lit 0 } := by
    obtain ⟨b, px, h1, h2, h3⟩ := read_list hv hl fun p => (Srgb.to_rgb
        ⟨lit (p.1 : ℚ) /. lit 65535, lit (p.2.1 : ℚ) /. lit 65535, lit (p.2.2 : ℚ) /. lit 65535,
          lit 0⟩ : Col F)
    refine ⟨b, px, ?_, h2, fun x y hx hy => ?_⟩
    · unfold read_into_buffer
      simp only [(is_valid_iff _ _).2 hv, Bool.not_true, Bool.false_eq_true, if_false, hp]
      exact h1
    · have h4 := h3 x y hx hy
      obtain ⟨p, hp1, hp2⟩ := Option.map_eq_some_iff.1 h4
      have ha : (px x y).alpha = lit 0 := by rw [← hp2]; exact clamp01_lit0
      refine ⟨ha, ⟨sampleLevel 65535 p.1, sampleLevel 65535 p.2.1, sampleLevel 65535 p.2.2, lit 1⟩, ?_, ?_⟩
      · rw [hp]; simp only [dynAt, hp1]; rfl
      · have : px x y = { px x y with alpha := lit 0 } := by rw [← ha]
        rw [this, ← hp2]; rfl
  rcases hr with ⟨rfl, h⟩ | ⟨rfl, h⟩
  · have e0 : decode libs input .Bmp = decode_bmp libs input := rfl
    rw [e0]; unfold decode_bmp; rw [h, of_ok_bind]; exact key
  · have e0 : decode libs input .Ico = decode_ico libs input := rfl
    rw [e0]; unfold decode_ico; rw [h, of_ok_bind]; exact key

end

/-! ## C53: reading and writing an image -/

theorem read_layout {w h n : Nat} {data : List Nat} (hl : data.length = w * h * n) :
    Layout w h n data fun x y => (List.range n).map (bytesAt data w n x y) := by
  refine ⟨hl, fun x y k hx hy hk => ?_⟩
  have h1 := px_lt hx hy
  have : (y * w + x) * n + k < data.length := by
    rw [hl]
    have : (y * w + x + 1) * n ≤ w * h * n := Nat.mul_le_mul_right _ h1
    rw [Nat.succ_mul] at this; omega
  rw [List.getElem?_eq_getElem this, List.getElem?_map, List.getElem?_range hk]
  simp [bytesAt, List.getD, List.getElem?_eq_getElem this]

/-- In exact arithmetic, reading a PNG file and writing it again in the same format gives the
library the very bytes it delivered, for all kinds of PNG except 16-bit gray (C51). -/
theorem C53_png_exact [Junk] [FloatBytes ℝ] (libs : Libs ℝ) {input : List Nat} {rd : PngReader}
    {w h : Nat} (hr : libs.png_read input = .ok rd) (hw : rd.width = w) (hh : rd.height = h)
    (hv : ValidSize w h) (ct : PngColorType) (hct : ct ≠ .L16) (hc : rd.color_type = pngColor ct)
    (hb : rd.bits = pngDepth ct) {n : Nat} (hn : n = w * h * (channels ct * sampleSize ct))
    {data : List Nat} {hl : data.length = n} (hd : rd.next_frame n = .ok ⟨data, hl⟩)
    (bytes : ∀ v ∈ data, v < 256) (cmp : PngCompression) (flt : PngFilterType) :
    ∃ b, (decode libs input .Png).run = .ok (.ok b) ∧
      encode libs b (.Png ct cmp flt) =
        .ok (libs.png_write ⟨w, h, pngColor ct, pngDepth ct, cmp, flt, data⟩) := by
  obtain ⟨b, h1, sh⟩ := C50_read_png libs hr hw hh hv ct hc hb hn hd
  obtain ⟨out, h2, lo⟩ := C50_png libs sh ct hct cmp flt
  refine ⟨b, h1, ?_⟩
  have hin := read_layout (w := w) (h := h) (data := data) (hl.trans hn)
  have : out = data := by
    refine layout_unique lo ⟨hin.length, fun x y k hx hy hk => ?_⟩
    rw [hin.entry x y k hx hy hk, C53_exact]
    intro k
    unfold bytesAt
    by_cases hk : (y * w + x) * (channels ct * sampleSize ct) + k < data.length
    · simp only [List.getD, List.getElem?_eq_getElem hk, Option.getD_some]
      exact bytes _ (List.getElem_mem hk)
    · rw [List.getD, List.getElem?_eq_none (Nat.le_of_not_lt hk)]; decide
  rw [h2, this]

/-! ## C58: dimensions and qualities -/

section
variable {F : Type} [Scalar F] [FloatBytes F]

/-- JPEG: images with a side over 65535 are refused with nothing written; all others reach the
library with their true size and a quality in 1..100. -/
theorem C58_jpeg (libs : Libs F) {b : PixelBuffer (Col F)} {w h : Nat} {px : Nat → Nat → Col F}
    (sh : Shows b w h px) (q : Nat) (prog : Bool) (sf : Option JpegSamplingFactor) (gray opt : Bool) :
    (65535 < w ∨ 65535 < h → encode libs b (.Jpeg q prog sf gray opt) =
      .ok ⟨[], .error (.BadDimensions "jpeg" w h)⟩) ∧
    (w ≤ 65535 → h ≤ 65535 → ∃ img, encode libs b (.Jpeg q prog sf gray opt) =
        .ok (libs.jpeg_write img) ∧ img.width = w ∧ img.height = h ∧ 1 ≤ img.quality ∧
        img.quality ≤ 100 ∧ (1 ≤ q → q ≤ 100 → img.quality = q)) := by
  constructor
  · intro hb
    show Except.ok (encode_jpeg libs b q prog sf gray opt) = _
    unfold encode_jpeg
    rw [sh.width, sh.height]
    simp only []
    rw [if_pos hb]
  · intro hw hh
    obtain ⟨data, h1, -⟩ := C50_jpeg libs sh hw hh q prog sf gray opt
    refine ⟨_, h1, rfl, rfl, ?_, ?_, ?_⟩ <;> simp only [] <;> omega

/-- So, if the library never reports bad dimensions, that error means exactly a side over 65535. -/
theorem C58_jpeg_iff (libs : Libs F) (hlib : ∀ img s u v, (libs.jpeg_write img).result ≠
      .error (.BadDimensions s u v))
    {b : PixelBuffer (Col F)} {w h : Nat} {px : Nat → Nat → Col F} (sh : Shows b w h px) (q : Nat)
    (prog : Bool) (sf : Option JpegSamplingFactor) (gray opt : Bool) :
    (∃ out s u v, encode libs b (.Jpeg q prog sf gray opt) = .ok out ∧
      out.result = .error (.BadDimensions s u v)) ↔ 65535 < w ∨ 65535 < h := by
  obtain ⟨h1, h2⟩ := C58_jpeg libs sh q prog sf gray opt
  constructor
  · rintro ⟨out, s, u, v, ho, hr⟩
    by_contra hn
    obtain ⟨img, hi, -⟩ := h2 (by omega) (by omega)
    rw [hi] at ho
    rw [← Except.ok.inj ho] at hr
    exact hlib _ _ _ _ hr
  · intro hb
    exact ⟨_, "jpeg", w, h, h1 hb, rfl⟩

/-- GIF: the same; the library never gets a wrong length. -/
theorem C58_gif (libs : Libs F) {b : PixelBuffer (Col F)} {w h : Nat} {px : Nat → Nat → Col F}
    (sh : Shows b w h px) :
    (65535 < w ∨ 65535 < h → encode libs b .Gif = .ok ⟨[], .error (.BadDimensions "gif" w h)⟩) ∧
    (w ≤ 65535 → h ≤ 65535 → ∃ img, encode libs b .Gif = .ok (libs.gif_write img) ∧
      img.width = w ∧ img.height = h ∧ img.pixels.length = w * h * 4) := by
  constructor
  · intro hb
    show encode_gif libs b = _
    unfold encode_gif
    rw [sh.width, sh.height]
    simp only []
    rw [if_pos hb]
  · intro hw hh
    obtain ⟨data, h1, l⟩ := C50_gif libs sh hw hh
    exact ⟨_, h1, rfl, rfl, l.length⟩

theorem C58_gif_iff (libs : Libs F) (hlib : ∀ img s u v, (libs.gif_write img).result ≠
      .error (.BadDimensions s u v))
    {b : PixelBuffer (Col F)} {w h : Nat} {px : Nat → Nat → Col F} (sh : Shows b w h px) :
    (∃ out s u v, encode libs b .Gif = .ok out ∧ out.result = .error (.BadDimensions s u v)) ↔
      65535 < w ∨ 65535 < h := by
  obtain ⟨h1, h2⟩ := C58_gif libs sh
  constructor
  · rintro ⟨out, s, u, v, ho, hr⟩
    by_contra hn
    obtain ⟨img, hi, -⟩ := h2 (by omega) (by omega)
    rw [hi] at ho
    rw [← Except.ok.inj ho] at hr
    exact hlib _ _ _ _ hr
  · intro hb
    exact ⟨_, "gif", w, h, h1 hb, rfl⟩

end

/-! ## C59: CMYK -/

section
variable [Junk]

theorem cmyk_exact (c m y k : Nat) (hc : c ≤ 255) (hm : m ≤ 255) (hy : y ≤ 255) (hk : k ≤ 255) :
    Spec.Unit (⟨(255 - c) * (255 - k) / 65536, (255 - m) * (255 - k) / 65536,
      (255 - y) * (255 - k) / 65536, 1⟩ : Col ℝ) ∧
    cmyk_to_rgb (F := ℝ) c m y k = Srgb.to_rgb (⟨(255 - c) * (255 - k) / 65536,
      (255 - m) * (255 - k) / 65536, (255 - y) * (255 - k) / 65536, 1⟩ : Col ℝ) := by
  have hk' : (k : ℝ) ≤ 255 := by exact_mod_cast hk
  have k0 : (0 : ℝ) ≤ k := Nat.cast_nonneg k
  have r : ∀ v : Nat, v ≤ 255 → 0 ≤ (255 - (v : ℝ)) * (255 - k) / 65536 ∧
      (255 - (v : ℝ)) * (255 - k) / 65536 ≤ 1 := by
    intro v hv
    have h1 : (v : ℝ) ≤ 255 := by exact_mod_cast hv
    have h0 : (0 : ℝ) ≤ v := Nat.cast_nonneg v
    constructor
    · apply div_nonneg _ (by norm_num)
      apply mul_nonneg <;> linarith
    · rw [div_le_one (by norm_num)]
      nlinarith
  have hcr := r c hc
  have hmr := r m hm
  have hyr := r y hy
  refine ⟨⟨hcr.1, hcr.2, hmr.1, hmr.2, hyr.1, hyr.2, by norm_num, by norm_num⟩, ?_⟩
  have e : ∀ v : Nat, v ≤ 255 → (clamp01 (((lit 255 : ℝ) -. lit ((v : Nat) : ℚ)) *.
      (lit 255 -. lit ((k : Nat) : ℚ)) /. lit 65536) : ℝ) = (255 - (v : ℝ)) * (255 - k) / 65536 := by
    intro v hv
    have h : ((lit 255 : ℝ) -. lit ((v : Nat) : ℚ)) *. (lit 255 -. lit ((k : Nat) : ℚ)) /. lit 65536 =
        (255 - (v : ℝ)) * (255 - k) / 65536 := by ex_simp
    rw [h, Exact.clamp01_id (r v hv).1 (r v hv).2]
  unfold cmyk_to_rgb Srgb.new
  simp only []
  rw [e c hc, e m hm, e y hy, Exact.lit]
  norm_num

/-- The sRGB colour of four inks, exactly. -/
theorem C59_formula (c m y k : Nat) (hc : c ≤ 255) (hm : m ≤ 255) (hy : y ≤ 255) (hk : k ≤ 255) :
    Rgb.to_srgb (cmyk_to_rgb (F := ℝ) c m y k) = ⟨(255 - c) * (255 - k) / 65536,
      (255 - m) * (255 - k) / 65536, (255 - y) * (255 - k) / 65536, 1⟩ := by
  obtain ⟨u, e⟩ := cmyk_exact c m y k hc hm hy hk
  rw [e, srgb_back u]

/-- The colours are in range and opaque. -/
theorem C59_range (c m y k : Nat) (hc : c ≤ 255) (hm : m ≤ 255) (hy : y ≤ 255) (hk : k ≤ 255) :
    Spec.Unit (cmyk_to_rgb (F := ℝ) c m y k) ∧ (cmyk_to_rgb (F := ℝ) c m y k).alpha = 1 := by
  obtain ⟨u, e⟩ := cmyk_exact c m y k hc hm hy hk
  rw [e]
  have h0 := C30_range _ u.r0 u.r1
  have h1 := C30_range _ u.g0 u.g1
  have h2 := C30_range _ u.b0 u.b1
  unfold Srgb.to_rgb Rgb.new_with_alpha
  simp only []
  rw [Exact.clamp01_id h0.1 h0.2, Exact.clamp01_id h1.1 h1.2, Exact.clamp01_id h2.1 h2.2,
    Exact.clamp01_id (by norm_num) (by norm_num)]
  exact ⟨⟨h0.1, h0.2, h1.1, h1.2, h2.1, h2.2, by norm_num, by norm_num⟩, rfl⟩

theorem cmyk_channels (c m y k : Nat) (hc : c ≤ 255) (hm : m ≤ 255) (hy : y ≤ 255) (hk : k ≤ 255) :
    cmyk_to_rgb (F := ℝ) c m y k = ⟨gamma_to_linear ((255 - c) * (255 - k) / 65536),
      gamma_to_linear ((255 - m) * (255 - k) / 65536), gamma_to_linear ((255 - y) * (255 - k) / 65536),
      1⟩ := by
  obtain ⟨u, e⟩ := cmyk_exact c m y k hc hm hy hk
  rw [e]
  have h0 := C30_range _ u.r0 u.r1
  have h1 := C30_range _ u.g0 u.g1
  have h2 := C30_range _ u.b0 u.b1
  unfold Srgb.to_rgb Rgb.new_with_alpha
  simp only []
  rw [Exact.clamp01_id h0.1 h0.2, Exact.clamp01_id h1.1 h1.2, Exact.clamp01_id h2.1 h2.2,
    Exact.clamp01_id (by norm_num) (by norm_num)]

theorem ink_mono {v v' k k' : Nat} (hv' : v' ≤ 255) (hk' : k' ≤ 255) (h : v ≤ v') (h2 : k ≤ k') :
    gamma_to_linear ((255 - (v' : ℝ)) * (255 - k') / 65536) ≤
      gamma_to_linear ((255 - (v : ℝ)) * (255 - k) / 65536) := by
  have a : (v : ℝ) ≤ v' := by exact_mod_cast h
  have b : (k : ℝ) ≤ k' := by exact_mod_cast h2
  have c : (v' : ℝ) ≤ 255 := by exact_mod_cast hv'
  have d : (k' : ℝ) ≤ 255 := by exact_mod_cast hk'
  have : (255 - (v' : ℝ)) * (255 - k') / 65536 ≤ (255 - (v : ℝ)) * (255 - k) / 65536 := by
    apply div_le_div_of_nonneg_right _ (by norm_num)
    apply mul_le_mul <;> linarith
  rcases lt_or_eq_of_le this with h | h
  · exact (C30_strictly_monotone _ _ h).le
  · rw [h]

/-- More ink never makes a channel brighter. -/
theorem C59_more_ink (c m y k c' m' y' k' : Nat) (hc : c ≤ c') (hm : m ≤ m') (hy : y ≤ y')
    (hk : k ≤ k') (hc' : c' ≤ 255) (hm' : m' ≤ 255) (hy' : y' ≤ 255) (hk' : k' ≤ 255) :
    (cmyk_to_rgb (F := ℝ) c' m' y' k').c0 ≤ (cmyk_to_rgb (F := ℝ) c m y k).c0 ∧
    (cmyk_to_rgb (F := ℝ) c' m' y' k').c1 ≤ (cmyk_to_rgb (F := ℝ) c m y k).c1 ∧
    (cmyk_to_rgb (F := ℝ) c' m' y' k').c2 ≤ (cmyk_to_rgb (F := ℝ) c m y k).c2 := by
  rw [cmyk_channels c' m' y' k' hc' hm' hy' hk',
    cmyk_channels c m y k (by omega) (by omega) (by omega) (by omega)]
  exact ⟨ink_mono hc' hk' hc hk, ink_mono hm' hk' hm hk, ink_mono hy' hk' hy hk⟩

/-- Unless there is full black, more of an ink makes its channel darker (cyan: red, magenta: green,
yellow: blue). -/
theorem C59_more_ink_strict (c m y k c' m' y' : Nat) (hk : k < 255) (hc' : c' ≤ 255) (hm' : m' ≤ 255)
    (hy' : y' ≤ 255) (hcc : c ≤ c') (hmm : m ≤ m') (hyy : y ≤ y') :
    (c < c' → (cmyk_to_rgb (F := ℝ) c' m' y' k).c0 < (cmyk_to_rgb (F := ℝ) c m y k).c0) ∧
    (m < m' → (cmyk_to_rgb (F := ℝ) c' m' y' k).c1 < (cmyk_to_rgb (F := ℝ) c m y k).c1) ∧
    (y < y' → (cmyk_to_rgb (F := ℝ) c' m' y' k).c2 < (cmyk_to_rgb (F := ℝ) c m y k).c2) := by
  rw [cmyk_channels c' m' y' k hc' hm' hy' hk.le,
    cmyk_channels c m y k (by omega) (by omega) (by omega) hk.le]
  have hk' : (k : ℝ) < 255 := by exact_mod_cast hk
  have key : ∀ v v' : Nat, v < v' → gamma_to_linear ((255 - (v' : ℝ)) * (255 - k) / 65536) <
      gamma_to_linear ((255 - (v : ℝ)) * (255 - k) / 65536) := by
    intro v v' h
    have a : (v : ℝ) < v' := by exact_mod_cast h
    apply C30_strictly_monotone
    apply div_lt_div_of_pos_right _ (by norm_num)
    apply mul_lt_mul_of_pos_right <;> linarith
  exact ⟨key c c', key m m', key y y'⟩

/-- Full black ink is black. -/
theorem C59_black (c m y : Nat) (hc : c ≤ 255) (hm : m ≤ 255) (hy : y ≤ 255) :
    cmyk_to_rgb (F := ℝ) c m y 255 = ⟨0, 0, 0, 1⟩ := by
  rw [cmyk_channels c m y 255 hc hm hy (by omega)]
  simp [C30_end_points.1]

/-- No ink is not quite white: its sRGB value is 65025/65536. -/
theorem C59_no_ink :
    Rgb.to_srgb (cmyk_to_rgb (F := ℝ) 0 0 0 0) = ⟨65025 / 65536, 65025 / 65536, 65025 / 65536, 1⟩ ∧
    cmyk_to_rgb (F := ℝ) 0 0 0 0 ≠ ⟨1, 1, 1, 1⟩ := by
  have h := C59_formula 0 0 0 0 (by omega) (by omega) (by omega) (by omega)
  norm_num at h
  refine ⟨h, fun e => ?_⟩
  rw [e] at h
  have h1 : (Rgb.to_srgb (⟨1, 1, 1, 1⟩ : Col ℝ)).c0 = 65025 / 65536 := by rw [h]
  have h2 : (Rgb.to_srgb (⟨1, 1, 1, 1⟩ : Col ℝ)).c0 = 1 := by
    show clamp01 (linear_to_gamma (1 : ℝ)) = 1
    have : linear_to_gamma (1 : ℝ) = 1 := by
      conv_lhs => rw [← C30_end_points.2.1]
      exact C30_round_trip 1
    rw [this, Exact.clamp01_id (by norm_num) (by norm_num)]
  rw [h2] at h1; norm_num at h1

end

theorem ink32 [Libm b32] (v k : Nat) (hv : v ≤ 255) (hk : k ≤ 255) :
    (clamp01 ((((lit 255 : F32) -. lit ((v : Nat) : ℚ)) *. (lit 255 -. lit ((k : Nat) : ℚ))) /. lit 65536) : F32).fin
      = true ∧
    (clamp01 ((((lit 255 : F32) -. lit ((v : Nat) : ℚ)) *. (lit 255 -. lit ((k : Nat) : ℚ))) /. lit 65536) : F32).val
      = (255 - (v : ℚ)) * (255 - (k : ℚ)) / 65536 := by
  have l : ∀ z : Int, |z| ≤ 2 ^ 24 → ∀ s, (FP.ofRat b32 s (z : ℚ)).fin = true ∧
      (FP.ofRat b32 s (z : ℚ)).val = z := fun z hz s =>
    FP.ofRat_rep (FP.int_finite (f := b32) z hz).1 (FP.int_finite (f := b32) z hz).2
  have d : ∀ n : Nat, n ≤ 255 → ((lit 255 : F32) -. lit ((n : Nat) : ℚ)).fin = true ∧
      ((lit 255 : F32) -. lit ((n : Nat) : ℚ)).val = 255 - (n : ℚ) := by
    intro n hn
    have h1 := l 255 (by norm_num) false
    have h2 := l (n : Int) (by rw [abs_of_nonneg (by omega)]; omega) false
    push_cast at h1 h2
    replace h1 : (lit 255 : F32).fin = true ∧ (lit 255 : F32).val = 255 := h1
    replace h2 : (lit ((n : Nat) : ℚ) : F32).fin = true ∧ (lit ((n : Nat) : ℚ) : F32).val = n := h2
    have e : ((lit 255 : F32) -. lit ((n : Nat) : ℚ)) = _ := FP.sub_fin h1.1 h2.1
    rw [e, h1.2, h2.2]
    have h3 := l (255 - (n : Int)) (by rw [abs_of_nonneg (by omega)]; omega)
    push_cast at h3
    exact h3 _
  have dv := d v hv
  have dk := d k hk
  have hz0 : (0 : Int) ≤ (255 - (v : Int)) * (255 - k) := mul_nonneg (by omega) (by omega)
  have hz1 : (255 - (v : Int)) * (255 - k) ≤ 65025 := by
    have : (255 - (v : Int)) * (255 - k) ≤ 255 * 255 := mul_le_mul (by omega) (by omega) (by omega) (by omega)
    omega
  have hm : ((((lit 255 : F32) -. lit ((v : Nat) : ℚ)) *. (lit 255 -. lit ((k : Nat) : ℚ))) : F32).fin = true ∧
      ((((lit 255 : F32) -. lit ((v : Nat) : ℚ)) *. (lit 255 -. lit ((k : Nat) : ℚ))) : F32).val =
        (255 - (v : ℚ)) * (255 - (k : ℚ)) := by
    have e : ((((lit 255 : F32) -. lit ((v : Nat) : ℚ)) *. (lit 255 -. lit ((k : Nat) : ℚ))) : F32) = _ :=
      FP.mul_fin dv.1 dk.1
    rw [e, dv.2, dk.2]
    have := l ((255 - (v : Int)) * (255 - k)) (by rw [abs_of_nonneg hz0]; omega)
    push_cast at this
    exact this _
  have h6 := l 65536 (by norm_num) false
  push_cast at h6
  replace h6 : (lit 65536 : F32).fin = true ∧ (lit 65536 : F32).val = 65536 := h6
  have hq0 : (0 : ℚ) ≤ (255 - (v : ℚ)) * (255 - (k : ℚ)) := by exact_mod_cast hz0
  have hq1 : (255 - (v : ℚ)) * (255 - (k : ℚ)) ≤ 65025 := by exact_mod_cast hz1
  have hd : (((((lit 255 : F32) -. lit ((v : Nat) : ℚ)) *. (lit 255 -. lit ((k : Nat) : ℚ)))) /. lit 65536 : F32).fin = true ∧
      (((((lit 255 : F32) -. lit ((v : Nat) : ℚ)) *. (lit 255 -. lit ((k : Nat) : ℚ)))) /. lit 65536 : F32).val =
        (255 - (v : ℚ)) * (255 - (k : ℚ)) / 65536 := by
    have e : (((((lit 255 : F32) -. lit ((v : Nat) : ℚ)) *. (lit 255 -. lit ((k : Nat) : ℚ)))) /. lit 65536 : F32) = _ :=
      FP.div_fin hm.1 h6.1 (by rw [h6.2]; norm_num)
    rw [e, hm.2, h6.2]
    refine FP.ofRat_rep ⟨(255 - (v : Int)) * (255 - k), -16, ?_, by decide, ?_⟩ ?_
    · rw [abs_of_nonneg hz0]; norm_num [b32]; omega
    · push_cast; norm_num [pow2_eq]; ring
    · rw [abs_of_nonneg (by positivity), FP.pow2_b32]
      rw [div_lt_iff₀ (by norm_num)]; linarith
  have hc : clamp01 (((((lit 255 : F32) -. lit ((v : Nat) : ℚ)) *. (lit 255 -. lit ((k : Nat) : ℚ)))) /. lit 65536 : F32) =
      ((((lit 255 : F32) -. lit ((v : Nat) : ℚ)) *. (lit 255 -. lit ((k : Nat) : ℚ)))) /. lit 65536 := by
    have l0 : (lit 0 <=. (((((lit 255 : F32) -. lit ((v : Nat) : ℚ)) *. (lit 255 -. lit ((k : Nat) : ℚ)))) /. lit 65536 : F32)) = _ :=
      FP.le_fin FP.lit0.1 hd.1
    have l1 : ((((((lit 255 : F32) -. lit ((v : Nat) : ℚ)) *. (lit 255 -. lit ((k : Nat) : ℚ)))) /. lit 65536 : F32) <=. lit 1) = _ :=
      FP.le_fin hd.1 FP.lit1.1
    apply clamp01_id
    · rw [l0, hd.2, decide_eq_true_iff, show (lit 0 : F32).val = 0 from FP.lit0.2]; positivity
    · rw [l1, hd.2, decide_eq_true_iff, show (lit 1 : F32).val = 1 from FP.lit1.2,
        div_le_one (by norm_num)]; linarith
  rw [hc]; exact hd

/-- In binary32 the sRGB values are the exact ones too, before the conversion to linear light. -/
theorem C59_formula_f32 [Libm b32] (c m y k : Nat) (hc : c ≤ 255) (hm : m ≤ 255) (hy : y ≤ 255)
    (hk : k ≤ 255) :
    ∃ s : Col F32, cmyk_to_rgb c m y k = Srgb.to_rgb s ∧
      s.c0.fin = true ∧ s.c0.val = (255 - (c : ℚ)) * (255 - (k : ℚ)) / 65536 ∧
      s.c1.fin = true ∧ s.c1.val = (255 - (m : ℚ)) * (255 - (k : ℚ)) / 65536 ∧
      s.c2.fin = true ∧ s.c2.val = (255 - (y : ℚ)) * (255 - (k : ℚ)) / 65536 ∧ s.alpha = lit 1 :=
  ⟨_, rfl, (ink32 c k hc hk).1, (ink32 c k hc hk).2, (ink32 m k hm hk).1, (ink32 m k hm hk).2,
    (ink32 y k hy hk).1, (ink32 y k hy hk).2, rfl⟩

/-! ## C77: reading never panics -/

section
variable {F : Type} [Scalar F]

/-- If the libraries keep to their documentation, reading any input as any format gives an image in
which sizes and data agree, or an error, unless the JPEG library delivers a picture of a size that no
buffer can have. -/
theorem C77_no_panic (libs : Libs F) (hl : Honest libs) (input : List Nat) (f : Format)
    (hj : f = .Jpeg → ∀ data info, libs.jpeg_read input = .ok data → libs.jpeg_info input = some info →
      ValidSize info.width info.height) :
    (∃ e, (decode libs input f).run = .ok (.error e)) ∨
    ∃ b, (decode libs input f).run = .ok (.ok b) ∧ WellFormed b := by
  have image : ∀ img : DynamicImage F, (∀ n, dynCount img.pixels = some n → n = img.width * img.height) →
      (∃ e, (read_into_buffer img).run = .ok (.error e)) ∨
      ∃ b, (read_into_buffer img).run = .ok (.ok b) ∧ WellFormed b := by
    intro img hn
    by_cases hv : ValidSize img.width img.height
    · cases hp : img.pixels
      case other name => exact .inl ⟨_, (read_image_fail img).2 name hv hp⟩
      case Rgb16 l =>
        obtain ⟨b, px, h1, h2, -⟩ := read_list hv (hn l.length (by rw [hp]; rfl)) fun p => (Srgb.to_rgb
          ⟨lit (p.1 : ℚ) /. lit 65535, lit (p.2.1 : ℚ) /. lit 65535, lit (p.2.2 : ℚ) /. lit 65535,
            lit 0⟩ : Col F)
        refine .inr ⟨b, ?_, h2.wellFormed⟩
        unfold read_into_buffer
        simp only [(is_valid_iff _ _).2 hv, Bool.not_true, Bool.false_eq_true, if_false, hp]
        exact h1
      all_goals
        obtain ⟨b, px, h1, h2, -⟩ := read_image hv (by rw [hp]; exact congrArg some (hn _ (by rw [hp]; rfl)))
          (by rw [hp]; simp)
        exact .inr ⟨b, h1, h2.wellFormed⟩
    · exact .inl ⟨_, (read_image_fail img).1 hv⟩
  cases f
  case Jpeg =>
    cases hr : libs.jpeg_read input with
    | error e => exact .inl ⟨e, (C50_read_jpeg_fail libs input).1 e hr⟩
    | ok data =>
      cases hi : libs.jpeg_info input with
      | none => exact .inl ⟨_, (C50_read_jpeg_fail libs input).2 data hr hi⟩
      | some info =>
        obtain ⟨b, h1, h2⟩ := C50_read_jpeg libs hr hi (hl.jpeg _ _ _ hr hi) (hj rfl data info hr hi)
        exact .inr ⟨b, h1, h2.wellFormed⟩
  case Png =>
    cases hr : libs.png_read input with
    | error e => exact .inl ⟨e, (C50_read_png_fail libs input).1 e hr⟩
    | ok rd =>
      have fl := (C50_read_png_fail libs input).2 rd hr
      by_cases hv : ValidSize rd.width rd.height
      · by_cases hk : ∃ ct, rd.color_type = pngColor ct ∧ rd.bits = pngDepth ct
        · obtain ⟨ct, hc, hb⟩ := hk
          rcases hd : rd.next_frame (rd.width * rd.height * (channels ct * sampleSize ct)) with e | ⟨d, hd'⟩
          · exact .inl ⟨e, (fl.2 hv).1 ct hc hb _ e rfl hd⟩
          · obtain ⟨b, h1, h2⟩ := C50_read_png libs hr rfl rfl hv ct hc hb rfl hd
            exact .inr ⟨b, h1, h2.wellFormed⟩
        · exact .inl ⟨_, (fl.2 hv).2 fun ct h => hk ⟨ct, h⟩⟩
      · exact .inl ⟨_, fl.1 hv⟩
  case Gif =>
    rcases hr : libs.gif_read input with e | _ | frame
    · exact .inl ⟨e, (C50_read_gif_fail libs input).1 e hr⟩
    · exact .inl ⟨_, (C50_read_gif_fail libs input).2.1 hr⟩
    · by_cases hv : ValidSize frame.width frame.height
      · obtain ⟨b, h1, h2⟩ := C50_read_gif libs hr (hl.gif _ _ hr) hv
        exact .inr ⟨b, h1, h2.wellFormed⟩
      · exact .inl ⟨_, (C50_read_gif_fail libs input).2.2 frame hr (hl.gif _ _ hr) hv⟩
  case Bmp =>
    rcases hr : libs.bmp_read input with e | img
    · exact .inl ⟨e, (C50_read_bmp_ico_fail libs input).1 e hr⟩
    · have e0 : decode libs input .Bmp = read_into_buffer img := by
        show decode_bmp libs input = _
        unfold decode_bmp; rw [hr, of_ok_bind]
      rw [e0]; exact image img fun n => hl.bmp _ _ n hr
  case Ico =>
    rcases hr : libs.ico_read input with e | img
    · exact .inl ⟨e, (C50_read_bmp_ico_fail libs input).2.1 e hr⟩
    · have e0 : decode libs input .Ico = read_into_buffer img := by
        show decode_ico libs input = _
        unfold decode_ico; rw [hr, of_ok_bind]
      rw [e0]; exact image img fun n => hl.ico _ _ n hr
  case WebP =>
    cases hi : libs.webp_info input with
    | false => exact .inl ⟨_, (C50_read_webp_fail libs input).1 hi⟩
    | true =>
      cases hr : libs.webp_read input with
      | none => exact .inl ⟨_, (C50_read_webp_fail libs input).2 hi hr⟩
      | some img =>
        have h := hl.webp _ _ hr
        have hv : ValidSize img.width img.height := by
          have : img.width * img.height ≤ 16383 * 16383 := Nat.mul_le_mul h.2.1 h.2.2.2
          exact .inr ⟨h.1, h.2.2.1, by omega⟩
        obtain ⟨b, h1, h2⟩ := C50_read_webp libs hi hr hv
        exact .inr ⟨b, h1, h2.wellFormed⟩

/-- A JPEG file with more than 1073741823 pixels is no error but a panic, although its sides fit into
the 16 bits that the format has for them. -/
theorem C77_jpeg_panics (libs : Libs F) (hl : Honest libs) (input data : List Nat) (info : JpegInfo)
    (hr : libs.jpeg_read input = .ok data) (hi : libs.jpeg_info input = some info)
    (hv : ¬ ValidSize info.width info.height) :
    (decode libs input .Jpeg).run = .error .invalidSize := by
  have hlen := hl.jpeg _ _ _ hr hi
  have e0 : decode libs input .Jpeg = decode_jpeg libs input := rfl
  rw [e0]
  unfold decode_jpeg
  rw [hr, hi]
  simp only [of_ok_bind]
  have last : ∀ raw : List (Col F), raw.length = info.width * info.height →
      (liftM (PixelBuffer.new_from_raw info.width info.height raw) : Dec _).run =
        .error .invalidSize := by
    intro raw hraw
    unfold PixelBuffer.new_from_raw
    rw [if_neg (by simp [hraw]), validate_err hv]
    rfl
  cases hp : info.pixel_format <;> rw [hp] at hlen
  · exact last _ (by rw [List.length_map, hlen]; exact Nat.mul_one _)
  all_goals
    simp only [jpegSize] at hlen
    rw [perChunk_ok (by decide) hlen (g := fun d => jpegColour libs d info.pixel_format),
      pure_bind]
    · exact last _ (by simp)
    · intro i hi
      simp only [index_chunk hlen hi, Nat.reduceLT, Nat.ofNat_pos, Nat.one_lt_ofNat, ok_bind, hp]
      rfl

/-- Reading panics for JPEG pictures of a size that no buffer can have, and for nothing else. -/
theorem C77_panic_iff (libs : Libs F) (hl : Honest libs) (input : List Nat) (f : Format) :
    (∃ p, (decode libs input f).run = .error p) ↔
      f = .Jpeg ∧ ∃ data info, libs.jpeg_read input = .ok data ∧ libs.jpeg_info input = some info ∧
        ¬ ValidSize info.width info.height := by
  constructor
  · rintro ⟨p, hp⟩
    by_contra h
    rcases C77_no_panic libs hl input f (fun hf data info h1 h2 => by
      by_contra hv; exact h ⟨hf, data, info, h1, h2, hv⟩) with ⟨e, he⟩ | ⟨b, hb, -⟩
    · rw [hp] at he; cases he
    · rw [hp] at hb; cases hb
  · rintro ⟨rfl, data, info, h1, h2, hv⟩
    exact ⟨_, C77_jpeg_panics libs hl input data info h1 h2 hv⟩

end

/-! ## The hypotheses can be met -/

section
variable {F : Type} [Scalar F]

/-- A PNG file of two pixels: red, and a dark green. -/
def demoReader : PngReader where
  color_type := .Rgb
  bits := .Eight
  width := 2
  height := 1
  next_frame n := if h : n = 6 then .ok ⟨[255, 0, 0, 0, 128, 7], by simp [h]⟩ else .error (.Decoding "")

/-- Libraries for which every file is the same small one. -/
def demo : Libs F where
  png_read _ := .ok demoReader
  png_write i := if i.data.length = i.width * i.height *
      ((match i.color with | .Grayscale => 1 | .GrayscaleAlpha => 2 | .Rgb => 3 | _ => 4) *
        (if i.depth = .Sixteen then 2 else 1)) then ⟨i.data, .ok ()⟩
    else ⟨[], .error (.Encoding "wrong size")⟩
  jpeg_read _ := .ok [10, 20, 30]
  jpeg_info _ := some ⟨1, 1, .RGB24⟩
  jpeg_write i := ⟨i.data, .ok ()⟩
  gif_read _ := .ok (some ⟨[1, 2, 3, 4], 1, 1⟩)
  gif_write i := ⟨i.pixels, .ok ()⟩
  bmp_read _ := .ok ⟨1, 1, .Rgb16 [(1, 2, 65535)]⟩
  bmp_write i := ⟨i.data, .ok ()⟩
  ico_read _ := .ok ⟨2, 1, .Luma8 [7, 255]⟩
  ico_write i := ⟨i.data, .ok ()⟩
  webp_info _ := true
  webp_read _ := some ⟨1, 1, ⟨[9, 8, 7, 255], rfl⟩⟩
  webp_write _ := .ok ([1, 2], none, true)
  little := true

omit [Scalar F] in
theorem demo_honest : Honest (demo : Libs F) where
  jpeg _ _ _ h1 h2 := by cases h1; cases h2; rfl
  gif _ _ h := by cases h; rfl
  bmp _ _ _ h1 h2 := by cases h1; cases h2; rfl
  ico _ _ _ h1 h2 := by cases h1; cases h2; rfl
  webp _ _ h := by cases h; decide

/-- A 2 x 1 image of two colours. -/
def demoImage : PixelBuffer (Col F) := ⟨2, 1, [⟨lit 1, lit 0, lit 0, lit 1⟩, ⟨lit 0, lit 1, lit 0, lit 0⟩]⟩

theorem demo_shows : Shows (demoImage : PixelBuffer (Col F)) 2 1
    fun x _ => if x = 0 then ⟨lit 1, lit 0, lit 0, lit 1⟩ else ⟨lit 0, lit 1, lit 0, lit 0⟩ :=
  ⟨rfl, rfl, by simp [ValidSize], rfl⟩

example [FloatBytes F] := C50_png (demo : Libs F) demo_shows .Rgb16 (by decide) .Fast .Up
example [FloatBytes F] := C50_bmp (demo : Libs F) demo_shows .La8
example [FloatBytes F] := C50_ico (demo : Libs F) demo_shows .L8
example [FloatBytes F] := C50_jpeg (demo : Libs F) demo_shows (by decide) (by decide) 200 true none false true
example [FloatBytes F] := C50_gif (demo : Libs F) demo_shows (by decide) (by decide)
example [LawfulCast F] [FloatBytes F] := C50_webp (demo : Libs F) demo_shows 200 .Photo

theorem demo_frame : demoReader.next_frame 6 = .ok ⟨[255, 0, 0, 0, 128, 7], rfl⟩ := rfl

example := C50_read_png (demo : Libs F) (input := []) (rd := demoReader) rfl rfl rfl
  (by simp [ValidSize, demoReader]) .Rgb8 rfl rfl rfl demo_frame
example := C50_read_jpeg (demo : Libs F) (input := []) rfl rfl rfl (by simp [ValidSize])
example := C50_read_gif (demo : Libs F) (input := []) rfl rfl (by simp [ValidSize])
example := C50_read_webp (demo : Libs F) (input := []) rfl rfl (by simp [ValidSize])
example := C50_read_ico (demo : Libs F) (input := []) rfl (by simp [ValidSize]) rfl (by simp)
example := C50_read_bmp ({ (demo : Libs F) with bmp_read := fun _ => .ok ⟨1, 1, .LumaA8 [(3, 4)]⟩ })
  (input := []) rfl (by simp [ValidSize]) rfl (by simp)

/-- A size no buffer can have. -/
theorem huge : ¬ ValidSize 65535 65535 := by simp [ValidSize]

example := ((C50_read_png_fail { (demo : Libs F) with
  png_read := fun _ => .ok { demoReader with width := 65535, height := 65535 } } []).2 _ rfl).1 huge
example := (((C50_read_png_fail { (demo : Libs F) with
  png_read := fun _ => .ok { demoReader with bits := .Four } } []).2 _ rfl).2 (by simp [ValidSize, demoReader])).2
    (by intro ct; cases ct <;> decide)
example := (((C50_read_png_fail { (demo : Libs F) with
  png_read := fun _ => .ok { demoReader with height := 2 } } []).2 _ rfl).2
    (by simp [ValidSize, demoReader])).1 .Rgb8 rfl rfl 12 _ rfl rfl

example [FloatBytes F] := C51_rejected (demo : Libs F) demo_shows (by decide) (by decide)
  (by
    intro img h1 h2 h3
    refine ⟨.Encoding "wrong size", ?_⟩
    have : (demo : Libs F).png_write img = ⟨[], .error (.Encoding "wrong size")⟩ := by
      show (if _ then _ else _) = _
      rw [if_neg]
      rw [h1, h2]; exact h3
    rw [this]) .Default .Sub

example [LawfulScalar F] := C52_opaque (demo : Libs F) [] .Png ⟨_, rfl, .inr rfl⟩
example [LawfulScalar F] := C52_opaque (demo : Libs F) [] .Ico ⟨_, rfl, trivial⟩
example [LawfulScalar F] := C52_opaque (demo : Libs F) [] .Jpeg trivial
example [LawfulScalar F] := C52_rgb16_transparent (demo : Libs F) [] .Bmp (.inl ⟨rfl, rfl⟩) _ rfl
  (by simp [ValidSize]) rfl

example [Junk] [FloatBytes ℝ] := C53_png_exact (demo : Libs ℝ) (input := []) (rd := demoReader) rfl rfl rfl
  (by simp [ValidSize, demoReader]) .Rgb8 (by decide) rfl rfl rfl demo_frame (by decide) .Default .Sub

omit [Scalar F] in
/-- An image of 70000 x 1 pixels. -/
theorem wide_shows (c : Col F) : Shows (⟨70000, 1, rows 70000 1 fun _ _ => c⟩ : PixelBuffer (Col F))
    70000 1 fun _ _ => c where
  width := rfl
  height := rfl
  size := by simp [ValidSize]
  pixels := by simp only

example [FloatBytes F] (c : Col F) :=
  (C58_jpeg (demo : Libs F) (wide_shows c) 90 true none false true).1 (.inl (by decide))
example [FloatBytes F] := C58_jpeg_iff (demo : Libs F)
  (fun _ _ _ _ h => by exact absurd h (by simp [demo])) demo_shows 90 true none false true
example [FloatBytes F] := C58_gif_iff (demo : Libs F)
  (fun _ _ _ _ h => by exact absurd h (by simp [demo])) demo_shows

example := C77_no_panic (demo : Libs F) demo_honest [1, 2, 3] .Jpeg
  (by intro _ _ info _ h; cases h; simp [ValidSize])

example := C77_panic_iff (demo : Libs F) demo_honest [1, 2, 3]

/-- A JPEG library that reports a picture of 65535 x 65535 gray pixels. -/
def hugeJpeg : Libs F := { (demo : Libs F) with
  jpeg_read := fun _ => .ok (List.replicate (65535 * 65535) 0)
  jpeg_info := fun _ => some ⟨65535, 65535, .L8⟩ }

example : (decode (hugeJpeg : Libs F) [] .Jpeg).run = .error .invalidSize :=
  C77_jpeg_panics hugeJpeg
    { demo_honest with
      jpeg := fun _ data info h1 h2 => by
        obtain rfl := Except.ok.inj (show Except.ok (List.replicate (65535 * 65535) 0) = _ from h1)
        obtain rfl := Option.some.inj (show some (⟨65535, 65535, .L8⟩ : JpegInfo) = _ from h2)
        rw [List.length_replicate]; rfl }
    [] _ _ rfl rfl huge

end

example [Junk] := C59_more_ink_strict 3 4 5 100 7 8 9
example [Libm b32] := C59_formula_f32 10 20 30 40 (by decide) (by decide) (by decide) (by decide)

end D10
