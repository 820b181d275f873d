import Verif.Props.Files

/-! # C78: saving as PNG and opening again -/

namespace D10
open Spec
open Scalar (isNan lit)

/-- The colour that `c` has after it was stored as a pixel of kind `ct`. -/
def Spec.stored {F : Type} [Scalar F] (c : Col F) (ct : PngColorType) : Col F :=
  colourOf (fun k => (sampleBytes c ct).getD k 0) ct

theorem colourOf_congr {F : Type} [Scalar F] {d d' : Nat → Nat} (ct : PngColorType)
    (h : ∀ k, k < channels ct * sampleSize ct → d k = d' k) :
    (colourOf d ct : Col F) = colourOf d' ct := by
  cases ct <;> simp only [channels, sampleSize, Nat.reduceMul] at h <;>
    simp only [colourOf, sample8, sample16, Nat.reduceMul, Nat.reduceAdd,
      h 0 (by decide), h 1, h 2, h 3, h 4, h 5, h 6, h 7, Nat.reduceLT]

section
variable {F : Type} [Scalar F] [FloatBytes F]

/-- An image saved as PNG opens again as the stored image, under every path to the same file. -/
theorem C78_png (libs : Libs F) (hlib : Lossless libs) (fs : FS) (hfs : Reliable fs) (path path' : String)
    (hp : fs.node path' = fs.node path) {b : PixelBuffer (Col F)} {w h : Nat} {px : Nat → Nat → Col F}
    (sh : Shows b w h px) (hw : 0 < w) (hh : 0 < h) (ct : PngColorType) (hct : ct ≠ .L16)
    (cmp : PngCompression) (flt : PngFilterType) :
    ∃ fs' b', encode_to_file libs fs path b (some (.Png ct cmp flt)) = (fs', .ok (.ok ())) ∧
      (decode_file libs fs' path').run = .ok (.ok b') ∧ Shows b' w h fun x y => stored (px x y) ct := by
  obtain ⟨data, he, hd⟩ := C50_png libs sh ct hct cmp flt
  obtain ⟨bytes, rd, h1, h2, h3, h4, h5, h6, h7, h8⟩ := hlib w h ct cmp flt data hw hh hd.length
  rw [h1] at he
  obtain ⟨fs', s1, s2⟩ := (C57_created libs fs path b (.Png ct cmp flt) (hfs.2.2 _)).1 _ he
  obtain ⟨-, e1, e2, -, -⟩ := C57_other_files libs fs path b _ fs' _ s1
  rw [hfs.1] at s2
  obtain ⟨b', r1, r2⟩ := C50_read_png libs h3 h4 h5 sh.size ct h6 h7 hd.length h8
  refine ⟨fs', b', s1, ?_, r2.congr fun x y hx hy => colourOf_congr ct fun k hk => ?_⟩
  · rw [C56_content libs fs' path' bytes .Png (by rw [e2]; exact hfs.2.1 _) (by rw [e1, hp, s2]) h2]
    exact r1
  · have := hd.entry x y k hx hy hk
    unfold bytesAt
    rw [List.getD, this, List.getD]

/-- The colour that `c` has after it was stored in a BMP or ICO file: the bytes of its sRGB channels and
its alpha, taken as fractions of 255. -/
def Spec.storedPlain {F : Type} [Scalar F] (c : Col F) : Col F :=
  Srgb.to_rgb ⟨sampleLevel 255 (as_u8 (Rgb.to_srgb c).c0), sampleLevel 255 (as_u8 (Rgb.to_srgb c).c1),
    sampleLevel 255 (as_u8 (Rgb.to_srgb c).c2), sampleLevel 255 (as_u8 (Rgb.to_srgb c).alpha)⟩

/-- The same for BMP, and for ICO up to the size that the library writes (256 x 256). -/
theorem C78_bmp_ico (libs : Libs F) (fs : FS) (hfs : Reliable fs) (path path' : String)
    (hp : fs.node path' = fs.node path) {b : PixelBuffer (Col F)} {w h : Nat} {px : Nat → Nat → Col F}
    (sh : Shows b w h px) (h0 : 0 < w) (h1 : 0 < h) (limit : Nat) (hw : w ≤ limit) (hh : h ≤ limit) :
    (ReadsBack libs.bmp_write libs.bmp_read .Bmp limit →
      ∃ fs' b', encode_to_file libs fs path b (some (.Bmp .Rgba8)) = (fs', .ok (.ok ())) ∧
        (decode_file libs fs' path').run = .ok (.ok b') ∧ Shows b' w h fun x y => storedPlain (px x y)) ∧
    (ReadsBack libs.ico_write libs.ico_read .Ico limit →
      ∃ fs' b', encode_to_file libs fs path b (some (.Ico .Rgba8)) = (fs', .ok (.ok ())) ∧
        (decode_file libs fs' path').run = .ok (.ok b') ∧
        Shows b' w h fun x y => storedPlain (px x y)) := by
  have key : ∀ (ef : EncodingFormat) (f : Format) (data bytes : List Nat)
      (l : List (Nat × Nat × Nat × Nat)),
      encode libs b ef = .ok ⟨bytes, .ok ()⟩ → Magic f bytes →
      Layout w h 4 data (fun x y => sampleBytes (px x y) .Rgba8) → l.length = w * h →
      (∀ i, i < w * h → l[i]? = some (data.getD (i * 4) 0, data.getD (i * 4 + 1) 0,
        data.getD (i * 4 + 2) 0, data.getD (i * 4 + 3) 0)) →
      (dynCount (.Rgba8 l : DynPixels F) = some (w * h) → ∃ b' px',
        (decode libs bytes f).run = .ok (.ok b') ∧ Shows b' w h px' ∧ ∀ x y, x < w → y < h →
          (dynAt (.Rgba8 l) (y * w + x)).map Srgb.to_rgb = some (px' x y)) →
      ∃ fs' b', encode_to_file libs fs path b (some ef) = (fs', .ok (.ok ())) ∧
        (decode_file libs fs' path').run = .ok (.ok b') ∧
        Shows b' w h fun x y => storedPlain (px x y) := by
    intro ef f data bytes l he hm hd hl hq hr
    obtain ⟨fs', s1, s2⟩ := (C57_created libs fs path b ef (hfs.2.2 _)).1 _ he
    obtain ⟨-, e1, e2, -, -⟩ := C57_other_files libs fs path b _ fs' _ s1
    rw [hfs.1] at s2
    obtain ⟨b', px', r1, r2, r3⟩ := hr (by rw [dynCount, hl])
    refine ⟨fs', b', s1, ?_, r2.congr fun x y hx hy => ?_⟩
    · rw [C56_content libs fs' path' bytes f (by rw [e2]; exact hfs.2.1 _) (by rw [e1, hp, s2]) hm]
      exact r1
    · have hi : y * w + x < w * h := by
        calc y * w + x < y * w + w := by omega
          _ = (y + 1) * w := by ring
          _ ≤ h * w := Nat.mul_le_mul_right _ hy
          _ = w * h := Nat.mul_comm _ _
      have h3 := r3 x y hx hy
      have b0 := hd.entry x y 0 hx hy (by decide)
      have b1 := hd.entry x y 1 hx hy (by decide)
      have b2 := hd.entry x y 2 hx hy (by decide)
      have b3 := hd.entry x y 3 hx hy (by decide)
      rw [dynAt, hq _ hi] at h3
      simp only [sampleBytes, List.getElem?_cons_zero, List.getElem?_cons_succ, Nat.add_zero] at b0 b1 b2 b3
      simp only [List.getD, b0, b1, b2, b3, Option.map_some, Option.getD_some] at h3
      exact (Option.some.inj h3).symm
  constructor
  · intro hlib
    obtain ⟨data, he, hd⟩ := C50_bmp libs sh .Rgba8
    obtain ⟨bytes, l, a1, a2, a3, a4, a5⟩ := hlib w h data h0 h1 hw hh hd.length
    rw [a1] at he
    exact key _ .Bmp data bytes l he a2 hd a4 a5 fun hc => C50_read_bmp libs a3 sh.size hc nofun
  · intro hlib
    obtain ⟨data, he, hd⟩ := C50_ico libs sh .Rgba8
    obtain ⟨bytes, l, a1, a2, a3, a4, a5⟩ := hlib w h data h0 h1 hw hh hd.length
    rw [a1] at he
    exact key _ .Ico data bytes l he a2 hd a4 a5 fun hc => C50_read_ico libs a3 sh.size hc nofun

/-- The lossless preset of WebP: visible pixels open as they were stored, the others stay invisible. -/
theorem C78_webp [LawfulCast F] (libs : Libs F) (hlib : LosslessWebP libs) (fs : FS) (hfs : Reliable fs)
    (path path' : String) (hp : fs.node path' = fs.node path) {b : PixelBuffer (Col F)} {w h : Nat}
    {px : Nat → Nat → Col F} (sh : Shows b w h px) (h0 : 0 < w) (h1 : 0 < h) (hw : w ≤ 16383)
    (hh : h ≤ 16383) (q : Nat) :
    ∃ fs' b' px', encode_to_file libs fs path b (some (.WebP q .Lossless)) = (fs', .ok (.ok ())) ∧
      (decode_file libs fs' path').run = .ok (.ok b') ∧ Shows b' w h px' ∧
      ∀ x y, x < w → y < h → (px' x y).alpha = (stored (px x y) .Rgba8).alpha ∧
        (as_u8 (Rgb.to_srgb (px x y)).alpha ≠ 0 → px' x y = stored (px x y) .Rgba8) := by
  obtain ⟨argb, he, hd⟩ := C50_webp libs sh q .Lossless
  have hl : argb.length = w * h := by rw [hd.length, Nat.mul_one]
  obtain ⟨bytes, img, a1, a2, a3, a4, a5, a6, a7⟩ := hlib w h argb h0 h1 hw hh hl
  rw [if_pos rfl, a1] at he
  obtain ⟨fs', s1, s2⟩ := (C57_created libs fs path b _ (hfs.2.2 _)).1 _ he
  obtain ⟨-, e1, e2, -, -⟩ := C57_other_files libs fs path b _ fs' _ s1
  rw [hfs.1] at s2
  subst a5 a6
  obtain ⟨b', r1, r2⟩ := C50_read_webp libs a3 a4 sh.size
  refine ⟨fs', b', _, s1, ?_, r2, fun x y hx hy => ?_⟩
  · rw [C56_content libs fs' path' bytes .WebP (by rw [e2]; exact hfs.2.1 _) (by rw [e1, hp, s2]) a2]
    exact r1
  · have hb := hd.entry x y 0 hx hy (by decide)
    simp only [Nat.mul_one, Nat.add_zero, List.getElem?_cons_zero] at hb
    have c0 := C48_byte (Rgb.to_srgb (px x y)).c0
    have c1 := C48_byte (Rgb.to_srgb (px x y)).c1
    have c2 := C48_byte (Rgb.to_srgb (px x y)).c2
    have ca := C48_byte (Rgb.to_srgb (px x y)).alpha
    obtain ⟨q3, q012⟩ := a7 _ _ hb
    unfold word at q3 q012
    have d3 : bytesAt img.data.1 img.width 4 x y 3 = as_u8 (Rgb.to_srgb (px x y)).alpha := by
      unfold bytesAt
      rw [q3]; omega
    constructor
    · show (Srgb.to_rgb (Srgb.new_with_alpha _ _ _ (sample8 _ 3))).alpha = _
      unfold stored colourOf sample8
      rw [d3]
      rfl
    · intro hv
      obtain ⟨t0, t1, t2⟩ := q012 (by omega)
      unfold stored
      refine colourOf_congr .Rgba8 fun k hk => ?_
      have hk : k < 4 := hk
      interval_cases k
      · unfold bytesAt; rw [Nat.add_zero, t0]; simp only [sampleBytes, List.getD_cons_zero]; omega
      · unfold bytesAt; rw [t1]; simp only [sampleBytes, List.getD_cons_succ, List.getD_cons_zero]; omega
      · unfold bytesAt; rw [t2]; simp only [sampleBytes, List.getD_cons_succ, List.getD_cons_zero]; omega
      · rw [d3]; rfl

end

theorem bytes_lt {F : Type} [Scalar F] [LawfulCast F] (c : Col F) (ct : PngColorType) :
    ∀ v ∈ sampleBytes c ct, v < 256 := by
  have h8 : ∀ x : F, as_u8 x < 256 := fun x => Nat.lt_succ_of_le (C48_byte x)
  have h16 : ∀ x : F, ∀ v ∈ bigEndian (as_u16 x), v < 256 := by
    intro x v hv
    have := C49_word x
    simp only [bigEndian, List.mem_cons, List.not_mem_nil, or_false] at hv
    omega
  intro v hv
  cases ct <;> simp only [sampleBytes, List.mem_append, List.mem_cons, List.not_mem_nil, or_false] at hv
  case L8 => rw [hv]; exact h8 _
  case La8 => rcases hv with rfl | rfl <;> exact h8 _
  case L16 => exact h16 _ _ hv
  case La16 => rcases hv with h | h <;> exact h16 _ _ h
  case Rgb8 => rcases hv with rfl | rfl | rfl <;> exact h8 _
  case Rgba8 => rcases hv with rfl | rfl | rfl | rfl <;> exact h8 _
  case Rgb16 => rcases hv with (h | h) | h <;> exact h16 _ _ h
  case Rgba16 => rcases hv with ((h | h) | h) | h <;> exact h16 _ _ h

/-- In exact arithmetic a stored pixel is stored as the same bytes again. -/
theorem stored_again [Junk] (c : Col ℝ) (ct : PngColorType) :
    sampleBytes (stored c ct) ct = sampleBytes c ct := by
  have hd : ∀ k, (sampleBytes c ct).getD k 0 < 256 := by
    intro k
    by_cases hk : k < (sampleBytes c ct).length
    · rw [List.getD, List.getElem?_eq_getElem hk]
      exact bytes_lt c ct _ (List.getElem_mem hk)
    · rw [List.getD, List.getElem?_eq_none (Nat.le_of_not_lt hk)]; decide
  unfold stored
  rw [C53_exact _ hd]
  apply List.ext_getElem
  · rw [List.length_map, List.length_range, sampleBytes_length]
  · intro k h1 h2
    rw [List.getElem_map, List.getElem_range, List.getD, List.getElem?_eq_getElem h2]
    rfl

/-- In exact arithmetic, saving the opened image once more gives the library the data of the first
time. -/
theorem C78_again [Junk] [FloatBytes ℝ] (libs : Libs ℝ) {b b' : PixelBuffer (Col ℝ)} {w h : Nat}
    {px : Nat → Nat → Col ℝ} (ct : PngColorType) (hct : ct ≠ .L16) (sh : Shows b w h px)
    (sh' : Shows b' w h fun x y => stored (px x y) ct) (cmp : PngCompression) (flt : PngFilterType) :
    encode libs b' (.Png ct cmp flt) = encode libs b (.Png ct cmp flt) := by
  obtain ⟨data, he, hd⟩ := C50_png libs sh ct hct cmp flt
  obtain ⟨data', he', hd'⟩ := C50_png libs sh' ct hct cmp flt
  rw [he, he', layout_unique hd' ⟨hd.length, fun x y k hx hy hk => by
    rw [hd.entry x y k hx hy hk, stored_again]⟩]

/-- Storing in 8 bits makes every sRGB channel and alpha smaller by less than 1/255. -/
theorem C78_close [Junk] (c : Col ℝ) (i : Col ℝ → ℝ)
    (hi : i = Col.c0 ∨ i = Col.c1 ∨ i = Col.c2 ∨ i = Col.alpha) :
    i (Rgb.to_srgb (stored c .Rgba8)) ≤ i (Rgb.to_srgb c) ∧
      i (Rgb.to_srgb c) < i (Rgb.to_srgb (stored c .Rgba8)) + 1 / 255 := by
  have range : ∀ x : ℝ, 0 ≤ clamp01 x ∧ clamp01 x ≤ 1 := by
    intro x
    rw [Exact.clamp01]
    exact ⟨by simp, by simp⟩
  have q01 : ∀ x : ℝ, 0 ≤ (from_u8 (as_u8 x) : ℝ) ∧ (from_u8 (as_u8 x) : ℝ) ≤ 1 := by
    intro x
    rw [C48_decode_exact]
    have : ((as_u8 x : Nat) : ℝ) ≤ 255 := by exact_mod_cast C48_byte x
    constructor
    · positivity
    · rw [div_le_one (by norm_num)]; exact this
  have near : ∀ x : ℝ, 0 ≤ x → x ≤ 1 →
      (from_u8 (as_u8 x) : ℝ) ≤ x ∧ x < from_u8 (as_u8 x) + 1 / 255 := by
    intro x h0 h1
    have hle : ⌊x * 255⌋₊ ≤ 255 := by
      apply Nat.floor_le_of_le
      push_cast
      linarith
    rw [C48_decode_exact, C48_encode_exact, min_eq_right hle]
    have f1 := Nat.floor_le (show 0 ≤ x * 255 by positivity)
    have f2 := Nat.lt_floor_add_one (x * 255)
    constructor <;> linarith
  have e : Rgb.to_srgb (stored c .Rgba8) = ⟨from_u8 (as_u8 (Rgb.to_srgb c).c0),
      from_u8 (as_u8 (Rgb.to_srgb c).c1), from_u8 (as_u8 (Rgb.to_srgb c).c2),
      from_u8 (as_u8 (Rgb.to_srgb c).alpha)⟩ := by
    have hu : Spec.Unit (⟨from_u8 (as_u8 (Rgb.to_srgb c).c0),
      from_u8 (as_u8 (Rgb.to_srgb c).c1), from_u8 (as_u8 (Rgb.to_srgb c).c2),
      from_u8 (as_u8 (Rgb.to_srgb c).alpha)⟩ : Col ℝ) :=
      ⟨(q01 _).1, (q01 _).2, (q01 _).1, (q01 _).2, (q01 _).1, (q01 _).2, (q01 _).1, (q01 _).2⟩
    refine Eq.trans ?_ (srgb_back hu)
    have : stored c .Rgba8 = Srgb.to_rgb (Srgb.new_with_alpha (from_u8 (as_u8 (Rgb.to_srgb c).c0))
      (from_u8 (as_u8 (Rgb.to_srgb c).c1)) (from_u8 (as_u8 (Rgb.to_srgb c).c2))
      (from_u8 (as_u8 (Rgb.to_srgb c).alpha))) := rfl
    rw [this]
    unfold Srgb.new_with_alpha
    rw [Exact.clamp01_id hu.r0 hu.r1, Exact.clamp01_id hu.g0 hu.g1, Exact.clamp01_id hu.b0 hu.b1,
      Exact.clamp01_id hu.a0 hu.a1]
  rw [e]
  rcases hi with rfl | rfl | rfl | rfl <;> exact near _ (range _).1 (range _).2

/-! ## The hypotheses can be met -/

/-- A PNG library that writes the magic number, four bytes for the size and the kind, and the data as
it is. -/
def rawPng {F : Type} : Libs F := { (demo : Libs F) with
  png_write := fun i => ⟨[0x89, 0x50, 0x4E, 0x47, 0x0D, 0x0A, 0x1A, 0x0A, i.width, i.height,
    (match i.color with | .Grayscale => 0 | .GrayscaleAlpha => 1 | .Rgb => 2 | .Rgba => 3 | .Indexed => 4),
    (if i.depth = .Sixteen then 1 else 0)] ++ i.data, .ok ()⟩
  png_read := fun
    | _ :: _ :: _ :: _ :: _ :: _ :: _ :: _ :: w :: h :: c :: d :: data => .ok
      ⟨match c with | 0 => .Grayscale | 1 => .GrayscaleAlpha | 2 => .Rgb | 3 => .Rgba | _ => .Indexed,
        if d = 1 then .Sixteen else .Eight, w, h,
        fun n => if h : data.length = n then .ok ⟨data, h⟩ else .error .UnknownFormat⟩
    | _ => .error .UnknownFormat }

theorem rawPng_lossless {F : Type} : Lossless (rawPng : Libs F) := by
  intro w h ct cmp flt data _ _ _
  refine ⟨_, _, rfl, ⟨_, rfl⟩, rfl, rfl, rfl, ?_, ?_, ?_⟩
  · cases ct <;> rfl
  · cases ct <;> rfl
  · exact dif_pos rfl

example {F : Type} [Scalar F] [FloatBytes F] := C78_png (rawPng : Libs F) rawPng_lossless demoFS
  ⟨fun _ _ => rfl, fun _ => rfl, fun _ => rfl⟩ "dir.png/.png" "dir.png/.png" rfl demo_shows (by decide)
  (by decide) .Rgba8 (by decide) .Default .Sub

/-- A list in groups of four. -/
def quads : List Nat → List (Nat × Nat × Nat × Nat)
  | a :: b :: c :: d :: l => (a, b, c, d) :: quads l
  | _ => []

theorem quads_spec (n : Nat) : ∀ l : List Nat, l.length = n * 4 → (quads l).length = n ∧
    ∀ i, i < n → (quads l)[i]? =
      some (l.getD (i * 4) 0, l.getD (i * 4 + 1) 0, l.getD (i * 4 + 2) 0, l.getD (i * 4 + 3) 0) := by
  induction n with
  | zero =>
    intro l hl
    have : l = [] := List.length_eq_zero_iff.1 (by omega)
    subst this
    exact ⟨rfl, fun i hi => absurd hi (by omega)⟩
  | succ n ih =>
    intro l hl
    rcases l with _ | ⟨a, _ | ⟨b, _ | ⟨c, _ | ⟨d, l⟩⟩⟩⟩
    iterate 4 exact absurd hl (by simp only [List.length_cons, List.length_nil]; omega)
    · obtain ⟨h1, h2⟩ := ih l (by simp only [List.length_cons] at hl; omega)
      refine ⟨by rw [quads, List.length_cons, h1], fun i hi => ?_⟩
      cases i with
      | zero => rfl
      | succ i =>
        rw [quads, List.getElem?_cons_succ, h2 i (by omega)]
        simp only [Nat.add_mul, Nat.one_mul, List.getD_cons_succ,
          show i * 4 + 4 + 1 = i * 4 + 1 + 4 by omega, show i * 4 + 4 + 2 = i * 4 + 2 + 4 by omega,
          show i * 4 + 4 + 3 = i * 4 + 3 + 4 by omega]

/-- Libraries that write a magic number, the size and the data as they are. -/
def rawFiles {F : Type} : Libs F := { (demo : Libs F) with
  bmp_write := fun i => ⟨[66, 77, i.width, i.height] ++ i.data, .ok ()⟩
  bmp_read := fun
    | _ :: _ :: w :: h :: data => .ok ⟨w, h, .Rgba8 (quads data)⟩
    | _ => .error .UnknownFormat
  ico_write := fun i => ⟨[0, 0, 1, 0, i.width, i.height] ++ i.data, .ok ()⟩
  ico_read := fun
    | _ :: _ :: _ :: _ :: w :: h :: data => .ok ⟨w, h, .Rgba8 (quads data)⟩
    | _ => .error .UnknownFormat
  webp_write := fun i => .ok ([82, 73, 70, 70, 0, 0, 0, 0, 87, 69, 66, 80, i.width.toNat, i.height.toNat] ++
    i.argb, none, true)
  webp_read := fun
    | _ :: _ :: _ :: _ :: _ :: _ :: _ :: _ :: _ :: _ :: _ :: _ :: w :: h :: data =>
      let rgba := data.flatMap fun v => [v / 2 ^ 16 % 256, v / 2 ^ 8 % 256, v % 256, v / 2 ^ 24]
      if h : rgba.length = w * h * 4 then some ⟨w, _, ⟨rgba, h⟩⟩ else none
    | _ => none }

theorem rawFiles_bmp {F : Type} (limit : Nat) :
    ReadsBack (rawFiles : Libs F).bmp_write (rawFiles : Libs F).bmp_read .Bmp limit := by
  intro w h data _ _ _ _ hl
  obtain ⟨h1, h2⟩ := quads_spec (w * h) data hl
  exact ⟨_, quads data, rfl, ⟨_, rfl⟩, rfl, h1, h2⟩

theorem rawFiles_ico {F : Type} (limit : Nat) :
    ReadsBack (rawFiles : Libs F).ico_write (rawFiles : Libs F).ico_read .Ico limit := by
  intro w h data _ _ _ _ hl
  obtain ⟨h1, h2⟩ := quads_spec (w * h) data hl
  exact ⟨_, quads data, rfl, ⟨_, rfl⟩, rfl, h1, h2⟩

theorem flat_quads (l : List Nat) (f : Nat → List Nat) (hf : ∀ v, (f v).length = 4) :
    (l.flatMap f).length = l.length * 4 ∧ ∀ i v, l[i]? = some v → ∀ k, k < 4 →
      (l.flatMap f).getD (i * 4 + k) 0 = (f v).getD k 0 := by
  induction l with
  | nil => exact ⟨rfl, fun i v h => by simp at h⟩
  | cons a l ih =>
    rw [List.flatMap_cons]
    refine ⟨by rw [List.length_append, hf, ih.1, List.length_cons]; omega, fun i v h k hk => ?_⟩
    cases i with
    | zero =>
      have h : a = v := by simpa using h
      subst h
      rw [Nat.zero_mul, Nat.zero_add, List.getD, List.getElem?_append_left (by rw [hf]; exact hk)]
      rfl
    | succ i =>
      rw [List.getD, List.getElem?_append_right (by rw [hf]; omega), hf,
        show (i + 1) * 4 + k - 4 = i * 4 + k by omega]
      exact ih.2 i v (by simpa using h) k hk

theorem rawFiles_webp {F : Type} : LosslessWebP (rawFiles : Libs F) := by
  intro w h argb _ _ _ _ hl
  obtain ⟨h1, h2⟩ := flat_quads argb (fun v => [v / 2 ^ 16 % 256, v / 2 ^ 8 % 256, v % 256, v / 2 ^ 24])
    (fun _ => rfl)
  refine ⟨_, ⟨w, h, ⟨_, h1.trans (by rw [hl])⟩⟩, rfl, ⟨[0, 0, 0, 0], rfl, ?_⟩, rfl, ?_, rfl, rfl, ?_⟩
  · exact ⟨_, rfl⟩
  · exact dif_pos (h1.trans (by rw [hl]; rfl))
  · intro i v hv
    exact ⟨h2 i v hv 3 (by decide), fun _ => ⟨h2 i v hv 0 (by decide), h2 i v hv 1 (by decide),
      h2 i v hv 2 (by decide)⟩⟩

example {F : Type} [Scalar F] [FloatBytes F] := (C78_bmp_ico (rawFiles : Libs F) demoFS
  ⟨fun _ _ => rfl, fun _ => rfl, fun _ => rfl⟩ "a.bmp" "a.bmp" rfl demo_shows (by decide)
  (by decide) 256 (by decide) (by decide)).1 (rawFiles_bmp 256)
example {F : Type} [Scalar F] [FloatBytes F] := (C78_bmp_ico (rawFiles : Libs F) demoFS
  ⟨fun _ _ => rfl, fun _ => rfl, fun _ => rfl⟩ "a.ico" "a.ico" rfl demo_shows (by decide)
  (by decide) 256 (by decide) (by decide)).2 (rawFiles_ico 256)
example {F : Type} [Scalar F] [FloatBytes F] [LawfulCast F] := C78_webp (rawFiles : Libs F) rawFiles_webp demoFS
  ⟨fun _ _ => rfl, fun _ => rfl, fun _ => rfl⟩ "a.webp" "a.webp" rfl demo_shows (by decide)
  (by decide) (by decide) (by decide) 90

end D10
