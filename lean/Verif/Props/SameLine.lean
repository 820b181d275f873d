import Verif.SpecSameLine
import Verif.Props.Convert
import Verif.Props.NoiseFloat

/-!
# C136: the same command line run with 32-bit and with exact numbers
-/

namespace D10
open Spec
open Scalar (lit)

/-! ## The words -/

theorem numbers_exact {number : String → Option F32} {text : String} {vs : List F32} (h : Numbers number text vs) :
    Numbers (exactNumber number) text (vs.map fun v => (v.val : ℝ)) := by
  obtain ⟨texts, h1, h2⟩ := h
  refine ⟨texts, h1, ?_⟩
  rw [List.forall₂_map_right_iff]
  exact h2.imp fun t v h => ⟨h.1, by rw [exactNumber, h.2]; rfl⟩

/-- A word means the same to both programs. -/
theorem option_exact {number : String → Option F32} {words : List String} {cmd : Cmd F32 String}
    (h : OptionMeans id number words cmd) : OptionMeans id (exactNumber number) words (exactCmd cmd) := by
  cases h with
  | silent o h => exact .silent o h
  | invert o h => exact .invert o h
  | «open» o p h => exact .open o p h
  | save o p h => exact .save o p h
  | grayscale o p i h k => exact .grayscale o p i h k
  | number o p name cmd v hn h k =>
    have k' : exactNumber number (id p) = some (v.val : ℝ) := by rw [exactNumber, k]; rfl
    cases hn with
    | gamma => exact .number o p _ .Gamma _ .gamma h k'
    | brightness => exact .number o p _ .Brightness _ .brightness h k'
    | contrast => exact .number o p _ .Contrast _ .contrast h k'
    | saturation => exact .number o p _ .Saturation _ .saturation h k'
    | stretch_saturation => exact .number o p _ .StretchSaturation _ .stretch_saturation h k'
    | lightness => exact .number o p _ .Lightness _ .lightness h k'
    | hue_rotate => exact .number o p _ .HueRotate _ .hue_rotate h k'
    | rotate => exact .number o p _ (fun v => .Rotate v .Bilinear) _ .rotate h k'
    | random_noise => exact .number o p _ .RandomNoise _ .random_noise h k'
    | salt_n_pepper_noise => exact .number o p _ .SaltNPepperNoise _ .salt_n_pepper_noise h k'
    | rgb_noise => exact .number o p _ .RgbNoise _ .rgb_noise h k'
  | brightness_contrast o p b c h k => exact .brightness_contrast o p _ _ h (numbers_exact k)
  | level o p b w g h k => exact .level o p _ _ _ h (numbers_exact k)

section
variable [Libm b32] [Junk]

omit [Libm b32] in
theorem exact_recolours {δ : ℝ} {cmd f L η} (h : ExactCommand δ cmd f L η) : Recolours (exactCmd cmd) f := by
  cases h with
  | invert => exact .invert
  | brightness b _ => exact .brightness _
  | contrast k _ => exact .contrast _
  | brightness_contrast b k _ _ _ => exact .brightness_contrast _ _
  | to_gray i _ => exact .to_gray i
  | gamma g _ _ _ => exact .gamma _
  | level => exact .level _ _ _
  | saturation => exact .saturation _
  | hue_rotate => exact .hue_rotate _

/-! ## The commands -/

omit [Libm b32] [Junk] in
/-- What `BothMake` says about the pixels. -/
theorem bothMake_pixels {σ : Type} {η : ℝ} {a : Image F32} {b : Image ℝ} {p : R (PixelBuffer (Col F32) × σ)}
    {q : R (PixelBuffer (Col ℝ) × σ)} (h : BothMake η (withPixelsAnd a p) (withPixelsAnd b q)) :
    ∃ a' b' s', p = .ok (a', s') ∧ q = .ok (b', s') ∧ Alike η a' b' := by
  obtain ⟨a', b', s', h1, h2, k⟩ := h
  rcases p with _ | ⟨p, s1⟩
  · cases h1
  rcases q with _ | ⟨q, s2⟩
  · cases h2
  cases h1
  cases h2
  exact ⟨_, _, _, rfl, rfl, k⟩

omit [Libm b32] [Junk] in
/-- Noise keeps the size. -/
theorem noise_size {F σ : Type} [Scalar F] {g : Rng σ F} {cmd f} (n : AddsNoise g cmd f) {b b' : PixelBuffer (Col F)} {w h px}
    (sh : Shows b w h px) {s s' : σ} (e : f b s = .ok (b', s')) : b'.width = w ∧ b'.height = h := by
  cases n with
  | random a =>
    simp only [C42_random_noise g .rgb sh a s] at e
    cases e; exact ⟨rfl, rfl⟩
  | salt_n_pepper t =>
    simp only [C41_salt_n_pepper_noise g sh t s] at e
    cases e; exact ⟨rfl, rfl⟩
  | rgb t =>
    simp only [C41_rgb_noise g sh t s] at e
    cases e; exact ⟨rfl, rfl⟩

omit [Libm b32] [Junk] in
theorem alike_shows {ε : ℝ} {a : PixelBuffer (Col F32)} {b : PixelBuffer (Col ℝ)} (k : Alike ε a b) :
    ∃ px ex, Shows a a.width a.height px ∧ Shows b a.width a.height ex ∧ ∀ x y, x < a.width → y < a.height →
      UnitCol (px x y) ∧ UnitReal (ex x y) ∧ CloseCol ε (px x y) (ex x y) := by
  obtain ⟨w, h, px, ex, s, t, k⟩ := k
  obtain rfl := s.width
  obtain rfl := s.height
  exact ⟨px, ex, s, t, k⟩

variable {σ : Type} [FloatBytes F32] [FloatBytes ℝ]

theorem tracked_does {δ : ℝ} (hL : PowWithin δ) {env : Env σ F32} {env' : Env σ ℝ} (hr : env'.rng = exactRng env.rng) {m : ℕ}
    (hm : m ≤ 90) (hg : KeepsRange m env.rng) {cmd L η} (h : TrackedCommand δ env.rng cmd L η) {ε : ℝ} {a : Image F32} {b : Image ℝ}
    (k : Alike ε a.buffer b.buffer) (fs fs' : FS) (g : σ) :
    ∃ a' b' g', Does env cmd ⟨fs, g, some a⟩ ⟨fs, g', some a'⟩ success ∧
      Does env' (exactCmd cmd) ⟨fs', g, some b⟩ ⟨fs', g', some b'⟩ success ∧ Alike (L * ε + η) a'.buffer b'.buffer ∧
      a'.buffer.width = a.buffer.width ∧ a'.buffer.height = a.buffer.height := by
  have fin : ∀ {cmd f f' η'}, AddsNoise env.rng cmd f → AddsNoise env'.rng (exactCmd cmd) f' →
      BothMake η' (withPixelsAnd a (f a.buffer g)) (withPixelsAnd b (f' b.buffer g)) →
      ∃ a' b' g', Does env cmd ⟨fs, g, some a⟩ ⟨fs, g', some a'⟩ success ∧
        Does env' (exactCmd cmd) ⟨fs', g, some b⟩ ⟨fs', g', some b'⟩ success ∧ Alike η' a'.buffer b'.buffer ∧
        a'.buffer.width = a.buffer.width ∧ a'.buffer.height = a.buffer.height := by
    intro cmd f f' η' n1 n2 hb
    obtain ⟨_, _, sh, -⟩ := alike_shows k
    obtain ⟨a', b', s', e1, e2, k⟩ := bothMake_pixels hb
    exact ⟨_, _, s', .noisy cmd f ⟨fs, g, some a⟩ a a' s' n1 rfl e1, .noisy _ f' ⟨fs', g, some b⟩ b b' s' n2 rfl e2, k,
      noise_size n1 sh e1⟩
  cases h with
  | colour _ f _ _ h =>
    obtain ⟨f', r1, r2⟩ := ExactCommand.follows hL h
    obtain ⟨px, ex, s, t, k⟩ := alike_shows k
    obtain ⟨a', d1, s1, -⟩ := C60_recolour env r1 ⟨fs, g, some a⟩ rfl s
    obtain ⟨b', d2, s2, -⟩ := C60_recolour env' (exact_recolours h) ⟨fs', g, some b⟩ rfl t
    exact ⟨a', b', g, d1, d2, ⟨_, _, _, _, s1, s2, fun x y hx hy => ⟨r2.range _ (k x y hx hy).1,
      r2.range_exact _ (k x y hx hy).2.1, r2.close _ _ _ (k x y hx hy).1 (k x y hx hy).2.1 (k x y hx hy).2.2⟩⟩, s1.width, s1.height⟩
  | silent => exact ⟨a, b, g, .silent _, .silent _, by rwa [one_mul, add_zero], rfl, rfl⟩
  | random_noise α h1 h2 h3 =>
    have := (C135_noise hm env.rng hg k α h1 h2 h3 g).1
    rw [(C65_operations_noise env.rng a α g).1, (C65_operations_noise (exactRng env.rng) b (α.val : ℝ) g).1] at this
    rw [one_mul]
    exact fin (.random α) (by rw [hr]; exact .random _) this
  | rgb_noise t ht =>
    have := (C135_rgb env.rng hg k t ht g).1
    rw [(C65_operations_noise env.rng a t g).2.2.2.2.2.2.1, (C65_operations_noise (exactRng env.rng) b (t.val : ℝ) g).2.2.2.2.2.2.1] at this
    rw [one_mul, add_zero]
    exact fin (.rgb t) (by rw [hr]; exact .rgb _) this
  | salt_n_pepper_noise t h1 h2 h3 tie =>
    have := (C135_salt env.rng hg k t h1 h2 h3 tie g).1
    rw [(C65_operations_noise env.rng a t g).2.2.2.2.1, (C65_operations_noise (exactRng env.rng) b (t.val : ℝ) g).2.2.2.2.1] at this
    rw [one_mul, add_zero]
    exact fin (.salt_n_pepper t) (by rw [hr]; exact .salt_n_pepper _) this

/-- All the options, one after the other. -/
theorem tracked_runs {δ : ℝ} (hL : PowWithin δ) {env : Env σ F32} {env' : Env σ ℝ} (hr : env'.rng = exactRng env.rng) {m : ℕ}
    (hm : m ≤ 90) (hg : KeepsRange m env.rng) {number words L η} (h : TrackedOptions number δ env.rng words L η) :
    ∃ cmds, (∀ rest more, LineMeans id number false rest more → LineMeans id number false (words ++ rest) (cmds ++ more)) ∧
      (∀ rest more, LineMeans id (exactNumber number) false rest more →
        LineMeans id (exactNumber number) false (words ++ rest) (cmds.map exactCmd ++ more)) ∧
      ∀ (fs fs' : FS) (ε : ℝ) (a : Image F32) (b : Image ℝ) (g : σ), Alike ε a.buffer b.buffer →
        ∃ a' b' g', Runs env cmds ⟨fs, g, some a⟩ ⟨fs, g', some a'⟩ success ∧
          Runs env' (cmds.map exactCmd) ⟨fs', g, some b⟩ ⟨fs', g', some b'⟩ success ∧ Alike (L * ε + η) a'.buffer b'.buffer ∧
          a'.buffer.width = a.buffer.width ∧ a'.buffer.height = a.buffer.height := by
  induction h with
  | nil =>
    exact ⟨[], fun _ _ h => h, fun _ _ h => h, fun fs fs' ε a b g k => ⟨a, b, g, .nil _, .nil _, by rwa [one_mul, add_zero], rfl, rfl⟩⟩
  | cons words cmd L η rest M θ h1 h2 _ ih =>
    obtain ⟨cmds, l1, l2, r⟩ := ih
    refine ⟨cmd :: cmds, fun rest more h => ?_, fun rest more h => ?_, fun fs fs' ε a b g k => ?_⟩
    · rw [List.append_assoc]
      exact .cons _ _ _ _ _ (.option _ _ _ h1) (l1 _ _ h)
    · rw [List.append_assoc]
      exact .cons _ _ _ _ _ (.option _ _ _ (option_exact h1)) (l2 _ _ h)
    · obtain ⟨a1, b1, g1, d1, d2, k1, w1, w2⟩ := tracked_does hL hr hm hg h2 k fs fs' g
      obtain ⟨a2, b2, g2, d3, d4, k2, w3, w4⟩ := r fs fs' _ a1 b1 g1 k1
      refine ⟨a2, b2, g2, .next _ _ _ _ _ _ d1 d3, .next _ _ _ _ _ _ d2 d4, ?_, w3.trans w1, w4.trans w2⟩
      rwa [show M * L * ε + (M * η + θ) = M * (L * ε + η) + θ by ring]

/-! ## The files -/

omit [Libm b32] [Junk] [FloatBytes F32] [FloatBytes ℝ] in
/-- Saving a picture in a PNG file by its name. -/
theorem saves_png {F : Type} [Scalar F] [FloatBytes F] {libs : Libs F} (hlib : Lossless libs) {fs : FS} (hfs : Reliable fs)
    {output : String} (hn : Named output .Png) {img : Image F} {w h px} (s : Shows img.buffer w h px) (h0 : 0 < w) (h1 : 0 < h) :
    ∃ fs' bytes rd, encode_to_file libs fs output img.buffer none = (fs', .ok (.ok ())) ∧
      fs'.content (fs.node output) = some bytes ∧ Magic .Png bytes ∧ libs.png_read bytes = .ok rd ∧ rd.width = w ∧ rd.height = h ∧
      rd.color_type = .Rgba ∧ rd.bits = .Eight ∧
      rd.next_frame (to_rgba8_vec img.buffer).length = .ok ⟨to_rgba8_vec img.buffer, rfl⟩ := by
  have hlen : (to_rgba8_vec img.buffer).length = w * h * (channels .Rgba8 * sampleSize .Rgba8) := by
    rw [vec_rgba8, List.length_flatMap]
    simp only [sampleBytes_length, List.map_const', List.sum_replicate, smul_eq_mul]
    rw [s.length]
  obtain ⟨bytes, rd, l1, l2, l3, l4, l5, l6, l7, l8⟩ := hlib w h .Rgba8 .Default .Sub _ h0 h1 hlen
  have henc : encode libs img.buffer (usual .Png) = .ok ⟨bytes, .ok ()⟩ := by
    rw [← l1, ← s.width, ← s.height]
    rfl
  obtain ⟨fs', he, hcont⟩ := (C57_created libs fs output img.buffer (usual .Png) (hfs.2.2 _)).1 _ henc
  rw [hfs.1] at hcont
  rw [← C57_by_name libs fs output img.buffer .Png hn] at he
  exact ⟨fs', bytes, rd, he, hcont, l2, l3, l4, l5, l6, l7, l8⟩

/-- **The same line.** `d10 input options output.png` is run by the program with 32-bit numbers and by the program with
exact numbers, which draws the same random numbers. If both read the input file as pictures at most `ε` apart, and the options
change colours or add noise, then both programs end with code 0, they have drawn the same number of random numbers, and the two
output files, read by the libraries, have the size of the input and 8-bit RGBA samples that differ by less than `lineError`. -/
theorem C136_line {δ : ℝ} (hL : PowWithin δ) (hδ : δ ≤ 1 / 1024) (number : String → Option F32) (env : Env σ F32) (env' : Env σ ℝ)
    (hlib : Lossless env.libs) (hlib' : Lossless env'.libs) (hr : env'.rng = exactRng env.rng) {m : ℕ} (hm : m ≤ 90)
    (hg : KeepsRange m env.rng) (fs : FS) (hfs : Reliable fs) (g : σ) (program input output : String)
    (hi : ¬ Dashed id input) (ho : ¬ Dashed id output) (hn : Named output .Png) {words L η}
    (hw : TrackedOptions number δ env.rng words L η) {ε : ℝ} {a : PixelBuffer (Col F32)} {b : PixelBuffer (Col ℝ)}
    (ha : (decode_file env.libs fs input).run = .ok (.ok a)) (hb : (decode_file env'.libs fs input).run = .ok (.ok b))
    (k : Alike ε a b) (h0 : 0 < a.width) (h1 : 0 < a.height) :
    ∃ fs1 fs2 g' out1 out2 file1 file2 rd1 rd2 data1 data2,
      main number env fs g (program :: input :: words ++ [output]) = (fs1, g', out1, .ok ⟨[], 0⟩) ∧
      main (exactNumber number) env' fs g (program :: input :: words ++ [output]) = (fs2, g', out2, .ok ⟨[], 0⟩) ∧
      fs1.content (fs.node output) = some file1 ∧ fs2.content (fs.node output) = some file2 ∧
      env.libs.png_read file1 = .ok rd1 ∧ env'.libs.png_read file2 = .ok rd2 ∧
      (rd1.width = a.width ∧ rd1.height = a.height ∧ rd1.color_type = .Rgba ∧ rd1.bits = .Eight) ∧
      (rd2.width = a.width ∧ rd2.height = a.height ∧ rd2.color_type = .Rgba ∧ rd2.bits = .Eight) ∧
      rd1.next_frame data1.length = .ok ⟨data1, rfl⟩ ∧ rd2.next_frame data2.length = .ok ⟨data2, rfl⟩ ∧
      OffBy (lineError δ ε L η) data1 data2 := by
  obtain ⟨cmds, l1, l2, r⟩ := tracked_runs hL hr hm hg hw
  obtain ⟨a', b', g', q1, q2, k', w1, w2⟩ := r fs fs ε ⟨a, none⟩ ⟨b, none⟩ g k
  obtain ⟨px, ex, s, t, c⟩ := alike_shows k'
  rw [w1, w2] at s t c
  obtain ⟨fs1, file1, rd1, e1, e2, -, e3, e4⟩ := saves_png hlib hfs hn s h0 h1
  obtain ⟨fs2, file2, rd2, f1, f2, -, f3, f4⟩ := saves_png hlib' hfs hn t h0 h1
  have run1 : Runs env (.Open input :: (cmds ++ [.Save output])) ⟨fs, g, none⟩ ⟨fs1, g', some a'⟩ success :=
    .next _ _ _ _ _ _ (.opened _ _ _ ha)
      ((C60_append env cmds _ _ _ _).2 (.inl ⟨_, q1, .next _ _ _ _ _ _ (.saved _ _ _ _ rfl e1) (.nil _)⟩))
  have run2 : Runs env' (.Open input :: (cmds.map exactCmd ++ [.Save output])) ⟨fs, g, none⟩ ⟨fs2, g', some b'⟩ success :=
    .next _ _ _ _ _ _ (.opened _ _ _ hb)
      ((C60_append env' _ _ _ _ _).2 (.inl ⟨_, q2, .next _ _ _ _ _ _ (.saved _ _ _ _ rfl f1) (.nil _)⟩))
  obtain ⟨out1, m1, -⟩ := main_runs (number := number) (program := program) (args := input :: words ++ [output]) (by simp)
    (.cons true [input] _ _ _ (.input _ hi) (l1 _ _ (.cons _ [output] _ [] [] (.output _ ho) (.nil _)))) run1
  obtain ⟨out2, m2, -⟩ := main_runs (number := exactNumber number) (program := program) (args := input :: words ++ [output]) (by simp)
    (.cons true [input] _ _ _ (.input _ hi) (l2 _ _ (.cons _ [output] _ [] [] (.output _ ho) (.nil _)))) run2
  exact ⟨fs1, fs2, g', out1, out2, file1, file2, rd1, rd2, _, _, m1, m2, e2, f2, e3, f3, ⟨e4.1, e4.2.1, e4.2.2.1, e4.2.2.2.1⟩,
    ⟨f4.1, f4.2.1, f4.2.2.1, f4.2.2.2.1⟩, e4.2.2.2.2, f4.2.2.2.2,
    (C108_bytes hL hδ s t (fun x y i j => (c x y i j).1) (fun x y i j => (c x y i j).2.1) (fun x y i j => (c x y i j).2.2)).1⟩

/-- The same for a PNG file that both libraries read alike: the pictures are `δ + 10⁻⁶` apart when the options start. -/
theorem C136_png {δ : ℝ} (hL : PowWithin δ) (hδ : δ ≤ 1 / 1024) (number : String → Option F32) (env : Env σ F32) (env' : Env σ ℝ)
    (hlib : Lossless env.libs) (hlib' : Lossless env'.libs) (hr : env'.rng = exactRng env.rng) {m : ℕ} (hm : m ≤ 90)
    (hg : KeepsRange m env.rng) (fs : FS) (hfs : Reliable fs) (g : σ) (program input output : String)
    (hi : ¬ Dashed id input) (ho : ¬ Dashed id output) (hn : Named output .Png) {words L η}
    (hw : TrackedOptions number δ env.rng words L η) {file : List Nat} {rd : PngReader} {w h : Nat} (ct : PngColorType)
    {data : List Nat} (hl : data.length = w * h * (channels ct * sampleSize ct))
    (hc : fs.content (fs.node input) = some file) (hmag : Magic .Png file) (p1 : env.libs.png_read file = .ok rd)
    (p2 : env'.libs.png_read file = .ok rd) (r1 : rd.width = w) (r2 : rd.height = h) (hv : ValidSize w h) (h0 : 0 < w) (h1 : 0 < h)
    (r3 : rd.color_type = pngColor ct) (r4 : rd.bits = pngDepth ct)
    (r5 : rd.next_frame (w * h * (channels ct * sampleSize ct)) = .ok ⟨data, hl⟩) (hbytes : ∀ v ∈ data, v < 256) :
    ∃ fs1 fs2 g' out1 out2 file1 file2 rd1 rd2 data1 data2,
      main number env fs g (program :: input :: words ++ [output]) = (fs1, g', out1, .ok ⟨[], 0⟩) ∧
      main (exactNumber number) env' fs g (program :: input :: words ++ [output]) = (fs2, g', out2, .ok ⟨[], 0⟩) ∧
      fs1.content (fs.node output) = some file1 ∧ fs2.content (fs.node output) = some file2 ∧
      env.libs.png_read file1 = .ok rd1 ∧ env'.libs.png_read file2 = .ok rd2 ∧
      (rd1.width = w ∧ rd1.height = h ∧ rd1.color_type = .Rgba ∧ rd1.bits = .Eight) ∧
      (rd2.width = w ∧ rd2.height = h ∧ rd2.color_type = .Rgba ∧ rd2.bits = .Eight) ∧
      rd1.next_frame data1.length = .ok ⟨data1, rfl⟩ ∧ rd2.next_frame data2.length = .ok ⟨data2, rfl⟩ ∧
      OffBy (lineError δ (δ + 1 / 1000000) L η) data1 data2 := by
  obtain ⟨a, b, d1, d2, k⟩ := (C127_open hL env.libs env'.libs file).1 rd w h ct data hl p1 p2 r1 r2 hv r3 r4 r5 hbytes
  obtain ⟨a', e, sh⟩ := C50_read_png env.libs p1 r1 r2 hv ct r3 r4 rfl r5
  obtain rfl : a' = a := by rw [e] at d1; cases d1; rfl
  have key := C136_line hL hδ number env env' hlib hlib' hr hm hg fs hfs g program input output hi ho hn hw (a := a') (b := b)
    (by rw [C56_content env.libs fs input file .Png (hfs.2.1 _) hc hmag]; exact d1)
    (by rw [C56_content env'.libs fs input file .Png (hfs.2.1 _) hc hmag]; exact d2) k (sh.width ▸ h0) (sh.height ▸ h1)
  rwa [sh.width, sh.height] at key

end

/-! ## The hypotheses can be met -/

/-- An environment whose random generator draws 1 and 0 in turn. -/
def noisyEnv : Env Nat F32 := ⟨rawPng, onesAndZeros, fun _ => "a command"⟩

/-- The same for exact numbers. -/
noncomputable def noisyExactEnv [Junk] : Env Nat ℝ := ⟨rawPng, exactRng onesAndZeros, fun _ => "a command"⟩

/-- `d10 in.png -random-noise 0.5 -gamma 0.5 -rgb-noise 0.5 out.png` on an accurate platform: no byte of the two output files
differs by 2, so none differs by more than 1. -/
example [Junk] [FloatBytes ℝ] : letI := nearestPow
    ∃ fs1 fs2 g' out1 out2 file1 file2 rd1 rd2 data1 data2,
      main onlyHalf noisyEnv twoPixelFS 0 ["d10", "in.png", "-random-noise", "0.5", "-gamma", "0.5", "-rgb-noise", "0.5", "out.png"] =
        (fs1, g', out1, .ok ⟨[], 0⟩) ∧
      main (exactNumber onlyHalf) noisyExactEnv twoPixelFS 0
        ["d10", "in.png", "-random-noise", "0.5", "-gamma", "0.5", "-rgb-noise", "0.5", "out.png"] = (fs2, g', out2, .ok ⟨[], 0⟩) ∧
      fs1.content 1 = some file1 ∧ fs2.content 1 = some file2 ∧
      (rawPng : Libs F32).png_read file1 = .ok rd1 ∧ (rawPng : Libs ℝ).png_read file2 = .ok rd2 ∧
      rd1.next_frame data1.length = .ok ⟨data1, rfl⟩ ∧ rd2.next_frame data2.length = .ok ⟨data2, rfl⟩ ∧ OffBy 2 data1 data2 := by
  let _ := nearestPow
  have v : (FP.ofRat b32 false (1 / 2)).val = 1 / 2 := by decide +kernel
  have fin : (FP.ofRat b32 false (1 / 2)).fin = true := by decide +kernel
  have hw : TrackedOptions onlyHalf (1 / 1048576) onesAndZeros ["-random-noise", "0.5", "-gamma", "0.5", "-rgb-noise", "0.5"] _ _ :=
    .cons ["-random-noise", "0.5"] (.RandomNoise _) _ _ ["-gamma", "0.5", "-rgb-noise", "0.5"] _ _
      (.number "-random-noise" "0.5" "random-noise" .RandomNoise _ .random_noise (by decide) rfl)
      (.random_noise _ fin (by rw [v]; norm_num) (by rw [v]; norm_num))
      (.cons ["-gamma", "0.5"] (.Gamma _) _ _ ["-rgb-noise", "0.5"] _ _
        (.number "-gamma" "0.5" "gamma" .Gamma _ .gamma (by decide) rfl)
        (.colour _ _ _ _ (.gamma _ fin (by rw [v]; norm_num) (by rw [v]; norm_num)))
        (.cons ["-rgb-noise", "0.5"] (.RgbNoise _) _ _ [] _ _
          (.number "-rgb-noise" "0.5" "rgb-noise" .RgbNoise _ .rgb_noise (by decide) rfl) (.rgb_noise _ fin) .nil))
  obtain ⟨fs1, fs2, g', out1, out2, file1, file2, rd1, rd2, data1, data2, h1, h2, h3, h4, h5, h6, -, -, h7, h8, h9⟩ :=
    C136_png nearestPow_within (by norm_num) onlyHalf noisyEnv noisyExactEnv rawPng_lossless rawPng_lossless rfl (by norm_num)
    onesAndZeros_range twoPixelFS ⟨fun _ _ => rfl, fun _ => rfl, fun _ => rfl⟩ 0 "d10" "in.png" "out.png"
    (not_dashed (by decide)) (not_dashed (by decide)) out_named hw .Rgb8 (w := 2) (h := 1) (data := [200, 100, 7, 0, 255, 31]) rfl
    rfl ⟨_, rfl⟩ rfl rfl rfl rfl (by norm_num [ValidSize]) (by decide) (by decide) rfl rfl rfl (by decide)
  refine ⟨fs1, fs2, g', out1, out2, file1, file2, rd1, rd2, data1, data2, h1, h2, h3, h4, h5, h6, h7, h8, ?_⟩
  refine List.Forall₂.imp (fun a b h => lt_of_lt_of_le h ?_) h9
  rw [v]
  unfold lineError
  norm_num

end D10
