import Verif.SpecConvert
import Verif.Lemmas.LevelFloat
import Verif.Props.Chain
import Verif.Props.EndToEnd
import Verif.Props.Hue

/-!
# C129: the bytes that a run of the command line stores
-/

namespace D10
open Spec
open Scalar (lit)

section
variable [Libm b32] [Junk]

theorem ExactCommand.follows {δ : ℝ} (hL : PowWithin δ) {cmd g L η} (h : ExactCommand δ cmd g L η) :
    ∃ f, Recolours cmd f ∧ Follows L η f g := by
  have e25 : (2 : ℝ) ^ 25 = 33554432 := by norm_num
  have e24 : (2 : ℝ) ^ 24 = 16777216 := by norm_num
  have e23 : (2 : ℝ) ^ 23 = 8388608 := by norm_num
  have e20 : (2 : ℝ) ^ 20 = 1048576 := by norm_num
  have z : (lit 0 : F32).fin = true := by
    show (FP.ofRat b32 false 0).fin = true
    decide +kernel
  cases h with
  | invert => rw [e25]; exact ⟨_, .invert, (C127_colours _ _ z z .Lightness).1⟩
  | brightness b hb => rw [e24]; exact ⟨_, .brightness b, (C127_colours b _ hb z .Lightness).2.1⟩
  | contrast k hk => rw [e25]; exact ⟨_, .contrast k, (C127_colours _ k z hk .Lightness).2.2.1⟩
  | brightness_contrast b k hb hb1 hk =>
    rw [e25]; exact ⟨_, .brightness_contrast b k, (C127_colours b k hb hk .Lightness).2.2.2.1 hb1⟩
  | to_gray i hi => rw [e20]; exact ⟨_, .to_gray i, (C127_colours _ _ z z i).2.2.2.2.1 hi⟩
  | gamma g hg g0 g1 => rw [e23]; exact ⟨_, .gamma g, C127_gamma hL g hg g0 g1⟩
  | level b w g m hb b0 b1 hw w0 w1 hm hd hg g0 g1 =>
    rw [e23]; exact ⟨_, .level b w g, follows_level hL hm ⟨hb, b0, b1⟩ ⟨hw, w0, w1⟩ hd hg g0 g1⟩
  | saturation k hk k0 k1 => exact ⟨_, .saturation k, C133_follows k ⟨hk, k0, k1⟩⟩
  | hue_rotate a ha a0 a1 => exact ⟨_, .hue_rotate a, C134_follows a ha a0 a1⟩

theorem ExactOptions.follows {δ : ℝ} (hL : PowWithin δ) {number words cmds g L η}
    (h : ExactOptions number δ words cmds g L η) : ∃ f, ColourOptions number words cmds f ∧ Follows L η f g := by
  induction h with
  | nil =>
    exact ⟨fun c => c, .nil, fun c hc => hc, fun d hd => hd, fun t c d _ _ e => by simpa using e⟩
  | cons words cmd f L η rest cmds g M θ h1 h2 _ ih =>
    obtain ⟨a, a1, a2⟩ := ExactCommand.follows hL h2
    obtain ⟨b, b1, b2⟩ := ih
    exact ⟨_, .cons _ _ _ _ _ _ h1 a1 b1, follows_comp a2 b2⟩

/-- **From file to file.** `d10 input options output.png`, where the input is a PNG file and the options are inverting,
brightness, contrast, gray, gamma, levels, less saturation and turned hues, any number of them in any order: the program ends with code 0, and the output file,
read by the library, has the size of the input and 8-bit RGBA samples, each less than `byteError` away from the one that
the same formulas give in exact arithmetic for the samples of the input. -/
theorem C129_convert {σ : Type} {δ : ℝ} (hL : PowWithin δ) (hδ : δ ≤ 1 / 1024) (number : String → Option F32) (env : Env σ F32)
    (hlib : Lossless env.libs) (fs : FS) (hfs : Reliable fs) (g : σ) (program input output : String)
    (hi : ¬ Dashed id input) (ho : ¬ Dashed id output) (hn : Named output .Png) {words cmds f L η}
    (hw : ExactOptions number δ words cmds f L η) {file : List Nat} {rd : PngReader} {w h : Nat} (ct : PngColorType)
    {data : List Nat} (hl : data.length = w * h * (channels ct * sampleSize ct))
    (hc : fs.content (fs.node input) = some file) (hm : Magic .Png file) (hr : env.libs.png_read file = .ok rd)
    (r1 : rd.width = w) (r2 : rd.height = h) (hv : ValidSize w h) (h0 : 0 < w) (h1 : 0 < h) (r3 : rd.color_type = pngColor ct)
    (r4 : rd.bits = pngDepth ct) (r5 : rd.next_frame (w * h * (channels ct * sampleSize ct)) = .ok ⟨data, hl⟩)
    (hbytes : ∀ v ∈ data, v < 256) :
    ∃ fs' file' rd' data', main number env fs g (program :: input :: words ++ [output]) = (fs', g,
        progress env.debug (cmds.length + 2) (.Open input :: (cmds ++ [.Save output])), .ok ⟨[], 0⟩) ∧
      fs'.content (fs.node output) = some file' ∧ Magic .Png file' ∧ env.libs.png_read file' = .ok rd' ∧
      rd'.width = w ∧ rd'.height = h ∧ rd'.color_type = .Rgba ∧ rd'.bits = .Eight ∧
      rd'.next_frame data'.length = .ok ⟨data', rfl⟩ ∧
      ∀ e : PixelBuffer (Col ℝ),
        Shows e w h (fun x y => f (colourOf (bytesAt data w (channels ct * sampleSize ct) x y) ct)) →
        OffBy (byteError δ L η) data' (to_rgba8_vec e) := by
  obtain ⟨k, k1, k2⟩ := ExactOptions.follows hL hw
  obtain ⟨b, d1, sh⟩ := C50_read_png env.libs hr r1 r2 hv ct r3 r4 rfl r5
  have hb : (decode_file env.libs fs input).run = .ok (.ok b) := by
    rw [C56_content env.libs fs input file .Png (hfs.2.1 _) hc hm]; exact d1
  obtain ⟨img, q1, s1⟩ := ColourOptions.runs env k1 fs g (img := ⟨b, none⟩) sh
  have hlen : (to_rgba8_vec img.buffer).length = w * h * (channels .Rgba8 * sampleSize .Rgba8) := by
    rw [vec_rgba8, List.length_flatMap]
    simp only [sampleBytes_length, List.map_const', List.sum_replicate, smul_eq_mul]
    rw [s1.length]
  obtain ⟨bytes, rd', l1, l2, l3, l4, l5, l6, l7, l8⟩ := hlib w h .Rgba8 .Default .Sub _ h0 h1 hlen
  have henc : encode env.libs img.buffer (usual .Png) = .ok ⟨bytes, .ok ()⟩ := by
    rw [← l1, ← s1.width, ← s1.height]
    rfl
  obtain ⟨fs', he, hcont⟩ := (C57_created env.libs fs output img.buffer (usual .Png) (hfs.2.2 _)).1 _ henc
  rw [hfs.1] at hcont
  have hs := he
  rw [← C57_by_name env.libs fs output img.buffer .Png hn] at hs
  have hrun : Runs env (.Open input :: (cmds ++ [.Save output])) ⟨fs, g, none⟩ ⟨fs', g, some img⟩ success :=
    .next _ _ _ _ _ _ (.opened _ _ _ hb)
      ((C60_append env cmds _ _ _ _).2 (.inl ⟨_, q1, .next _ _ _ _ _ _ (.saved _ _ _ _ rfl hs) (.nil _)⟩))
  obtain ⟨out, m1, m2⟩ := main_runs (program := program) (by simp) (whole_line hi ho k1) hrun
  have hout := m2 rfl (by
    intro c hc
    rcases List.mem_cons.1 hc with rfl | hc
    · exact nofun
    · rcases List.mem_append.1 hc with hc | hc
      · exact ColourOptions.not_silent k1 c hc
      · rw [List.mem_singleton.1 hc]; exact nofun)
  have hlc : (Cmd.Open input :: (cmds ++ [Cmd.Save output])).length = cmds.length + 2 := by simp
  rw [hlc] at hout
  rw [← hout]
  refine ⟨fs', bytes, rd', _, m1, hcont, l2, l3, l4, l5, l6, l7, l8, fun e se => ?_⟩
  have byte : ∀ w n x y k, bytesAt data w n x y k < 256 := by
    intro w n x y k
    unfold bytesAt
    rw [List.getD_eq_getElem?_getD]
    cases e : data[(y * w + x) * n + k]? with
    | none => simp
    | some v => exact hbytes v (List.mem_of_getElem? e)
  have al := fun x y => colour_alike hL ct (bytesAt data w (channels ct * sampleSize ct) x y) (byte _ _ x y)
  exact (C108_bytes hL hδ s1 se (fun x y _ _ => k2.range _ (al x y).1) (fun x y _ _ => k2.range_exact _ (al x y).2.1)
    (fun x y _ _ => k2.close _ _ _ (al x y).1 (al x y).2.1 (al x y).2.2)).1

end

/-! ## The hypotheses can be met -/

/-- A file system whose first file is a PNG file with two pixels. -/
def twoPixelFS : FS where
  node p := if p = "in.png" then 0 else 1
  content n := some (if n = 0 then [0x89, 0x50, 0x4E, 0x47, 0x0D, 0x0A, 0x1A, 0x0A, 2, 1, 2, 0, 200, 100, 7, 0, 255, 31] else [])
  readErr _ := none
  writeErr _ := none
  settle _ bytes := bytes

/-- A grammar of numbers with a single number. -/
def onlyHalf (s : String) : Option F32 := if s = "0.5" then some (FP.ofRat b32 false (1 / 2)) else none

/-- `d10 in.png -invert -contrast 0.5 -gamma 0.5 -grayscale red out.png` on an accurate platform: no byte of the output is
off by more than one. -/
example [Junk] : letI := nearestPow
    ∃ fs' out file' rd' data', main onlyHalf rawEnv twoPixelFS ()
      ["d10", "in.png", "-invert", "-contrast", "0.5", "-gamma", "0.5", "-grayscale", "red", "out.png"] =
        (fs', (), out, .ok ⟨[], 0⟩) ∧
      fs'.content 1 = some file' ∧ (rawPng : Libs F32).png_read file' = .ok rd' ∧
      rd'.next_frame data'.length = .ok ⟨data', rfl⟩ ∧
      ∀ e : PixelBuffer (Col ℝ), Shows e 2 1 (fun x y => Rgb.to_gray_with_intensity (Rgb.with_gamma (Rgb.with_contrast
          (Rgb.invert (colourOf (bytesAt [200, 100, 7, 0, 255, 31] 2 3 x y) .Rgb8)) (1 / 2)) (1 / 2)) .Red) →
        OffBy 2 data' (to_rgba8_vec e) := by
  let _ := nearestPow
  have v : (FP.ofRat b32 false (1 / 2)).val = 1 / 2 := by decide +kernel
  have fin : (FP.ofRat b32 false (1 / 2)).fin = true := by decide +kernel
  have hw : ExactOptions onlyHalf (1 / 1048576) ["-invert", "-contrast", "0.5", "-gamma", "0.5", "-grayscale", "red"] _ _ _ _ :=
    .cons ["-invert"] .Invert _ _ _ ["-contrast", "0.5", "-gamma", "0.5", "-grayscale", "red"] _ _ _ _
      (.invert "-invert" (by decide)) .invert
      (.cons ["-contrast", "0.5"] (.Contrast _) _ _ _ ["-gamma", "0.5", "-grayscale", "red"] _ _ _ _
        (.number "-contrast" "0.5" "contrast" .Contrast _ .contrast (by decide) rfl) (.contrast _ fin)
        (.cons ["-gamma", "0.5"] (.Gamma _) _ _ _ ["-grayscale", "red"] _ _ _ _
          (.number "-gamma" "0.5" "gamma" .Gamma _ .gamma (by decide) rfl)
          (.gamma _ fin (by rw [v]; norm_num) (by rw [v]; norm_num))
          (.cons ["-grayscale", "red"] (.ToGray .Red) _ _ _ [] [] _ _ _ (.grayscale "-grayscale" "red" .Red (by decide) (by decide)) (.to_gray _ nofun) .nil)))
  obtain ⟨fs', file', rd', data', h1, h2, -, h3, -, -, -, -, h4, h5⟩ := C129_convert nearestPow_within (by norm_num) onlyHalf
    rawEnv rawPng_lossless twoPixelFS ⟨fun _ _ => rfl, fun _ => rfl, fun _ => rfl⟩ () "d10" "in.png" "out.png"
    (not_dashed (by decide)) (not_dashed (by decide)) out_named hw .Rgb8 (w := 2) (h := 1) (data := [200, 100, 7, 0, 255, 31]) rfl
    rfl ⟨_, rfl⟩ rfl rfl rfl (by norm_num [ValidSize]) (by decide) (by decide) rfl rfl rfl (by decide)
  refine ⟨fs', _, file', rd', data', h1, h2, h3, h4, fun e se => ?_⟩
  have := h5 e (by
    rw [v]
    push_cast
    exact se)
  refine List.Forall₂.imp (fun a b h => lt_of_lt_of_le h ?_) this
  rw [v]
  unfold byteError
  norm_num

/-- Half of the saturation is one of the options. -/
example [Libm b32] [Junk] (δ : ℝ) : ∃ f, ExactCommand δ (.Saturation (FP.ofRat b32 false (1 / 2))) f 1 (2 / 32768 + 1 / 100000) :=
  ⟨_, .saturation _ (by decide +kernel) (by decide +kernel) (by decide +kernel)⟩

end D10
