import Verif.SpecStages
import Verif.Props.SameLine

/-!
# C140: a command line that saves several times
-/

namespace D10
open Spec
open Scalar (lit)

section
variable [Libm b32] [Junk] {σ : Type} [FloatBytes F32] [FloatBytes ℝ]

omit [Libm b32] [Junk] [FloatBytes F32] [FloatBytes ℝ] in
theorem reliable_stays {F : Type} [Scalar F] [FloatBytes F] {libs : Libs F} {fs fs' : FS} {path : String} {b : PixelBuffer (Col F)} {r}
    (h : encode_to_file libs fs path b none = (fs', r)) (hfs : Reliable fs) : Reliable fs' := by
  obtain ⟨-, -, e1, e2, e3⟩ := C57_other_files libs fs path b none fs' r h
  unfold Reliable
  rw [e1, e2, e3]
  exact hfs

/-- All the words after the input. -/
theorem staged_runs {δ : ℝ} (hL : PowWithin δ) (hδ : δ ≤ 1 / 1024) {env : Env σ F32} {env' : Env σ ℝ} (hlib : Lossless env.libs)
    (hlib' : Lossless env'.libs) (hr : env'.rng = exactRng env.rng) {m : ℕ} (hm : m ≤ 90) (hg : KeepsRange m env.rng)
    {number L η words saves} (h : StagedLine number δ env.rng L η words saves) :
    ∃ cmds, LineMeans id number false words cmds ∧ LineMeans id (exactNumber number) false words (cmds.map exactCmd) ∧
      ∀ (fs fs' : FS), Reliable fs → Reliable fs' → fs'.node = fs.node → ∀ (ε : ℝ) (a : Image F32) (b : Image ℝ) (g : σ),
        Alike (L * ε + η) a.buffer b.buffer → 0 < a.buffer.width → 0 < a.buffer.height →
        ∃ fs1 fs2 g' a' b', Runs env cmds ⟨fs, g, some a⟩ ⟨fs1, g', some a'⟩ success ∧
          Runs env' (cmds.map exactCmd) ⟨fs', g, some b⟩ ⟨fs2, g', some b'⟩ success ∧
          (∀ before s after, saves = before ++ s :: after → (∀ q ∈ after, fs.node q.1 ≠ fs.node s.1) →
            SavedAlike env.libs env'.libs fs1 fs2 (fs.node s.1) a.buffer.width a.buffer.height (lineError δ ε s.2.1 s.2.2)) ∧
          ∀ n, (∀ q ∈ saves, fs.node q.1 ≠ n) → fs1.content n = fs.content n ∧ fs2.content n = fs'.content n := by
  induction h with
  | nil L η =>
    refine ⟨[], .nil _, .nil _, fun fs fs' _ _ _ ε a b g k _ _ => ⟨fs, fs', g, a, b, .nil _, .nil _, ?_, fun _ _ => ⟨rfl, rfl⟩⟩⟩
    intro before s after e
    simp at e
  | save L η words M θ output rest saves hw ho hn _ ih =>
    obtain ⟨cmds, l1, l2, r⟩ := tracked_runs hL hr hm hg hw
    obtain ⟨cmds', m1, m2, r'⟩ := ih
    refine ⟨cmds ++ .Save output :: cmds', l1 _ _ (.cons _ [output] _ _ _ (.output _ ho) m1), ?_, ?_⟩
    · rw [List.map_append]
      exact l2 _ _ (.cons _ [output] _ _ _ (.output _ ho) m2)
    · intro fs fs' hfs hfs' hnode ε a b g k h0 h1
      obtain ⟨a1, b1, g1, q1, q2, k', w1, w2⟩ := r fs fs' _ a b g k
      obtain ⟨px, ex, s, t, c⟩ := alike_shows k'
      rw [w1, w2] at s t c
      obtain ⟨fs1, file1, rd1, e1, e2, -, e3, e4⟩ := saves_png hlib hfs hn s h0 h1
      obtain ⟨fs2, file2, rd2, f1, f2, -, f3, f4⟩ := saves_png hlib' hfs' hn t h0 h1
      obtain ⟨o1, o2, -⟩ := C57_other_files _ _ _ _ _ _ _ e1
      obtain ⟨o3, o4, -⟩ := C57_other_files _ _ _ _ _ _ _ f1
      have ke : M * (L * ε + η) + θ = M * L * ε + (M * η + θ) := by ring
      obtain ⟨fs3, fs4, g2, a2, b2, q3, q4, sv, ot⟩ := r' fs1 fs2 (reliable_stays e1 hfs) (reliable_stays f1 hfs') (by rw [o2, o4, hnode]) ε a1 b1 g1
        (by rwa [ke] at k') (by rwa [w1]) (by rwa [w2])
      rw [o2] at sv ot
      rw [w1, w2] at sv
      refine ⟨fs3, fs4, g2, a2, b2, ?_, ?_, ?_, ?_⟩
      · exact (C60_append env cmds _ _ _ _).2 (.inl ⟨_, q1, .next _ _ _ _ _ _ (.saved _ _ _ _ rfl e1) q3⟩)
      · rw [List.map_append]
        exact (C60_append env' _ _ _ _ _).2 (.inl ⟨_, q2, .next _ _ _ _ _ _ (.saved _ _ _ _ rfl f1) q4⟩)
      · intro before st after e hq
        cases before with
        | nil =>
          obtain ⟨rfl, rfl⟩ := List.cons.inj e
          obtain ⟨z1, z2⟩ := ot (fs.node output) hq
          refine ⟨file1, file2, rd1, rd2, _, _, z1.trans e2, z2.trans (by rw [← hnode]; exact f2), e3, f3,
            ⟨e4.1, e4.2.1, e4.2.2.1, e4.2.2.2.1⟩, ⟨f4.1, f4.2.1, f4.2.2.1, f4.2.2.2.1⟩, e4.2.2.2.2, f4.2.2.2.2, ?_⟩
          have := (C108_bytes hL hδ s t (fun x y i j => (c x y i j).1) (fun x y i j => (c x y i j).2.1)
            (fun x y i j => (c x y i j).2.2)).1
          rw [ke] at this
          exact this
        | cons p before =>
          exact sv before st after (List.cons.inj e).2 hq
      · intro n hq
        obtain ⟨z1, z2⟩ := ot n fun q h => hq q (.tail _ h)
        have no := hq _ (.head _)
        exact ⟨z1.trans (o1 n (Ne.symm no)), z2.trans (o3 n (by rw [hnode]; exact Ne.symm no))⟩

/-- **Saving several times.** `d10 input options first.png options second.png …` is run by the program with 32-bit numbers and by
the program with exact numbers, which draws the same random numbers. Both end with code 0 and have drawn the same number of random
numbers. Every file, unless it is saved again later, holds in both cases the picture as it was at that moment, up to the error
of the options before it. Files that are not saved are as before. -/
theorem C140_stages {δ : ℝ} (hL : PowWithin δ) (hδ : δ ≤ 1 / 1024) (number : String → Option F32) (env : Env σ F32) (env' : Env σ ℝ)
    (hlib : Lossless env.libs) (hlib' : Lossless env'.libs) (hr : env'.rng = exactRng env.rng) {m : ℕ} (hm : m ≤ 90)
    (hg : KeepsRange m env.rng) (fs : FS) (hfs : Reliable fs) (g : σ) (program input : String) (hi : ¬ Dashed id input) {words saves}
    (hw : StagedLine number δ env.rng 1 0 words saves) {ε : ℝ} {a : PixelBuffer (Col F32)} {b : PixelBuffer (Col ℝ)}
    (ha : (decode_file env.libs fs input).run = .ok (.ok a)) (hb : (decode_file env'.libs fs input).run = .ok (.ok b))
    (k : Alike ε a b) (h0 : 0 < a.width) (h1 : 0 < a.height) :
    ∃ fs1 fs2 g' out1 out2,
      main number env fs g (program :: input :: words) = (fs1, g', out1, .ok ⟨[], 0⟩) ∧
      main (exactNumber number) env' fs g (program :: input :: words) = (fs2, g', out2, .ok ⟨[], 0⟩) ∧
      (∀ before output L η after, saves = before ++ (output, L, η) :: after → (∀ q ∈ after, fs.node q.1 ≠ fs.node output) →
        SavedAlike env.libs env'.libs fs1 fs2 (fs.node output) a.width a.height (lineError δ ε L η)) ∧
      ∀ n, (∀ q ∈ saves, fs.node q.1 ≠ n) → fs1.content n = fs.content n ∧ fs2.content n = fs.content n := by
  obtain ⟨cmds, l1, l2, r⟩ := staged_runs hL hδ hlib hlib' hr hm hg hw
  obtain ⟨fs1, fs2, g', a', b', q1, q2, sv, ot⟩ := r fs fs hfs hfs rfl ε ⟨a, none⟩ ⟨b, none⟩ g (by rwa [one_mul, add_zero]) h0 h1
  obtain ⟨out1, m1, -⟩ := main_runs (number := number) (program := program) (args := input :: words) (by simp)
    (.cons true [input] _ _ _ (.input _ hi) l1) (.next _ _ _ _ _ _ (.opened _ _ _ ha) q1)
  obtain ⟨out2, m2, -⟩ := main_runs (number := exactNumber number) (program := program) (args := input :: words) (by simp)
    (.cons true [input] _ _ _ (.input _ hi) l2) (.next _ _ _ _ _ _ (.opened _ _ _ hb) q2)
  exact ⟨fs1, fs2, g', out1, out2, m1, m2, fun before output L η after e hq => sv before _ after e hq, ot⟩

/-- The same for a PNG file that both libraries read alike: the pictures are `δ + 10⁻⁶` apart when the options start. -/
theorem C140_png {δ : ℝ} (hL : PowWithin δ) (hδ : δ ≤ 1 / 1024) (number : String → Option F32) (env : Env σ F32) (env' : Env σ ℝ)
    (hlib : Lossless env.libs) (hlib' : Lossless env'.libs) (hr : env'.rng = exactRng env.rng) {m : ℕ} (hm : m ≤ 90)
    (hg : KeepsRange m env.rng) (fs : FS) (hfs : Reliable fs) (g : σ) (program input : String) (hi : ¬ Dashed id input) {words saves}
    (hw : StagedLine number δ env.rng 1 0 words saves) {file : List Nat} {rd : PngReader} {w h : Nat} (ct : PngColorType)
    {data : List Nat} (hl : data.length = w * h * (channels ct * sampleSize ct))
    (hc : fs.content (fs.node input) = some file) (hmag : Magic .Png file) (p1 : env.libs.png_read file = .ok rd)
    (p2 : env'.libs.png_read file = .ok rd) (r1 : rd.width = w) (r2 : rd.height = h) (hv : ValidSize w h) (h0 : 0 < w) (h1 : 0 < h)
    (r3 : rd.color_type = pngColor ct) (r4 : rd.bits = pngDepth ct)
    (r5 : rd.next_frame (w * h * (channels ct * sampleSize ct)) = .ok ⟨data, hl⟩) (hbytes : ∀ v ∈ data, v < 256) :
    ∃ fs1 fs2 g' out1 out2,
      main number env fs g (program :: input :: words) = (fs1, g', out1, .ok ⟨[], 0⟩) ∧
      main (exactNumber number) env' fs g (program :: input :: words) = (fs2, g', out2, .ok ⟨[], 0⟩) ∧
      (∀ before output L η after, saves = before ++ (output, L, η) :: after → (∀ q ∈ after, fs.node q.1 ≠ fs.node output) →
        SavedAlike env.libs env'.libs fs1 fs2 (fs.node output) w h (lineError δ (δ + 1 / 1000000) L η)) ∧
      ∀ n, (∀ q ∈ saves, fs.node q.1 ≠ n) → fs1.content n = fs.content n ∧ fs2.content n = fs.content n := by
  obtain ⟨a, b, d1, d2, k⟩ := (C127_open hL env.libs env'.libs file).1 rd w h ct data hl p1 p2 r1 r2 hv r3 r4 r5 hbytes
  obtain ⟨a', e, sh⟩ := C50_read_png env.libs p1 r1 r2 hv ct r3 r4 rfl r5
  obtain rfl : a' = a := by rw [e] at d1; cases d1; rfl
  have key := C140_stages hL hδ number env env' hlib hlib' hr hm hg fs hfs g program input hi hw (a := a') (b := b)
    (by rw [C56_content env.libs fs input file .Png (hfs.2.1 _) hc hmag]; exact d1)
    (by rw [C56_content env'.libs fs input file .Png (hfs.2.1 _) hc hmag]; exact d2) k (sh.width ▸ h0) (sh.height ▸ h1)
  rwa [sh.width, sh.height] at key

end

/-! ## The hypotheses can be met -/

/-- A file system with three files, one of them a picture. -/
def threeFilesFS : FS where
  node p := if p = "in.png" then 0 else if p = "first.png" then 1 else 2
  content n := some (if n = 0 then [0x89, 0x50, 0x4E, 0x47, 0x0D, 0x0A, 0x1A, 0x0A, 2, 1, 2, 0, 200, 100, 7, 0, 255, 31] else [])
  readErr _ := none
  writeErr _ := none
  settle _ bytes := bytes

theorem first_named : Named "first.png" .Png := (C55_from_path "first.png" .Png).1 (by decide)

/-- `d10 in.png -rgb-noise 0.5 first.png -gamma 0.5 out.png` on an accurate platform: no byte of either pair of files differs by 2, so
none differs by more than 1, and the input is untouched. -/
example [Junk] [FloatBytes ℝ] : letI := nearestPow
    ∃ fs1 fs2 g' out1 out2,
      main onlyHalf noisyEnv threeFilesFS 0 ["d10", "in.png", "-rgb-noise", "0.5", "first.png", "-gamma", "0.5", "out.png"] =
        (fs1, g', out1, .ok ⟨[], 0⟩) ∧
      main (exactNumber onlyHalf) noisyExactEnv threeFilesFS 0
        ["d10", "in.png", "-rgb-noise", "0.5", "first.png", "-gamma", "0.5", "out.png"] = (fs2, g', out2, .ok ⟨[], 0⟩) ∧
      SavedAlike rawPng rawPng fs1 fs2 1 2 1 2 ∧ SavedAlike rawPng rawPng fs1 fs2 2 2 1 2 ∧
      fs1.content 0 = threeFilesFS.content 0 := by
  let _ := nearestPow
  have v : (FP.ofRat b32 false (1 / 2)).val = 1 / 2 := by decide +kernel
  have fin : (FP.ofRat b32 false (1 / 2)).fin = true := by decide +kernel
  have hw : StagedLine onlyHalf (1 / 1048576) onesAndZeros 1 0 ["-rgb-noise", "0.5", "first.png", "-gamma", "0.5", "out.png"] _ :=
    .save _ _ ["-rgb-noise", "0.5"] _ _ "first.png" ["-gamma", "0.5", "out.png"] _
      (.cons ["-rgb-noise", "0.5"] (.RgbNoise _) _ _ [] _ _
        (.number "-rgb-noise" "0.5" "rgb-noise" .RgbNoise _ .rgb_noise (by decide) rfl) (.rgb_noise _ fin) .nil)
      (not_dashed (by decide)) first_named
      (.save _ _ ["-gamma", "0.5"] _ _ "out.png" [] _
        (.cons ["-gamma", "0.5"] (.Gamma _) _ _ [] _ _
          (.number "-gamma" "0.5" "gamma" .Gamma _ .gamma (by decide) rfl)
          (.colour _ _ _ _ (.gamma _ fin (by rw [v]; norm_num) (by rw [v]; norm_num))) .nil)
        (not_dashed (by decide)) out_named (.nil _ _))
  obtain ⟨fs1, fs2, g', out1, out2, m1, m2, sv, ot⟩ := C140_png nearestPow_within (by norm_num) onlyHalf noisyEnv noisyExactEnv
    rawPng_lossless rawPng_lossless rfl (by norm_num) onesAndZeros_range threeFilesFS ⟨fun _ _ => rfl, fun _ => rfl, fun _ => rfl⟩ 0
    "d10" "in.png" (not_dashed (by decide)) hw .Rgb8 (w := 2) (h := 1) (data := [200, 100, 7, 0, 255, 31]) rfl
    rfl ⟨_, rfl⟩ rfl rfl rfl rfl (by norm_num [ValidSize]) (by decide) (by decide) rfl rfl rfl (by decide)
  have wider : ∀ {n e}, SavedAlike (rawPng : Libs F32) (rawPng : Libs ℝ) fs1 fs2 n 2 1 e → e ≤ 2 → SavedAlike rawPng rawPng fs1 fs2 n 2 1 2 := by
    rintro n e ⟨f1, f2, r1, r2, d1, d2, a1, a2, a3, a4, a5, a6, a7, a8, a9⟩ he
    exact ⟨f1, f2, r1, r2, d1, d2, a1, a2, a3, a4, a5, a6, a7, a8, a9.imp fun _ _ h => lt_of_lt_of_le h he⟩
  refine ⟨fs1, fs2, g', out1, out2, m1, m2, wider (sv [] "first.png" _ _ _ rfl ?_) ?_, wider (sv [_] "out.png" _ _ _ rfl ?_) ?_, (ot 0 ?_).1⟩
  · intro q hq
    rw [List.mem_singleton.1 hq]
    decide
  · unfold lineError
    norm_num
  · intro q hq
    cases hq
  · rw [v]
    unfold lineError
    norm_num
  · intro q hq
    rcases List.mem_cons.1 hq with rfl | hq
    · decide
    · rw [List.mem_singleton.1 hq]
      decide

end D10
