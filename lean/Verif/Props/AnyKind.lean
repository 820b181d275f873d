import Verif.SpecAnyKind
import Verif.Props.Convert
import Verif.Props.FileKinds

/-!
# C132: what a run of the command line writes to any kind of file
-/

namespace D10
open Spec
open Scalar (lit)

section
variable [Libm b32] [Junk]

/-- **Levels.** They follow exact levels if black and white are at least `1 / 2 ^ m` apart. -/
theorem C132_level {δ : ℝ} (hL : PowWithin δ) {b w g : F32} {m : ℕ} (hm : m ≤ 12)
    (hb : b.fin = true ∧ 0 ≤ b.val ∧ b.val ≤ 1) (hw : w.fin = true ∧ 0 ≤ w.val ∧ w.val ≤ 1)
    (hd : 1 / 2 ^ m ≤ |(w.val : ℝ) - b.val|) (hg : g.fin = true) (g0 : 1 / 2 ^ 100 ≤ g.val) (g1 : g.val ≤ 1) :
    Follows (1 / (g.val : ℝ) * 2 ^ m) (1 / (g.val : ℝ) * ((4 ^ m + 3 * 2 ^ m) / 2 ^ 24) + (δ + 1 / 2 ^ 23))
      (Rgb.with_level · b w g) (Rgb.with_level · b.val w.val g.val) := by
  have e23 : (2 : ℝ) ^ 23 = 8388608 := by norm_num
  rw [e23]
  exact follows_level hL hm hb hw hd hg g0 g1

variable [FloatBytes ℝ]

/-- The save itself, on both sides. -/
theorem saving_alike {δ ε : ℝ} (hL : PowWithin δ) (hδ : δ ≤ 1 / 1024) {a : PixelBuffer (Col F32)} {b : PixelBuffer (Col ℝ)}
    (h : Alike ε a b) (libs : Libs F32) (libs' : Libs ℝ) (k : Format)
    (hs : k = .Jpeg ∨ k = .Gif → b.width ≤ 65535 ∧ b.height ≤ 65535) :
    ∃ data data', encode libs a (usual k) = .ok (saving libs k b.width b.height data) ∧
      encode libs' b (usual k) = .ok (saving libs' k b.width b.height data') ∧
      OffBy (storedError (savedAs k) ε δ) (samplesFor k data) (samplesFor k data') := by
  have sz : a.width = b.width ∧ a.height = b.height := by
    obtain ⟨w, h, px, ex, s, t, -⟩ := h.same
    exact ⟨by rw [s.width, t.width], by rw [s.height, t.height]⟩
  cases k with
  | Jpeg =>
    obtain ⟨s1, s2⟩ := hs (.inl rfl)
    have := C131_jpeg hL hδ h libs libs' (by omega) (by omega) 85 false none false true
    rw [sz.1, sz.2] at this
    exact this
  | Png =>
    have := C131_png hL hδ h libs libs' .Rgba8 (by decide) .Default .Sub
    rw [sz.1, sz.2] at this
    exact this
  | Gif =>
    obtain ⟨s1, s2⟩ := hs (.inr rfl)
    have := C131_gif hL hδ h libs libs' (by omega) (by omega)
    rw [sz.1, sz.2] at this
    exact this
  | Bmp =>
    obtain ⟨d, d', h1, h2, -, -, o⟩ := C131_image hL hδ h libs libs' .Rgba8
    rw [sz.1, sz.2] at h1 h2
    exact ⟨d, d', h1, h2, o⟩
  | Ico =>
    obtain ⟨d, d', -, -, h1, h2, o⟩ := C131_image hL hδ h libs libs' .Rgba8
    rw [sz.1, sz.2] at h1 h2
    exact ⟨d, d', h1, h2, o⟩
  | WebP =>
    have := C131_webp hL hδ h libs libs' 90 .Default
    rw [sz.1, sz.2] at this
    exact this

/-- **The last save.** Whatever the arguments before it mean: if they lead to a picture that is alike to an exact one
(C127, C128, C130), then saving it hands over samples that are off by less than `storedError` from those of the exact
picture, to the library for the kind of file that the name says. What the library wrote is in the file, and its result
decides how the program ends. -/
theorem C132_save {σ : Type} {δ ε : ℝ} (hL : PowWithin δ) (hδ : δ ≤ 1 / 1024) (number : String → Option F32) (env : Env σ F32)
    (fs fs1 : FS) (g g1 : σ) (program output : String) (k : Format) (hn : Named output k) {args : List String}
    {cmds : List (Cmd F32 String)} (hl : LineMeans id number true args (cmds ++ [.Save output])) {img : Image F32}
    (hr : Runs env cmds ⟨fs, g, none⟩ ⟨fs1, g1, some img⟩ success) {e : PixelBuffer (Col ℝ)} (ha : Alike ε img.buffer e)
    (hs : k = .Jpeg ∨ k = .Gif → e.width ≤ 65535 ∧ e.height ≤ 65535) (hw : fs1.writeErr (fs1.node output) = none)
    (libs' : Libs ℝ) :
    ∃ fs' out data data', encode libs' e (usual k) = .ok (saving libs' k e.width e.height data') ∧
      OffBy (storedError (savedAs k) ε δ) (samplesFor k data) (samplesFor k data') ∧
      main number env fs g (program :: args) =
        (fs', g1, out, .ok (endOf (saving env.libs k e.width e.height data).result)) ∧
      fs'.content (fs1.node output) = some (fs1.settle (fs1.node output) (saving env.libs k e.width e.height data).bytes) := by
  obtain ⟨data, data', h1, h2, o⟩ := saving_alike hL hδ ha env.libs libs' k hs
  obtain ⟨fs', he, hcont⟩ := (C57_created env.libs fs1 output img.buffer (usual k) hw).1 _ h1
  rw [← C57_by_name env.libs fs1 output img.buffer k hn] at he
  have hne : args ≠ [] := by
    rintro rfl
    generalize hq : cmds ++ [Cmd.Save output] = q at hl
    generalize hp : ([] : List String) = p at hl
    cases hl with
    | nil => simp at hq
    | cons _ ws _ rest _ h =>
      have hws : ws = [] := (List.append_eq_nil_iff.1 hp.symm).1
      subst hws
      generalize hz : ([] : List String) = z at h
      cases h with
      | option _ _ _ h => subst hz; generalize hz : ([] : List String) = z at h; cases h <;> exact nomatch hz
      | _ => exact nomatch hz
  cases hres : (saving env.libs k e.width e.height data).result with
  | ok u =>
    rw [hres] at he
    obtain ⟨out, m1, -⟩ := main_runs (program := program) hne hl
      ((C60_append env cmds _ _ _ _).2 (.inl ⟨_, hr, .next _ _ _ _ _ _ (.saved _ _ _ _ rfl he) (.nil _)⟩))
    exact ⟨fs', out, data, data', h2, o, by rw [hres]; exact m1, hcont⟩
  | error x =>
    rw [hres] at he
    obtain ⟨out, m1, -⟩ := main_runs (program := program) hne hl (r := failure (.Encoding x))
      ((C60_append env cmds _ _ _ _).2 (.inl ⟨_, hr, .stop _ _ _ _ _ (.not_saved _ _ _ _ _ rfl he) nofun⟩))
    exact ⟨fs', out, data, data', h2, o, by rw [hres]; exact m1, hcont⟩

/-- **From any kind of file to any kind of file.** `d10 input options output`, with options that change colours
(C129): if the input, read as a picture of numbers, is alike to an exact one up to `ε` (C127, C131), then the library for
the kind of the output is given samples that are less than `storedError` for `L ε + η` away from those of the exact
formulas on the exact picture; what it writes is in the output file, and the program ends with code 0 if the library
succeeds and with code 1 and its message if not. -/
theorem C132_convert {σ : Type} {δ ε : ℝ} (hL : PowWithin δ) (hδ : δ ≤ 1 / 1024) (number : String → Option F32) (env : Env σ F32)
    (fs : FS) (g : σ) (program input output : String) (hi : ¬ Dashed id input) (ho : ¬ Dashed id output)
    {words cmds f L η} (hw : ExactOptions number δ words cmds f L η)
    {file : List Nat} (hc : fs.content (fs.node input) = some file) (hre : fs.readErr (fs.node input) = none)
    (kin : Format) (hm : Magic kin file) {a : PixelBuffer (Col F32)} {b : PixelBuffer (Col ℝ)}
    (hd : (decode env.libs file kin).run = .ok (.ok a)) (ha : Alike ε a b) {w h : Nat} {px : Nat → Nat → Col ℝ}
    (sb : Shows b w h px) (kout : Format) (hn : Named output kout)
    (hs : kout = .Jpeg ∨ kout = .Gif → w ≤ 65535 ∧ h ≤ 65535) (hwr : fs.writeErr (fs.node output) = none)
    {e : PixelBuffer (Col ℝ)} (se : Shows e w h (fun x y => f (px x y))) (libs' : Libs ℝ) :
    ∃ fs' out data data', encode libs' e (usual kout) = .ok (saving libs' kout w h data') ∧
      OffBy (storedError (savedAs kout) (L * ε + η) δ) (samplesFor kout data) (samplesFor kout data') ∧
      main number env fs g (program :: input :: words ++ [output]) =
        (fs', g, out, .ok (endOf (saving env.libs kout w h data).result)) ∧
      fs'.content (fs.node output) = some (fs.settle (fs.node output) (saving env.libs kout w h data).bytes) := by
  obtain ⟨k, k1, k2⟩ := ExactOptions.follows hL hw
  obtain ⟨w', h', pa, pb, s, t, al⟩ := ha.same
  obtain ⟨rfl, rfl⟩ : w' = w ∧ h' = h := ⟨by rw [← t.width, sb.width], by rw [← t.height, sb.height]⟩
  have hb : (decode_file env.libs fs input).run = .ok (.ok a) := by
    rw [C56_content env.libs fs input file kin hre hc hm]; exact hd
  obtain ⟨img, q1, s1⟩ := ColourOptions.runs env k1 fs g (img := ⟨a, none⟩) s
  have al' : Alike (L * ε + η) img.buffer e := by
    refine ⟨_, _, _, _, s1, se, fun x y hx hy => ?_⟩
    obtain ⟨u1, u2, u3⟩ := al x y hx hy
    have : pb x y = px x y := Option.some_injective _ ((t.getElem? hx hy).symm.trans (sb.getElem? hx hy))
    rw [this] at u2 u3
    exact ⟨k2.range _ u1, k2.range_exact _ u2, k2.close _ _ _ u1 u2 u3⟩
  have := C132_save hL hδ number env fs fs g g program output kout hn (args := input :: words ++ [output])
    (cmds := .Open input :: cmds) (whole_line hi ho k1) (img := img)
    (.next _ _ _ _ _ _ (.opened _ _ _ hb) q1) al' (by rw [se.width, se.height]; exact hs) hwr libs'
  rwa [se.width, se.height] at this

end

/-! ## The hypotheses can be met -/

/-- A grammar of numbers with two numbers. -/
def halfAndZero (s : String) : Option F32 :=
  if s = "0.5" then some (FP.ofRat b32 false (1 / 2)) else if s = "0" then some (FP.ofRat b32 false 0) else none

theorem ico_named : Named "out.ICO" .Ico := (C55_from_path "out.ICO" .Ico).1 (by decide)

/-- `d10 in.png -level 0.5,0,0.5 out.ICO`, where black is brighter than white, on an accurate platform: no byte that is
handed to the encoder for icons is off by more than one. -/
example [Junk] [FloatBytes ℝ] (libs' : Libs ℝ) : letI := nearestPow
    ∃ b : PixelBuffer (Col ℝ), (decode (rawPng : Libs ℝ)
        [0x89, 0x50, 0x4E, 0x47, 0x0D, 0x0A, 0x1A, 0x0A, 2, 1, 2, 0, 200, 100, 7, 0, 255, 31] .Png).run = .ok (.ok b) ∧
      ∀ w h px, Shows b w h px → ∀ e : PixelBuffer (Col ℝ),
        Shows e w h (fun x y => Rgb.with_level (px x y) (1 / 2) 0 (1 / 2)) →
        ∃ fs' out data data', encode libs' e (.Ico .Rgba8) = .ok (libs'.ico_write ⟨data', w, h, .Rgba8⟩) ∧ OffBy 2 data data' ∧
          main halfAndZero rawEnv twoPixelFS () ["d10", "in.png", "-level", "0.5,0,0.5", "out.ICO"] =
            (fs', (), out, .ok ⟨[], 0⟩) ∧
          fs'.content 1 = some data := by
  let _ := nearestPow
  have v : (FP.ofRat b32 false (1 / 2)).val = 1 / 2 := by decide +kernel
  have fin : (FP.ofRat b32 false (1 / 2)).fin = true := by decide +kernel
  have v0 : (FP.ofRat b32 false 0).val = 0 := by decide +kernel
  have fin0 : (FP.ofRat b32 false 0).fin = true := by decide +kernel
  obtain ⟨a, b, d1, d2, al⟩ := (C127_open nearestPow_within (rawPng : Libs F32) (rawPng : Libs ℝ)
    [0x89, 0x50, 0x4E, 0x47, 0x0D, 0x0A, 0x1A, 0x0A, 2, 1, 2, 0, 200, 100, 7, 0, 255, 31]).1 _ 2 1 .Rgb8
    [200, 100, 7, 0, 255, 31] rfl rfl rfl rfl rfl (Or.inr (by norm_num)) rfl rfl rfl (by decide)
  refine ⟨b, d2, fun w h px sb e se => ?_⟩
  have hw : ExactOptions halfAndZero (1 / 1048576) ["-level", "0.5,0,0.5"] _ _ _ _ :=
    .cons ["-level", "0.5,0,0.5"] (.Level _ _ _) _ _ _ [] [] _ _ _
      (.level "-level" "0.5,0,0.5" (FP.ofRat b32 false (1 / 2)) (FP.ofRat b32 false 0) (FP.ofRat b32 false (1 / 2)) (by decide)
        ⟨["0.5", "0", "0.5"], by decide, .cons ⟨by decide, rfl⟩ (.cons ⟨by decide, rfl⟩ (.cons ⟨by decide, rfl⟩ .nil))⟩)
      (.level _ _ _ 1 fin (by rw [v]; norm_num) (by rw [v]; norm_num) fin0 (by rw [v0]) (by rw [v0]; norm_num) (by norm_num)
        (by rw [v, v0]; norm_num) fin (by rw [v]; norm_num) (by rw [v]; norm_num)) .nil
  obtain ⟨fs', out, data, data', h1, h2, h3, h4⟩ := C132_convert nearestPow_within (by norm_num) halfAndZero
    rawEnv twoPixelFS () "d10" "in.png" "out.ICO" (not_dashed (by decide)) (not_dashed (by decide)) hw
    (file := [0x89, 0x50, 0x4E, 0x47, 0x0D, 0x0A, 0x1A, 0x0A, 2, 1, 2, 0, 200, 100, 7, 0, 255, 31]) rfl rfl .Png ⟨_, rfl⟩ d1 al sb
    .Ico ico_named (by simp) rfl (e := e) (by
      rw [v, v0]
      push_cast
      exact se) libs'
  refine ⟨fs', out, data, data', h1, ?_, h3, h4⟩
  refine List.Forall₂.imp (fun a b h => lt_of_lt_of_le h ?_) h2
  rw [v, show savedAs .Ico = .Rgba8 from rfl]
  norm_num [storedError, sampleSize, grayCost]

end D10
