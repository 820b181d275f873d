import Verif.SpecEndToEnd
import Verif.Props.Cli
import Verif.Props.SaveOpen

/-! # C94: a whole run of the command line, from the words to the files -/

namespace D10
open Spec

section
variable {σ F : Type} [Scalar F] [FloatBytes F]

omit [FloatBytes F] in
theorem ColourOptions.line {number : String → Option F} {words : List String}
    {cmds : List (Cmd F String)} {f : Col F → Col F} (h : ColourOptions number words cmds f)
    {rest : List String} {more : List (Cmd F String)} (hr : LineMeans id number false rest more) :
    LineMeans id number false (words ++ rest) (cmds ++ more) := by
  induction h with
  | nil => exact hr
  | cons words cmd f rest cmds g h1 _ _ ih =>
    rw [List.append_assoc]
    exact .cons _ _ _ _ _ (.option _ _ _ h1) ih

omit [FloatBytes F] in
theorem ColourOptions.not_silent {number : String → Option F} {words : List String}
    {cmds : List (Cmd F String)} {f : Col F → Col F} (h : ColourOptions number words cmds f) :
    ∀ c ∈ cmds, c ≠ .Silent := by
  induction h with
  | nil => intro c hc; cases hc
  | cons words cmd f rest cmds g h1 h2 _ ih =>
    intro c hc
    rcases List.mem_cons.1 hc with rfl | hc
    · rintro rfl; cases h2
    · exact ih c hc

theorem ColourOptions.runs (env : Env σ F) {number : String → Option F} {words : List String}
    {cmds : List (Cmd F String)} {f : Col F → Col F} (h : ColourOptions number words cmds f)
    {wd ht : Nat} (fs : FS) (g : σ) : ∀ {img : Image F} {px : Nat → Nat → Col F},
    Shows img.buffer wd ht px →
    ∃ img', Runs env cmds ⟨fs, g, some img⟩ ⟨fs, g, some img'⟩ success ∧
      Shows img'.buffer wd ht fun x y => f (px x y) := by
  induction h with
  | nil => exact fun {img} _ s => ⟨img, .nil _, s⟩
  | cons words cmd f rest cmds k h1 h2 _ ih =>
    intro img px s
    obtain ⟨img1, d1, s1, -⟩ := C60_recolour env h2 ⟨fs, g, some img⟩ rfl s
    obtain ⟨img2, d2, s2⟩ := ih s1
    exact ⟨img2, .next _ _ _ _ _ _ d1 d2, s2⟩

omit [FloatBytes F] in
/-- The commands of `input words output`. -/
theorem whole_line {number : String → Option F} {input output : String} {words : List String}
    {cmds : List (Cmd F String)} {f : Col F → Col F} (hi : ¬ Dashed id input)
    (ho : ¬ Dashed id output) (h : ColourOptions number words cmds f) :
    LineMeans id number true (input :: words ++ [output]) (.Open input :: (cmds ++ [.Save output])) :=
  .cons true [input] _ _ _ (.input _ hi)
    (ColourOptions.line h (.cons _ [output] _ [] [] (.output _ ho) (.nil _)))

/-- The end of the process, given the result of the commands. -/
def ending : R (Except CommandError Unit) → R Exit
  | .ok (.ok ()) => .ok ⟨[], 0⟩
  | .ok (.error e) => .ok ⟨[e.display], 1⟩
  | .error p => .error p

/-- How `main` ends with right arguments, read off a run by the rules. -/
theorem main_runs {number : String → Option F} {env : Env σ F} {fs : FS} {g : σ} {program : String}
    {args : List String} {cmds : List (Cmd F String)} (hne : args ≠ [])
    (hl : LineMeans id number true args cmds) {w : World σ F} {r : R (Except CommandError Unit)}
    (hr : Runs env cmds ⟨fs, g, none⟩ w r) :
    ∃ out, main number env fs g (program :: args) = (w.fs, w.rng, out, ending r) ∧
      (r = success → (∀ c ∈ cmds, c ≠ .Silent) → out = progress env.debug cmds.length cmds) := by
  obtain ⟨s, hs, e1, e2, -⟩ := (C60_run env fs g [] ⟨cmds⟩ _ _).1 hr
  have hlen : (program :: args).length ≠ 1 := by
    cases args with
    | nil => exact absurd rfl hne
    | cons => simp
  refine ⟨s.out, ?_, fun hr' hc => ?_⟩
  · unfold main
    rw [if_neg hlen, (C63_ok id number (program :: args) cmds).2 hl]
    simp only [hs]
    rcases r with p | (e | ⟨⟩) <;> simp only [e1, e2, ending]
  · subst hr'
    have := C62_all env fs g [] ⟨cmds⟩ s hc hs
    rwa [List.nil_append] at this

/-- `d10 input options output.png` with options that change colours: if the input can be read as a
picture, then the program prints a line for every step, ends with code 0 and no message, and draws no
random numbers; the output file, opened again, shows the picture in which every pixel went through the
options from left to right and was stored in 8 bits; and no other file has changed. The output may be
the input. -/
theorem C94_convert (number : String → Option F) (env : Env σ F) (hlib : Lossless env.libs) (fs : FS)
    (hfs : Reliable fs) (g : σ) (program input output : String) (hi : ¬ Dashed id input)
    (ho : ¬ Dashed id output) (hn : Named output .Png) {words : List String}
    {cmds : List (Cmd F String)} {f : Col F → Col F} (hw : ColourOptions number words cmds f)
    {b : PixelBuffer (Col F)} (hb : (decode_file env.libs fs input).run = .ok (.ok b)) {wd ht : Nat}
    {px : Nat → Nat → Col F} (sh : Shows b wd ht px) (h0 : 0 < wd) (h1 : 0 < ht) :
    ∃ fs', main number env fs g (program :: input :: words ++ [output]) = (fs', g,
        progress env.debug (cmds.length + 2) (.Open input :: (cmds ++ [.Save output])),
        .ok ⟨[], 0⟩) ∧
      (∀ path, fs.node path = fs.node output → ∃ b',
        (decode_file env.libs fs' path).run = .ok (.ok b') ∧
        Shows b' wd ht (fun x y => stored (f (px x y)) .Rgba8)) ∧
      (∀ n, n ≠ fs.node output → fs'.content n = fs.content n) ∧ fs'.node = fs.node := by
  obtain ⟨img, r1, s1⟩ := ColourOptions.runs env hw fs g (img := ⟨b, none⟩) sh
  have hE : ∃ fs', encode_to_file env.libs fs output img.buffer (some (usual .Png)) =
      (fs', .ok (.ok ())) := by
    obtain ⟨fs', _, h, -⟩ := C78_png env.libs hlib fs hfs output output rfl s1 h0 h1 .Rgba8
      (by decide) .Default .Sub
    exact ⟨fs', h⟩
  obtain ⟨fs', he⟩ := hE
  have hs := he
  rw [← C57_by_name env.libs fs output img.buffer .Png hn] at hs
  obtain ⟨c1, c2, -⟩ := C57_other_files env.libs fs output img.buffer _ fs' _ hs
  have hrun : Runs env (.Open input :: (cmds ++ [.Save output])) ⟨fs, g, none⟩ ⟨fs', g, some img⟩
      success :=
    .next _ _ _ _ _ _ (.opened _ _ _ hb)
      ((C60_append env cmds _ _ _ _).2 (.inl ⟨_, r1, .next _ _ _ _ _ _ (.saved _ _ _ _ rfl hs) (.nil _)⟩))
  obtain ⟨out, m1, m2⟩ := main_runs (program := program) (by simp) (whole_line hi ho hw) hrun
  have hout := m2 rfl (by
    intro c hc
    rcases List.mem_cons.1 hc with rfl | hc
    · exact nofun
    · rcases List.mem_append.1 hc with hc | hc
      · exact ColourOptions.not_silent hw c hc
      · rw [List.mem_singleton.1 hc]; exact nofun)
  refine ⟨fs', ?_, fun path hp => ?_, c1, c2⟩
  · have hl : (Cmd.Open input :: (cmds ++ [Cmd.Save output])).length = cmds.length + 2 := by simp
    rw [hl] at hout
    rw [← hout]
    exact m1
  · obtain ⟨fs3, b3, q1, q2, q3⟩ := C78_png env.libs hlib fs hfs output path hp s1 h0 h1 .Rgba8
      (by decide) .Default .Sub
    have e2 : fs3 = fs' := congrArg Prod.fst (q1.symm.trans he)
    subst e2
    exact ⟨b3, q2, q3⟩

/-- If the input cannot be read as a picture, the program says why and ends with code 1, and every file
is as it was. -/
theorem C94_bad_input (number : String → Option F) (env : Env σ F) (fs : FS) (g : σ)
    (program input output : String) (hi : ¬ Dashed id input) (ho : ¬ Dashed id output)
    {words : List String} {cmds : List (Cmd F String)} {f : Col F → Col F}
    (hw : ColourOptions number words cmds f) (e : DecodingError)
    (hb : (decode_file env.libs fs input).run = .ok (.error e)) :
    ∃ out, main number env fs g (program :: input :: words ++ [output]) =
      (fs, g, out, .ok ⟨[e.display], 1⟩) := by
  obtain ⟨out, m1, -⟩ := main_runs (program := program) (by simp) (whole_line hi ho hw)
    (.stop _ _ _ _ _ (.not_opened input ⟨fs, g, none⟩ e hb) nofun)
  exact ⟨out, m1⟩

/-- If the name of the output has no known extension, or the file cannot be created, the program says
so and ends with code 1, and every file is as it was. -/
theorem C94_bad_output (number : String → Option F) (env : Env σ F) (fs : FS) (g : σ)
    (program input output : String) (hi : ¬ Dashed id input) (ho : ¬ Dashed id output)
    {words : List String} {cmds : List (Cmd F String)} {f : Col F → Col F}
    (hw : ColourOptions number words cmds f) {b : PixelBuffer (Col F)}
    (hb : (decode_file env.libs fs input).run = .ok (.ok b)) {wd ht : Nat}
    {px : Nat → Nat → Col F} (sh : Shows b wd ht px) :
    ((∀ k, ¬ Named output k) → ∃ out, main number env fs g (program :: input :: words ++ [output]) =
      (fs, g, out, .ok ⟨["Bad file extension: " ++ output], 1⟩)) ∧
    (∀ k msg, Named output k → fs.writeErr (fs.node output) = some msg →
      ∃ out, main number env fs g (program :: input :: words ++ [output]) =
        (fs, g, out, .ok ⟨[msg], 1⟩)) := by
  obtain ⟨img, r1, s1⟩ := ColourOptions.runs env hw fs g (img := ⟨b, none⟩) sh
  have key : ∀ e, encode_to_file env.libs fs output img.buffer none = (fs, .ok (.error e)) →
      ∃ out, main number env fs g (program :: input :: words ++ [output]) =
        (fs, g, out, .ok ⟨[e.display], 1⟩) := by
    intro e he
    obtain ⟨out, m1, -⟩ := main_runs (program := program) (by simp) (whole_line hi ho hw)
      (w := ⟨fs, g, some img⟩) (r := failure (.Encoding e))
      (.next _ _ _ _ _ _ (.opened _ _ _ hb)
        ((C60_append env cmds _ _ _ _).2 (.inl ⟨_, r1, .stop _ _ _ _ _
          (.not_saved _ _ _ _ _ rfl he) nofun⟩)))
    exact ⟨out, m1⟩
  constructor
  · intro hn
    exact key _ (C57_bad_extension env.libs fs output img.buffer hn)
  · intro k msg hn hm
    refine key (.IoError msg) ?_
    rw [C57_by_name env.libs fs output img.buffer k hn]
    exact C57_not_created env.libs fs output img.buffer _ msg hm

/-! ## The hypotheses can be met -/

/-- An environment with a PNG library that reads what it wrote. -/
def rawEnv : Env Unit F := { (demoEnv : Env Unit F) with libs := rawPng }

omit [FloatBytes F] in
theorem out_named : Named "out.png" .Png := (C55_from_path "out.png" .Png).1 (by decide)

omit [FloatBytes F] in
/-- `-invert -gamma 1` -/
theorem demo_options : ColourOptions (onlyOne : String → Option F) ["-invert", "-gamma", "1"]
    [.Invert, .Gamma (Scalar.lit 1)] fun c => Rgb.with_gamma (Rgb.invert c) (Scalar.lit 1) :=
  .cons ["-invert"] .Invert (fun c => Rgb.invert c) ["-gamma", "1"] [.Gamma (Scalar.lit 1)]
    (fun c => Rgb.with_gamma c (Scalar.lit 1)) (.invert "-invert" (by decide)) .invert
    (.cons ["-gamma", "1"] (.Gamma (Scalar.lit 1)) _ [] [] _
      (.number "-gamma" "1" "gamma" .Gamma _ .gamma (by decide) rfl) (.gamma _) .nil)

omit [FloatBytes F] in
/-- The file `dir.png/.png` of `demoFS` is a JPEG file with a picture of one pixel. -/
theorem demo_input : ∃ (b : PixelBuffer (Col F)) (wd ht : Nat) (px : Nat → Nat → Col F),
    (decode_file (rawEnv : Env Unit F).libs demoFS "dir.png/.png").run = .ok (.ok b) ∧
      Shows b wd ht px ∧ 0 < wd ∧ 0 < ht := by
  show ∃ b wd ht px, (decode_file (rawPng : Libs F) demoFS "dir.png/.png").run = _ ∧ _
  rw [C56_content (rawPng : Libs F) demoFS "dir.png/.png" _ .Jpeg rfl rfl ⟨[], rfl⟩]
  obtain ⟨b, hb, sh⟩ := C50_read_jpeg (rawPng : Libs F) (input := [0xFF, 0xD8, 0xFF]) rfl rfl rfl
    (by simp [ValidSize])
  exact ⟨b, _, _, _, hb, sh, by decide, by decide⟩

example : ∃ fs' out, main (onlyOne : String → Option F) rawEnv demoFS ()
    ["d10", "dir.png/.png", "-invert", "-gamma", "1", "out.png"] = (fs', (), out, .ok ⟨[], 0⟩) := by
  obtain ⟨b, wd, ht, px, hb, sh, h0, h1⟩ := demo_input (F := F)
  obtain ⟨fs', h, -⟩ := C94_convert (onlyOne : String → Option F) rawEnv rawPng_lossless demoFS
    ⟨fun _ _ => rfl, fun _ => rfl, fun _ => rfl⟩ () "d10" "dir.png/.png" "out.png"
    (not_dashed (by decide)) (not_dashed (by decide)) out_named demo_options hb sh h0 h1
  exact ⟨fs', _, h⟩
example := C94_bad_input (onlyOne : String → Option F) rawEnv
  { demoFS with readErr := fun _ => some "denied" } () "d10" "in.png" "out.png"
  (not_dashed (by decide)) (not_dashed (by decide)) demo_options (.IoError "denied")
  ((C56_unreadable _ _ _).1 _ rfl)
example : ∃ out, main (onlyOne : String → Option F) rawEnv demoFS ()
    ["d10", "dir.png/.png", "-invert", "-gamma", "1", "dir.png/.png"] =
      (demoFS, (), out, .ok ⟨["Bad file extension: dir.png/.png"], 1⟩) := by
  obtain ⟨b, wd, ht, px, hb, sh, -⟩ := demo_input (F := F)
  exact (C94_bad_output (onlyOne : String → Option F) rawEnv demoFS () "d10" "dir.png/.png"
    "dir.png/.png" (not_dashed (by decide)) (not_dashed (by decide)) demo_options hb sh).1
    unnamed_example

end
end D10
