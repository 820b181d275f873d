import Verif.SpecPanic
import Verif.Props.EndToEnd
import Verif.Props.Sample
import Verif.Props.Noise

/-! # C106: when the command line panics -/

namespace D10
open Spec

section
variable {σ F : Type} [Scalar F]

/-- Opening a file panics exactly if it holds a huge JPEG picture, and always in the same way;
otherwise there is an error, or a picture whose size and data agree. -/
theorem C106_open (libs : Libs F) (hl : Honest libs) (fs : FS) (path : String) :
    (HugeJpeg libs fs path → (decode_file libs fs path).run = .error .invalidSize) ∧
    (¬ HugeJpeg libs fs path → (∃ e, (decode_file libs fs path).run = .ok (.error e)) ∨
      ∃ b, (decode_file libs fs path).run = .ok (.ok b) ∧ WellFormed b) := by
  constructor
  · rintro ⟨bytes, hr, hc, hm, data, info, h1, h2, hv⟩
    have : decode_file libs fs path = decode libs bytes .Jpeg := by
      rcases hm with hm | ⟨hm, hn⟩
      · exact C56_content libs fs path bytes .Jpeg hr hc hm
      · exact C56_name libs fs path bytes .Jpeg hr hc hm hn
    rw [this]
    exact C77_jpeg_panics libs hl bytes data info h1 h2 hv
  · intro hh
    cases hr : fs.readErr (fs.node path) with
    | some e => exact .inl ⟨_, (C56_unreadable libs fs path).1 e hr⟩
    | none =>
      cases hc : fs.content (fs.node path) with
      | none =>
        obtain ⟨e, he⟩ := (C56_unreadable libs fs path).2 hr hc
        exact .inl ⟨_, he⟩
      | some bytes =>
        by_cases hm : ∃ f, Magic f bytes
        · obtain ⟨f, hm⟩ := hm
          rw [C56_content libs fs path bytes f hr hc hm]
          refine C77_no_panic libs hl bytes f ?_
          rintro rfl data info h1 h2
          by_contra hv
          exact hh ⟨bytes, hr, hc, .inl hm, data, info, h1, h2, hv⟩
        · push Not at hm
          by_cases hn : ∃ f, Named path f
          · obtain ⟨f, hn⟩ := hn
            rw [C56_name libs fs path bytes f hr hc hm hn]
            refine C77_no_panic libs hl bytes f ?_
            rintro rfl data info h1 h2
            by_contra hv
            exact hh ⟨bytes, hr, hc, .inr ⟨hm, hn⟩, data, info, h1, h2, hv⟩
          · push Not at hn
            exact .inl ⟨_, C56_unknown libs fs path bytes hr hc hm hn⟩

/-- Encoding never panics, in any format and with any settings. -/
theorem C106_encode [FloatBytes F] (libs : Libs F) {b : PixelBuffer (Col F)} (hb : WellFormed b)
    (format : EncodingFormat) : ∃ w, encode libs b format = .ok w := by
  cases format
  case Gif =>
    by_cases h : b.width ≤ 65535 ∧ b.height ≤ 65535
    · obtain ⟨data, e, -⟩ := C50_gif libs (shows_of_wellFormed hb) h.1 h.2
      exact ⟨_, e⟩
    · refine ⟨⟨[], .error (.BadDimensions "gif" b.width b.height)⟩, ?_⟩
      show encode_gif libs b = _
      unfold encode_gif
      simp only []
      rw [if_pos (by omega)]
  all_goals exact ⟨_, rfl⟩

/-- So saving never panics: the file system afterwards comes with a success or an error. -/
theorem C106_save [FloatBytes F] (libs : Libs F) (fs : FS) (path : String)
    {b : PixelBuffer (Col F)} (hb : WellFormed b) (format : Option EncodingFormat) :
    ∃ fs' r, encode_to_file libs fs path b format = (fs', .ok r) := by
  unfold encode_to_file
  split
  · exact ⟨_, _, rfl⟩
  · rename_i f _
    split
    · exact ⟨_, _, rfl⟩
    · obtain ⟨w, hw⟩ := C106_encode libs hb f
      rw [hw]
      exact ⟨_, _, rfl⟩

/-- The current image has as many pixels as its size says. -/
def Sound (w : World σ F) : Prop := ∀ img, w.image = some img → WellFormed img.buffer

theorem noise_sound (g : Rng σ F) {cmd : Cmd F String}
    {f : PixelBuffer (Col F) → StateT σ R (PixelBuffer (Col F))} (h : AddsNoise g cmd f)
    {b : PixelBuffer (Col F)} (hb : WellFormed b) (s : σ) :
    ∃ b' s', (f b).run s = .ok (b', s') ∧ WellFormed b' ∧ b'.width = b.width ∧
      b'.height = b.height := by
  have sh := shows_of_wellFormed hb
  have len : ∀ (k : σ → Col F → Col F × σ), (visit k s (rows b.width b.height
      (fun x y => (b.data[x + y * b.width]?).getD default))).1.length = b.width * b.height := by
    intro k
    rw [visit_length, rows_length]
  cases h with
  | random a => exact ⟨_, _, C42_random_noise g .rgb sh a s, ⟨hb.1, len _⟩, rfl, rfl⟩
  | salt_n_pepper t => exact ⟨_, _, C41_salt_n_pepper_noise g sh t s, ⟨hb.1, len _⟩, rfl, rfl⟩
  | rgb t => exact ⟨_, _, C41_rgb_noise g sh t s, ⟨hb.1, len _⟩, rfl, rfl⟩

theorem rotate_sound [Coords F] {b : PixelBuffer (Col F)} (hb : WellFormed b) (a : F) (bg : Col F)
    (filter : FilterMode) : ∃ b', rotate b a bg filter = .ok b' ∧ WellFormed b' ∧
      b'.width = b.width ∧ b'.height = b.height := by
  cases ha : (Scalar.abs (a -. lit 360) <. lit (1 / 8388608))
  · obtain ⟨b', h1, h2⟩ := C21_rotate (shows_of_wellFormed hb) a bg filter ha
    exact ⟨b', h1, h2.wellFormed, h2.width, h2.height⟩
  · exact ⟨b, C21_rotate_360 b a bg filter ha, hb, rfl, rfl⟩

theorem does_sound [Coords F] [FloatBytes F] {env : Env σ F} (hl : Honest env.libs)
    {c : Cmd F String} {w w' : World σ F} {r : R (Except CommandError Unit)}
    (h : Does env c w w' r) (hw : Sound w) :
    Sound w' ∧ ∀ p, r = .error p →
      p = .invalidSize ∧ ∃ path, c = .Open path ∧ HugeJpeg env.libs w.fs path := by
  have open_ : ∀ path x, decode_file env.libs w.fs path = x → (∃ p, x = .error p ∧
      p = .invalidSize ∧ HugeJpeg env.libs w.fs path) ∨ (∃ e, x = .ok (.error e)) ∨
      ∃ b, x = .ok (.ok b) ∧ WellFormed b := by
    rintro path x rfl
    by_cases hh : HugeJpeg env.libs w.fs path
    · exact .inl ⟨_, (C106_open env.libs hl w.fs path).1 hh, rfl, hh⟩
    · exact .inr ((C106_open env.libs hl w.fs path).2 hh)
  cases h with
  | silent => exact ⟨hw, by rintro p ⟨⟩⟩
  | opened path _ b hd =>
    refine ⟨?_, by rintro p ⟨⟩⟩
    rintro img ⟨⟩
    rcases open_ path _ hd with ⟨p, h, -⟩ | ⟨e, h⟩ | ⟨b', h, hb⟩
    · cases h
    · cases h
    · cases h; exact hb
  | not_opened => exact ⟨hw, by rintro p ⟨⟩⟩
  | open_panics path _ p hd =>
    refine ⟨hw, ?_⟩
    rintro p' ⟨⟩
    rcases open_ path _ hd with ⟨p, h, h1, h2⟩ | ⟨e, h⟩ | ⟨b', h, hb⟩
    · cases h; exact ⟨h1, path, rfl, h2⟩
    · cases h
    · cases h
  | missing => exact ⟨hw, by rintro p ⟨⟩⟩
  | saved => exact ⟨hw, by rintro p ⟨⟩⟩
  | not_saved => exact ⟨hw, by rintro p ⟨⟩⟩
  | save_panics path _ img fs' p hi he =>
    obtain ⟨fs1, r1, h1⟩ := C106_save env.libs w.fs path (hw img hi) none
    rw [h1] at he
    cases he
  | recoloured _ f _ img hf hi =>
    refine ⟨?_, by rintro p ⟨⟩⟩
    rintro img' ⟨⟩
    have := hw img hi
    exact ⟨this.1, by simpa using this.2⟩
  | rotated a filter _ img b hi hr =>
    refine ⟨?_, by rintro p ⟨⟩⟩
    rintro img' ⟨⟩
    obtain ⟨b', h1, h2, -⟩ := rotate_sound (hw img hi) a (img.bg_color.getD Rgb.NONE) filter
    rw [h1] at hr
    cases hr
    exact h2
  | rotate_panics a filter _ img p hi hr =>
    obtain ⟨b', h1, h2, -⟩ := rotate_sound (hw img hi) a (img.bg_color.getD Rgb.NONE) filter
    rw [h1] at hr
    cases hr
  | noisy _ f _ img b g' hf hi hr =>
    refine ⟨?_, by rintro p ⟨⟩⟩
    rintro img' ⟨⟩
    obtain ⟨b', s', h1, h2, -⟩ := noise_sound env.rng hf (hw img hi) w.rng
    rw [h1] at hr
    cases hr
    exact h2
  | noise_panics _ f _ img p hf hi hr =>
    obtain ⟨b', s', h1, h2, -⟩ := noise_sound env.rng hf (hw img hi) w.rng
    rw [h1] at hr
    cases hr

theorem runs_sound [Coords F] [FloatBytes F] {env : Env σ F} (hl : Honest env.libs)
    {cmds : List (Cmd F String)} {w w' : World σ F} {r : R (Except CommandError Unit)}
    (h : Runs env cmds w w' r) (hw : Sound w) :
    Sound w' ∧ ∀ p, r = .error p → p = .invalidSize ∧ ∃ before path after w1,
      cmds = before ++ .Open path :: after ∧ Runs env before w w1 success ∧
      HugeJpeg env.libs w1.fs path := by
  induction h with
  | nil w => exact ⟨hw, by rintro p ⟨⟩⟩
  | next c cs w w' w'' r hd _ ih =>
    obtain ⟨h1, h2⟩ := ih (does_sound hl hd hw).1
    refine ⟨h1, fun p hp => ?_⟩
    obtain ⟨h3, before, path, after, w1, rfl, h5, h6⟩ := h2 p hp
    exact ⟨h3, c :: before, path, after, w1, rfl, .next _ _ _ _ _ _ hd h5, h6⟩
  | stop c cs w w' r hd hr =>
    obtain ⟨h1, h2⟩ := does_sound hl hd hw
    refine ⟨h1, fun p hp => ?_⟩
    obtain ⟨h3, path, rfl, h4⟩ := h2 p hp
    exact ⟨h3, [], path, cs, w, rfl, .nil _, h4⟩

/-- Running commands panics exactly if one of them opens a file that, at that moment, holds a huge
JPEG picture, and all the commands before it succeeded. -/
theorem C106_queue [Coords F] [FloatBytes F] (env : Env σ F) (hl : Honest env.libs) (fs : FS) (g : σ)
    (out : List String) (q : Queue F String) (p : Panic) :
    (q.run env fs g out).2 = .error p ↔ p = .invalidSize ∧ ∃ before path after w,
      q.commands = before ++ .Open path :: after ∧ Runs env before ⟨fs, g, none⟩ w success ∧
      HugeJpeg env.libs w.fs path := by
  constructor
  · intro h
    have hr := (C60_run env fs g out q ⟨(q.run env fs g out).1.fs, (q.run env fs g out).1.rng,
      (q.run env fs g out).1.image⟩ _).2 ⟨_, rfl, rfl, rfl, rfl⟩
    exact (runs_sound hl hr (by rintro img ⟨⟩)).2 p h
  · rintro ⟨rfl, before, path, after, w, h1, h2, h3⟩
    have hd : Does env (.Open path) w w (.error .invalidSize) :=
      .open_panics path w _ ((C106_open env.libs hl w.fs path).1 h3)
    have hr : Runs env q.commands ⟨fs, g, none⟩ w (.error .invalidSize) := by
      rw [h1]
      exact (C60_append env before _ _ _ _).2 (.inl ⟨w, h2, .stop _ _ _ _ _ hd (by simp)⟩)
    obtain ⟨s, h4, -⟩ := (C60_run env fs g out q _ _).1 hr
    rw [h4]

/-- The program panics exactly if the command line is right and one of its commands opens a file that,
at that moment, holds a huge JPEG picture, after commands that succeeded. -/
theorem C106_main [Coords F] [FloatBytes F] (number : String → Option F) (env : Env σ F)
    (hl : Honest env.libs) (fs : FS) (g : σ) (program : String) (args : List String) (p : Panic) :
    (main number env fs g (program :: args)).2.2.2 = .error p ↔
      p = .invalidSize ∧ ∃ before path after w,
        LineMeans id number true args (before ++ .Open path :: after) ∧
        Runs env before ⟨fs, g, none⟩ w success ∧ HugeJpeg env.libs w.fs path := by
  constructor
  · intro h
    generalize hm : main number env fs g (program :: args) = x at h
    obtain ⟨fs', g', out, r⟩ := x
    have he := C79_main number env fs _ g _ _ _ _ hm
    simp only at h
    subst h
    generalize hr : (Except.error p : R Exit) = r' at he
    generalize ha : program :: args = argv at he
    cases he with
    | no_arguments => cases hr
    | wrong => cases hr
    | run _ cmds k w r _ h1 h2 _ =>
      subst ha
      rcases r with p' | (e | ⟨⟩)
      · cases hr
        obtain ⟨h3, before, path, after, w1, rfl, h4, h5⟩ :=
          (runs_sound hl h2 (by rintro img ⟨⟩)).2 p rfl
        exact ⟨h3, before, path, after, w1, h1, h4, h5⟩
      · cases hr
      · cases hr
  · rintro ⟨rfl, before, path, after, w, h1, h2, h3⟩
    have hd : Does env (.Open path) w w (.error .invalidSize) :=
      .open_panics path w _ ((C106_open env.libs hl w.fs path).1 h3)
    have hr : Runs env (before ++ .Open path :: after) ⟨fs, g, none⟩ w (.error .invalidSize) :=
      (C60_append env before _ _ _ _).2 (.inl ⟨w, h2, .stop _ _ _ _ _ hd (by simp)⟩)
    have hne : args ≠ [] := by
      rintro rfl
      have key : ∀ (a : List String) c, LineMeans id number true a c → a = [] → c = [] := by
        intro a c h e
        cases h with
        | nil => rfl
        | cons _ words cmd rest cmds hi hr =>
          rw [List.append_eq_nil_iff] at e
          obtain ⟨rfl, -⟩ := e
          cases hi with
          | option _ _ _ ho => cases ho
      simpa using key _ _ h1 rfl
    obtain ⟨out, h4, -⟩ := main_runs (program := program) hne h1 hr
    rw [h4]
    rfl

/-- If the JPEG library only delivers pictures whose size a buffer can have, the program always ends
with an exit code, whatever its arguments, its files and its random numbers are. -/
theorem C106_no_panic [Coords F] [FloatBytes F] (number : String → Option F) (env : Env σ F)
    (hl : Honest env.libs) (hj : ∀ bytes data info, env.libs.jpeg_read bytes = .ok data →
      env.libs.jpeg_info bytes = some info → ValidSize info.width info.height) (fs : FS) (g : σ)
    (program : String) (args : List String) :
    ∃ fs' g' out e, main number env fs g (program :: args) = (fs', g', out, .ok e) := by
  generalize hm : main number env fs g (program :: args) = x
  obtain ⟨fs', g', out, r⟩ := x
  cases r with
  | ok e => exact ⟨_, _, _, _, rfl⟩
  | error p =>
    obtain ⟨-, before, path, after, w, -, -, bytes, -, -, -, data, info, h1, h2, h3⟩ :=
      (C106_main number env hl fs g program args p).1 (by rw [hm])
    exact absurd (hj _ _ _ h1 h2) h3

/-! ## C94 for all editing commands -/

/-- Commands that neither open nor save always succeed on an image, leave the files alone and keep the
size. -/
theorem edits_run [Coords F] [FloatBytes F] (env : Env σ F) (fs : FS) {wd ht : Nat}
    (cmds : List (Cmd F String)) (hc : ∀ c ∈ cmds, ∀ path, c ≠ .Open path ∧ c ≠ .Save path) :
    ∀ (g : σ) (img : Image F) (px : Nat → Nat → Col F), Shows img.buffer wd ht px →
      ∃ g' img' px', Runs env cmds ⟨fs, g, some img⟩ ⟨fs, g', some img'⟩ success ∧
        Shows img'.buffer wd ht px' := by
  induction cmds with
  | nil => exact fun g img px s => ⟨g, img, px, .nil _, s⟩
  | cons c cs ih =>
    intro g img px s
    have step : ∃ g' img' px', Does env c ⟨fs, g, some img⟩ ⟨fs, g', some img'⟩ success ∧
        Shows img'.buffer wd ht px' := by
      have colour : ∀ f, Recolours c f → ∃ g' img' px',
          Does env c ⟨fs, g, some img⟩ ⟨fs, g', some img'⟩ success ∧
          Shows img'.buffer wd ht px' := by
        intro f hf
        obtain ⟨img1, d1, s1, -⟩ := C60_recolour env hf ⟨fs, g, some img⟩ rfl s
        exact ⟨g, img1, _, d1, s1⟩
      have noise : ∀ f, AddsNoise env.rng c f → ∃ g' img' px',
          Does env c ⟨fs, g, some img⟩ ⟨fs, g', some img'⟩ success ∧
          Shows img'.buffer wd ht px' := by
        intro f hf
        obtain ⟨b', s', h1, h2, h3, h4⟩ := noise_sound env.rng hf s.wellFormed g
        rw [s.width] at h3
        rw [s.height] at h4
        have sh := shows_of_wellFormed h2
        rw [h3, h4] at sh
        exact ⟨s', _, _, .noisy c f ⟨fs, g, some img⟩ img b' s' hf rfl h1, sh⟩
      cases c with
      | Silent => exact ⟨g, img, px, .silent _, s⟩
      | Open path => exact absurd rfl (hc _ List.mem_cons_self path).1
      | Save path => exact absurd rfl (hc _ List.mem_cons_self path).2
      | ToGray i => exact colour _ (.to_gray i)
      | Invert => exact colour _ .invert
      | Gamma v => exact colour _ (.gamma v)
      | Level b w v => exact colour _ (.level b w v)
      | Brightness v => exact colour _ (.brightness v)
      | Contrast v => exact colour _ (.contrast v)
      | BrightnessContrast b k => exact colour _ (.brightness_contrast b k)
      | Saturation v => exact colour _ (.saturation v)
      | StretchSaturation v => exact colour _ (.stretch_saturation v)
      | Lightness v => exact colour _ (.lightness v)
      | HueRotate v => exact colour _ (.hue_rotate v)
      | RandomNoise a => exact noise _ (.random a)
      | SaltNPepperNoise t => exact noise _ (.salt_n_pepper t)
      | RgbNoise t => exact noise _ (.rgb t)
      | Rotate a filter =>
        obtain ⟨b', h1, h2, h3, h4⟩ :=
          rotate_sound s.wellFormed a (img.bg_color.getD Rgb.NONE) filter
        rw [s.width] at h3
        rw [s.height] at h4
        have sh := shows_of_wellFormed h2
        rw [h3, h4] at sh
        exact ⟨g, _, _, .rotated a filter ⟨fs, g, some img⟩ img b' rfl h1, sh⟩
    obtain ⟨g1, img1, px1, d1, s1⟩ := step
    obtain ⟨g2, img2, px2, d2, s2⟩ := ih (fun c hm => hc c (List.mem_cons_of_mem _ hm)) g1 img1 px1 s1
    exact ⟨g2, img2, px2, .next _ _ _ _ _ _ d1 d2, s2⟩

omit [Scalar F] in
theorem Spec.LineMeans.append {number : String → Option F} {first : Bool} {words rest : List String}
    {cmds more : List (Cmd F String)} (h : LineMeans id number first words cmds)
    (hf : first = false) (hr : LineMeans id number false rest more) :
    LineMeans id number first (words ++ rest) (cmds ++ more) := by
  induction h with
  | nil => subst hf; exact hr
  | cons first words cmd rest' cmds h1 _ ih =>
    rw [List.append_assoc]
    exact .cons _ _ _ _ _ h1 (ih rfl)

/-- `d10 input options output.png` with any options that neither open nor save, also rotations and
noise: if the input can be read as a picture, then the program ends with code 0 and no message; the
output file, opened again, shows the picture that the commands make, stored in 8 bits, in the size of
the input; and no other file has changed. -/
theorem C94_any [Coords F] [FloatBytes F] (number : String → Option F) (env : Env σ F)
    (hlib : Lossless env.libs) (fs : FS) (hfs : Reliable fs) (g : σ) (program input output : String)
    (hi : ¬ Dashed id input) (ho : ¬ Dashed id output) (hn : Named output .Png) {words : List String}
    {cmds : List (Cmd F String)} (hw : LineMeans id number false words cmds)
    (hc : ∀ c ∈ cmds, ∀ path, c ≠ .Open path ∧ c ≠ .Save path)
    {b : PixelBuffer (Col F)} (hb : (decode_file env.libs fs input).run = .ok (.ok b)) {wd ht : Nat}
    {px : Nat → Nat → Col F} (sh : Shows b wd ht px) (h0 : 0 < wd) (h1 : 0 < ht) :
    ∃ fs' g' out img px', Runs env cmds ⟨fs, g, some ⟨b, none⟩⟩ ⟨fs, g', some img⟩ success ∧
      Shows img.buffer wd ht px' ∧
      main number env fs g (program :: input :: words ++ [output]) = (fs', g', out, .ok ⟨[], 0⟩) ∧
      ((∀ c ∈ cmds, c ≠ .Silent) →
        out = progress env.debug (cmds.length + 2) (.Open input :: (cmds ++ [.Save output]))) ∧
      (∀ path, fs.node path = fs.node output → ∃ b',
        (decode_file env.libs fs' path).run = .ok (.ok b') ∧
        Shows b' wd ht (fun x y => stored (px' x y) .Rgba8)) ∧
      (∀ n, n ≠ fs.node output → fs'.content n = fs.content n) ∧ fs'.node = fs.node := by
  obtain ⟨g', img, px', r1, s1⟩ := edits_run env fs cmds hc g ⟨b, none⟩ px sh
  have hE : ∃ fs', encode_to_file env.libs fs output img.buffer (some (usual .Png)) =
      (fs', .ok (.ok ())) := by
    obtain ⟨fs', _, h, -⟩ := C78_png env.libs hlib fs hfs output output rfl s1 h0 h1 .Rgba8
      (by decide) .Default .Sub
    exact ⟨fs', h⟩
  obtain ⟨fs', he⟩ := hE
  have hs := he
  rw [← C57_by_name env.libs fs output img.buffer .Png hn] at hs
  obtain ⟨c1, c2, -⟩ := C57_other_files env.libs fs output img.buffer _ fs' _ hs
  have hrun : Runs env (.Open input :: (cmds ++ [.Save output])) ⟨fs, g, none⟩ ⟨fs', g', some img⟩
      success :=
    .next _ _ _ _ _ _ (.opened _ _ _ hb)
      ((C60_append env cmds _ _ _ _).2 (.inl ⟨_, r1, .next _ _ _ _ _ _ (.saved _ _ _ _ rfl hs) (.nil _)⟩))
  have line : LineMeans id number true (input :: words ++ [output])
      (.Open input :: (cmds ++ [.Save output])) :=
    .cons true [input] _ _ _ (.input _ hi)
      (hw.append rfl (.cons _ [output] _ [] [] (.output _ ho) (.nil _)))
  obtain ⟨out, m1, m2⟩ := main_runs (program := program) (by simp) line hrun
  refine ⟨fs', g', out, img, px', r1, s1, m1, fun hsil => ?_, fun path hp => ?_, c1, c2⟩
  · have hl : (Cmd.Open input :: (cmds ++ [Cmd.Save output])).length = cmds.length + 2 := by simp
    rw [← hl]
    refine m2 rfl ?_
    intro c hc
    rcases List.mem_cons.1 hc with rfl | hc
    · exact nofun
    · rcases List.mem_append.1 hc with hc | hc
      · exact hsil c hc
      · rw [List.mem_singleton.1 hc]; exact nofun
  · obtain ⟨fs3, b3, q1, q2, q3⟩ := C78_png env.libs hlib fs hfs output path hp s1 h0 h1 .Rgba8
      (by decide) .Default .Sub
    have e2 : fs3 = fs' := congrArg Prod.fst (q1.symm.trans he)
    subst e2
    exact ⟨b3, q2, q3⟩

/-! ## The hypotheses can be met -/

/-- A JPEG library for which every file is a white square of 65535 x 65535 pixels. -/
def hugeLibs : Libs F :=
  { (demo : Libs F) with
    jpeg_read := fun _ => .ok (List.replicate (65535 * 65535 * 3) 255)
    jpeg_info := fun _ => some ⟨65535, 65535, .RGB24⟩ }

omit [Scalar F] in
theorem hugeLibs_honest : Honest (hugeLibs : Libs F) where
  jpeg _ _ _ h1 h2 := by
    cases h1; cases h2
    exact List.length_replicate
  gif := (demo_honest (F := F)).gif
  bmp := (demo_honest (F := F)).bmp
  ico := (demo_honest (F := F)).ico
  webp := (demo_honest (F := F)).webp

omit [Scalar F] in
theorem huge_example : HugeJpeg (hugeLibs : Libs F) demoFS "dir.png/.png" :=
  ⟨[0xFF, 0xD8, 0xFF], rfl, rfl, .inl ⟨[], rfl⟩, _, _, rfl, rfl, by simp [ValidSize]⟩

/-- `d10 dir.png/.png` panics with such a library. -/
example [Coords F] [FloatBytes F] : (main (onlyOne : String → Option F)
    { (demoEnv : Env Unit F) with libs := hugeLibs } demoFS () ["d10", "dir.png/.png"]).2.2.2 =
      .error .invalidSize :=
  (C106_main (onlyOne : String → Option F) { (demoEnv : Env Unit F) with libs := hugeLibs }
    hugeLibs_honest demoFS () "d10" ["dir.png/.png"] .invalidSize).2
    ⟨rfl, [], "dir.png/.png", [], _,
      .cons true ["dir.png/.png"] _ [] [] (.input _ (not_dashed (by decide))) (.nil _), .nil _,
      huge_example⟩
example [Coords F] [FloatBytes F] := C106_no_panic (onlyOne : String → Option F)
  { (demoEnv : Env Unit F) with libs := demo } demo_honest
  (by intro _ _ _ h1 h2; cases h2; simp [ValidSize]) demoFS () "d10" ["dir.png/.png", "-rotate", "1"]
example [FloatBytes F] := C106_encode (demo : Libs F) demo_shows.wellFormed .Gif
example [Coords F] [FloatBytes F] : ∃ fs' out, main (onlyOne : String → Option F) rawEnv demoFS ()
    ["d10", "dir.png/.png", "-rotate", "1", "-rgb-noise", "1", "out.png"] =
      (fs', (), out, .ok ⟨[], 0⟩) := by
  obtain ⟨b, wd, ht, px, hb, sh, h0, h1⟩ := demo_input (F := F)
  obtain ⟨fs', g', out, img, px', -, -, h, -⟩ := C94_any (onlyOne : String → Option F) rawEnv
    rawPng_lossless demoFS ⟨fun _ _ => rfl, fun _ => rfl, fun _ => rfl⟩ () "d10" "dir.png/.png"
    "out.png" (not_dashed (by decide)) (not_dashed (by decide)) out_named
    (words := ["-rotate", "1", "-rgb-noise", "1"])
    (.cons false ["-rotate", "1"] _ ["-rgb-noise", "1"] _
      (.option _ _ _ (.number "-rotate" "1" "rotate" _ _ .rotate (by decide) rfl))
      (.cons _ ["-rgb-noise", "1"] _ [] []
        (.option _ _ _ (.number "-rgb-noise" "1" "rgb-noise" _ _ .rgb_noise (by decide) rfl)) (.nil _)))
    (by simp) hb sh h0 h1
  exact ⟨fs', out, h⟩

end
end D10
