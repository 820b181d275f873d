import Verif.SpecCommands
import Verif.Props.Buffer
import Verif.Props.Files
import Mathlib.Data.List.TakeWhile

/-!
# C60 - C62: command queues
-/

namespace D10
open Spec

variable {σ F : Type} [Scalar F]

/-- The part of the state that commands work on. -/
def State.world (s : State σ F) : World σ F := ⟨s.fs, s.rng, s.image⟩

omit [Scalar F] in
theorem mod_colors_eq (img : Image F) (f : Col F → Col F) : img.mod_colors f =
    ⟨⟨img.buffer.width, img.buffer.height, img.buffer.data.map f⟩, img.bg_color⟩ := by
  unfold Image.mod_colors
  rw [C07_mod_colors]
  rfl

omit [Scalar F] in
theorem noise_run (img : Image F) (n : StateT σ R (PixelBuffer (Col F))) (g : σ) :
    StateT.run (do return Image.new_from_buffer_with_meta img (← n)) g =
      match n.run g with
      | .ok (b, g') => .ok (⟨b, img.bg_color⟩, g')
      | .error p => .error p := by
  simp only [StateT.run_bind, StateT.run_pure]
  cases n.run g <;> rfl

omit [Scalar F] in
theorem log_world (env : Env σ F) (s : State σ F) (cmd : Cmd F String) :
    (s.log_command_step env cmd).fs = s.fs ∧ (s.log_command_step env cmd).rng = s.rng ∧
      (s.log_command_step env cmd).image = s.image := by
  unfold State.log_command_step
  simp only
  split <;> exact ⟨rfl, rfl, rfl⟩

/-- The program follows the rules for a single command. -/
theorem does_command [FloatBytes F] (env : Env σ F) (s : State σ F) (cmd : Cmd F String) :
    Does env cmd s.world (execute_command env s cmd).1.world (execute_command env s cmd).2 := by
  obtain ⟨l1, l2, l3⟩ := log_world env s cmd
  have colour : ∀ (t : State σ F) (cmd : Cmd F String) (f : Col F → Col F), Recolours cmd f →
      Does env cmd t.world (execute_mod_colors t f).1.world (execute_mod_colors t f).2 := by
    intro t cmd f hf
    unfold execute_mod_colors State.with_image
    split
    next h => exact .missing _ _ (by rintro rfl; cases hf) (by rintro _ rfl; cases hf) h
    next img h =>
      simp only [mod_colors_eq]
      exact .recoloured _ _ _ _ hf h
  have noise : ∀ (t : State σ F) (cmd : Cmd F String) (f), AddsNoise env.rng cmd f →
      ∀ k : Image F → StateT σ R (Image F),
        (∀ img, k img = do return Image.new_from_buffer_with_meta img (← f img.buffer)) →
      Does env cmd t.world (execute_noise t k).1.world (execute_noise t k).2 := by
    intro t cmd f hf k hk
    unfold execute_noise State.with_image
    split
    next h => exact .missing _ _ (by rintro rfl; cases hf) (by rintro _ rfl; cases hf) h
    next img h =>
      simp only [hk, noise_run]
      cases hb : (f img.buffer).run t.rng with
      | error p => exact .noise_panics _ _ _ _ _ hf h hb
      | ok x => exact .noisy _ _ _ _ _ _ hf h hb
  have hw : (s.log_command_step env cmd).world = s.world := by
    unfold State.world; rw [l1, l2, l3]
  cases cmd
  case Silent => exact .silent _
  all_goals
    rw [← hw]
    simp only [execute_command, Cmd.ignore_in_log, Bool.false_eq_true, if_false]
    generalize s.log_command_step env _ = t
  case Open path =>
    unfold execute_open Image.open
    cases hd : decode_file env.libs t.fs path with
    | error p => exact .open_panics _ _ _ hd
    | ok x => cases x with
      | error e => exact .not_opened _ _ _ hd
      | ok b => exact .opened _ _ _ hd
  case Save path =>
    unfold execute_save State.with_image
    split
    next h => exact .missing _ _ (by simp) (by simp) h
    next img h =>
      simp only [Image.save]
      rcases hd : encode_to_file env.libs t.fs path img.buffer none with ⟨fs', p | e | u⟩
      · exact .save_panics _ _ _ _ _ h hd
      · exact .not_saved _ _ _ _ _ h hd
      · exact .saved _ _ _ _ h hd
  case Rotate a fl =>
    unfold execute_rotate State.with_image
    split
    next h => exact .missing _ _ (by simp) (by simp) h
    next img h =>
      simp only [Image.rotate]
      cases hd : rotate img.buffer a (img.bg_color.getD Rgb.NONE) fl with
      | error p => exact .rotate_panics _ _ _ _ _ h hd
      | ok b => exact .rotated _ _ _ _ _ h hd
  all_goals first
    | exact colour t _ _ (by constructor)
    | exact noise t _ _ (by constructor) _ (fun _ => rfl)

/-- The rules leave no choice. -/
theorem command_does [FloatBytes F] {env : Env σ F} {cmd : Cmd F String} {w w' : World σ F} {r}
    (h : Does env cmd w w' r) (s : State σ F) (hs : s.world = w) :
    (execute_command env s cmd).1.world = w' ∧ (execute_command env s cmd).2 = r := by
  obtain ⟨l1, l2, l3⟩ := log_world env s cmd
  have hw : (s.log_command_step env cmd).world = w := by
    rw [← hs]; unfold State.world; rw [l1, l2, l3]
  cases h with
  | silent => exact ⟨hs, rfl⟩
  | missing _ _ h1 h2 h3 =>
    cases cmd
    case Silent => exact absurd rfl h1
    case Open path => exact absurd rfl (h2 path)
    all_goals
      simp only [execute_command, Cmd.ignore_in_log, Bool.false_eq_true, if_false]
      generalize s.log_command_step env _ = t at hw
      subst hw
      have h3 : t.image = none := h3
      simp only [execute_save, execute_rotate, execute_to_gray, execute_invert, execute_gamma,
        execute_level, execute_brightness, execute_contrast, execute_brightness_contrast,
        execute_saturation, execute_stretch_saturation, execute_lightness, execute_hue_rotate,
        execute_random_noise, execute_salt_n_pepper_noise, execute_rgb_noise, execute_noise,
        execute_mod_colors, State.with_image, h3]
      exact ⟨trivial, trivial⟩
  | recoloured _ f _ img hf h3 =>
    cases hf
    all_goals
      simp only [execute_command, Cmd.ignore_in_log, Bool.false_eq_true, if_false]
      generalize s.log_command_step env _ = t at hw
      subst hw
      have h3 : t.image = some img := h3
      simp only [execute_to_gray, execute_invert, execute_gamma,
        execute_level, execute_brightness, execute_contrast, execute_brightness_contrast,
        execute_saturation, execute_stretch_saturation, execute_lightness, execute_hue_rotate,
        execute_mod_colors, State.with_image, h3, mod_colors_eq]
      exact ⟨rfl, rfl⟩
  | noisy _ f _ img b g' hf h3 hb =>
    cases hf
    all_goals
      simp only [execute_command, Cmd.ignore_in_log, Bool.false_eq_true, if_false]
      generalize s.log_command_step env _ = t at hw
      subst hw
      have h3 : t.image = some img := h3
      simp only [State.world] at hb
      simp only [execute_random_noise, execute_salt_n_pepper_noise, execute_rgb_noise, execute_noise,
        State.with_image, h3, Image.random_noise, Image.salt_n_pepper_noise, Image.rgb_noise,
        noise_run, hb]
      exact ⟨rfl, rfl⟩
  | noise_panics _ f _ img p hf h3 hb =>
    cases hf
    all_goals
      simp only [execute_command, Cmd.ignore_in_log, Bool.false_eq_true, if_false]
      generalize s.log_command_step env _ = t at hw
      subst hw
      have h3 : t.image = some img := h3
      simp only [State.world] at hb
      simp only [execute_random_noise, execute_salt_n_pepper_noise, execute_rgb_noise, execute_noise,
        State.with_image, h3, Image.random_noise, Image.salt_n_pepper_noise, Image.rgb_noise,
        noise_run, hb]
      exact ⟨trivial, trivial⟩
  | _ =>
    simp only [execute_command, Cmd.ignore_in_log, Bool.false_eq_true, if_false]
    generalize s.log_command_step env _ = t at hw
    subst hw
    simp_all [State.world, execute_save, execute_rotate, execute_open, State.with_image, State.done,
      Image.open, Image.save, Image.rotate, bind, ExceptT.bind, ExceptT.bindCont, ExceptT.mk,
      Except.bind, pure, Except.pure, ExceptT.pure, Image.new_from_buffer, Image.new_from_buffer_with_meta]

/-- C60 for any state in which a run may be. -/
theorem runs_execute [FloatBytes F] (env : Env σ F) (cmds : List (Cmd F String)) (s : State σ F)
    (w' : World σ F) (r : R (Except CommandError Unit)) :
    Runs env cmds s.world w' r ↔
      (execute env s cmds).1.world = w' ∧ (execute env s cmds).2 = r := by
  induction cmds generalizing s with
  | nil =>
    constructor
    · rintro ⟨⟩; exact ⟨rfl, rfl⟩
    · rintro ⟨rfl, rfl⟩; exact .nil _
  | cons c cs ih =>
    have hd := does_command env s c
    rcases hc : execute_command env s c with ⟨s', r'⟩
    rw [hc] at hd
    by_cases hr : r' = success
    · subst hr
      have he : execute env s (c :: cs) = execute env s' cs := by
        rw [execute, hc]
      rw [he, ← ih s']
      constructor
      · intro h
        cases h with
        | next _ _ _ w1 _ _ h1 h2 =>
          have := command_does h1 s rfl
          rw [hc] at this
          rw [this.1]; exact h2
        | stop _ _ _ _ _ h1 h2 =>
          have := command_does h1 s rfl
          rw [hc] at this
          exact absurd this.2.symm h2
      · exact fun h => .next _ _ _ _ _ _ hd h
    · have he : execute env s (c :: cs) = (s', r') := by
        rw [execute, hc]
        split
        next h => cases h; exact absurd rfl hr
        next => rfl
      rw [he]
      constructor
      · intro h
        cases h with
        | next _ _ _ w1 _ _ h1 h2 =>
          have := command_does h1 s rfl
          rw [hc] at this
          exact absurd this.2 hr
        | stop _ _ _ _ _ h1 h2 =>
          have := command_does h1 s rfl
          rw [hc] at this
          exact this
      · rintro ⟨rfl, rfl⟩
        exact .stop _ _ _ _ _ hd hr

/-- What running a queue does is exactly what the rules say: it starts without an image, takes one
command after the other, and ends with the first that does not succeed. -/
theorem C60_run [FloatBytes F] (env : Env σ F) (fs : FS) (g : σ) (out : List String)
    (q : Queue F String) (w : World σ F) (r : R (Except CommandError Unit)) :
    Runs env q.commands ⟨fs, g, none⟩ w r ↔
      ∃ s, q.run env fs g out = (s, r) ∧ s.fs = w.fs ∧ s.rng = w.rng ∧ s.image = w.image := by
  have h := runs_execute env q.commands
    { fs, rng := g, out, image := none,
      log := Log.new (q.commands.filter fun cmd => !cmd.ignore_in_log).length } w r
  refine h.trans ?_
  constructor
  · rintro ⟨rfl, rfl⟩
    exact ⟨_, rfl, rfl, rfl, rfl⟩
  · rintro ⟨s, h1, h2, h3, h4⟩
    have h1 : execute env _ q.commands = (s, r) := h1
    rw [h1]
    refine ⟨?_, rfl⟩
    unfold State.world
    rw [h2, h3, h4]

/-- There is always exactly one outcome. -/
theorem C60_deterministic [FloatBytes F] (env : Env σ F) (cmds : List (Cmd F String)) (fs : FS)
    (g : σ) : ∃! x : World σ F × R (Except CommandError Unit),
      Runs env cmds ⟨fs, g, none⟩ x.1 x.2 := by
  refine ⟨((execute env ⟨fs, g, [], none, Log.new 0⟩ cmds).1.world,
    (execute env ⟨fs, g, [], none, Log.new 0⟩ cmds).2),
    (runs_execute env cmds ⟨fs, g, [], none, Log.new 0⟩ _ _).2 ⟨rfl, rfl⟩, ?_⟩
  rintro ⟨w, r⟩ h
  obtain ⟨h1, h2⟩ := (runs_execute env cmds ⟨fs, g, [], none, Log.new 0⟩ w r).1 h
  rw [← h1, ← h2]

/-- Running a queue and then, if it succeeded, the rest, is running both in one queue. -/
theorem C60_append [FloatBytes F] (env : Env σ F) (xs ys : List (Cmd F String))
    (w w' : World σ F) (r : R (Except CommandError Unit)) :
    Runs env (xs ++ ys) w w' r ↔
      (∃ w1, Runs env xs w w1 success ∧ Runs env ys w1 w' r) ∨
      (Runs env xs w w' r ∧ r ≠ success) := by
  induction xs generalizing w with
  | nil =>
    constructor
    · exact fun h => .inl ⟨w, .nil _, h⟩
    · rintro (⟨w1, h1, h2⟩ | ⟨h1, h2⟩)
      · cases h1; exact h2
      · cases h1; exact absurd rfl h2
  | cons c cs ih =>
    constructor
    · intro h
      cases h with
      | next _ _ _ w1 _ _ h1 h2 =>
        rcases (ih _).1 h2 with ⟨w2, h3, h4⟩ | ⟨h3, h4⟩
        · exact .inl ⟨w2, .next _ _ _ _ _ _ h1 h3, h4⟩
        · exact .inr ⟨.next _ _ _ _ _ _ h1 h3, h4⟩
      | stop _ _ _ _ _ h1 h2 => exact .inr ⟨.stop _ _ _ _ _ h1 h2, h2⟩
    · rintro (⟨w1, h1, h2⟩ | ⟨h1, h2⟩)
      · cases h1 with
        | next _ _ _ w2 _ _ h3 h4 => exact .next _ _ _ _ _ _ h3 ((ih _).2 (.inl ⟨_, h4, h2⟩))
        | stop _ _ _ _ _ _ h3 => exact absurd rfl h3
      · cases h1 with
        | next _ _ _ w2 _ _ h3 h4 => exact .next _ _ _ _ _ _ h3 ((ih _).2 (.inr ⟨h4, h2⟩))
        | stop _ _ _ _ _ h3 h4 => exact .stop _ _ _ _ _ h3 h4

/-- A run that does not succeed ended with one command: those before it succeeded, and those after it
had no effect - any others in their place lead to the same. -/
theorem C60_first_failure [FloatBytes F] {env : Env σ F} {cmds : List (Cmd F String)}
    {w w' : World σ F} {r : R (Except CommandError Unit)} (h : Runs env cmds w w' r)
    (hr : r ≠ success) :
    ∃ before c after w1, cmds = before ++ c :: after ∧ Runs env before w w1 success ∧
      Does env c w1 w' r ∧ ∀ others, Runs env (before ++ c :: others) w w' r := by
  induction h with
  | nil w => exact absurd rfl hr
  | next c cs w w1 w2 r h1 h2 ih =>
    obtain ⟨before, c', after, w3, rfl, h4, h5, h6⟩ := ih hr
    exact ⟨c :: before, c', after, w3, rfl, .next _ _ _ _ _ _ h1 h4, h5,
      fun others => .next _ _ _ _ _ _ h1 (h6 others)⟩
  | stop c cs w w1 r h1 h2 =>
    exact ⟨[], c, cs, w, rfl, .nil _, h1, fun others => .stop _ _ _ _ _ h1 h2⟩

/-- A command only changes the file it saves to; other files, and which paths lead to the same file,
stay. -/
theorem does_files [FloatBytes F] {env : Env σ F} {c : Cmd F String} {w w' : World σ F}
    {r : R (Except CommandError Unit)} (h : Does env c w w' r) :
    w'.fs.node = w.fs.node ∧
      ∀ n, (∀ path, c = .Save path → w.fs.node path ≠ n) → w'.fs.content n = w.fs.content n := by
  have save : ∀ path img fs' r, encode_to_file env.libs w.fs path (Image.buffer img) none = (fs', r) →
      fs'.node = w.fs.node ∧ ∀ n, (∀ p : String, (Cmd.Save path : Cmd F String) = .Save p →
        w.fs.node p ≠ n) → fs'.content n = w.fs.content n := by
    intro path img fs' r h
    obtain ⟨h1, h2, _⟩ := C57_other_files env.libs w.fs path img.buffer none fs' r h
    exact ⟨h2, fun n hn => h1 n (Ne.symm (hn path rfl))⟩
  cases h with
  | saved _ _ _ _ _ h => exact save _ _ _ _ h
  | not_saved _ _ _ _ _ _ h => exact save _ _ _ _ h
  | save_panics _ _ _ _ _ _ h => exact save _ _ _ _ h
  | _ => exact ⟨rfl, fun _ _ => rfl⟩

/-- A run only changes files to which one of its commands saves. -/
theorem C60_other_files [FloatBytes F] {env : Env σ F} {cmds : List (Cmd F String)}
    {w w' : World σ F} {r : R (Except CommandError Unit)} (h : Runs env cmds w w' r) (n : Nat)
    (hn : ∀ path, .Save path ∈ cmds → w.fs.node path ≠ n) :
    w'.fs.content n = w.fs.content n := by
  induction h with
  | nil w => rfl
  | next c cs w w1 w2 r h1 h2 ih =>
    obtain ⟨h3, h4⟩ := does_files h1
    rw [ih fun path hp => by rw [h3]; exact hn path (.tail _ hp)]
    exact h4 n fun path hp => hn path (by rw [hp]; exact .head _)
  | stop c cs w w1 r h1 h2 =>
    exact (does_files h1).2 n fun path hp => hn path (by rw [hp]; exact .head _)

/-- What was saved before stays, however the run goes on, unless the same file is saved again. -/
theorem C60_saved_remains [FloatBytes F] {env : Env σ F} {before after : List (Cmd F String)}
    {w w1 w2 w' : World σ F} {path : String} {r : R (Except CommandError Unit)}
    (h1 : Runs env before w w1 success) (h2 : Does env (.Save path) w1 w2 success)
    (h : Runs env (before ++ .Save path :: after) w w' r)
    (hn : ∀ p, .Save p ∈ after → w1.fs.node p ≠ w1.fs.node path) :
    w'.fs.content (w1.fs.node path) = w2.fs.content (w1.fs.node path) := by
  have run1 : ∀ {w a ra b rb}, Runs env before w a ra → Runs env before w b rb → a = b ∧ ra = rb := by
    intro w a ra b rb ha hb
    obtain ⟨e1, e2⟩ := (runs_execute env before ⟨w.fs, w.rng, [], w.image, Log.new 0⟩ a ra).1 ha
    obtain ⟨e3, e4⟩ := (runs_execute env before ⟨w.fs, w.rng, [], w.image, Log.new 0⟩ b rb).1 hb
    exact ⟨e1.symm.trans e3, e2.symm.trans e4⟩
  have does1 : ∀ {w : World σ F} {a ra b rb}, Does env (.Save path) w a ra →
      Does env (.Save path) w b rb → a = b ∧ ra = rb := by
    intro w a ra b rb ha hb
    obtain ⟨e1, e2⟩ := command_does ha ⟨w.fs, w.rng, [], w.image, Log.new 0⟩ rfl
    obtain ⟨e3, e4⟩ := command_does hb ⟨w.fs, w.rng, [], w.image, Log.new 0⟩ rfl
    exact ⟨e1.symm.trans e3, e2.symm.trans e4⟩
  rcases (C60_append env before _ w w' r).1 h with ⟨w3, h3, h4⟩ | ⟨h3, h4⟩
  · obtain ⟨rfl, -⟩ := run1 h1 h3
    cases h4 with
    | next _ _ _ w4 _ _ h5 h6 =>
      obtain ⟨rfl, -⟩ := does1 h2 h5
      refine C60_other_files h6 _ fun p hp => ?_
      rw [(does_files h2).1]
      exact hn p hp
    | stop _ _ _ w4 _ h5 h6 => exact absurd (does1 h2 h5).2.symm h6
  · exact absurd (run1 h1 h3).2.symm h4

/-- A colour command on an image changes every pixel's colour and nothing else. -/
theorem C60_recolour [FloatBytes F] (env : Env σ F) {c : Cmd F String} {f : Col F → Col F}
    (hc : Recolours c f) (w : World σ F) {img : Image F} (hi : w.image = some img) {wd ht : Nat}
    {px : Nat → Nat → Col F} (s : Shows img.buffer wd ht px) :
    ∃ img', Does env c w ⟨w.fs, w.rng, some img'⟩ success ∧
      Shows img'.buffer wd ht (fun x y => f (px x y)) ∧ img'.bg_color = img.bg_color :=
  ⟨_, .recoloured _ _ _ _ hc hi, ((C07_map_colors s f)), rfl⟩

omit [Scalar F] in
/-- Queues hold the commands in the order in which they were added. -/
theorem C60_builders {P : Type} (q : Queue F P) (path : P) (i : Intensity) (x y z : F)
    (filter : FilterMode) (c : Cmd F P) :
    (Queue.new : Queue F P).commands = [] ∧
    (q.push c).commands = q.commands ++ [c] ∧
    (q.with c).commands = q.commands ++ [c] ∧
    (q.silent).commands = q.commands ++ [.Silent] ∧
    (q.open path).commands = q.commands ++ [.Open path] ∧
    (q.save path).commands = q.commands ++ [.Save path] ∧
    (q.to_gray i).commands = q.commands ++ [.ToGray i] ∧
    (q.invert).commands = q.commands ++ [.Invert] ∧
    (q.gamma x).commands = q.commands ++ [.Gamma x] ∧
    (q.level x y z).commands = q.commands ++ [.Level x y z] ∧
    (q.brightness x).commands = q.commands ++ [.Brightness x] ∧
    (q.contrast x).commands = q.commands ++ [.Contrast x] ∧
    (q.brightness_contrast x y).commands = q.commands ++ [.BrightnessContrast x y] ∧
    (q.saturation x).commands = q.commands ++ [.Saturation x] ∧
    (q.stretch_saturation x).commands = q.commands ++ [.StretchSaturation x] ∧
    (q.lightness x).commands = q.commands ++ [.Lightness x] ∧
    (q.hue_rotate x).commands = q.commands ++ [.HueRotate x] ∧
    (q.rotate x filter).commands = q.commands ++ [.Rotate x filter] ∧
    q.len = q.commands.length ∧ (q.is_empty = true ↔ q.commands = []) := by
  refine ⟨rfl, rfl, rfl, rfl, rfl, rfl, rfl, rfl, rfl, rfl, rfl, rfl, rfl, rfl, rfl, rfl, rfl, rfl,
    rfl, ?_⟩
  exact List.isEmpty_iff

/-- The texts of the errors. -/
theorem C60_messages (path message : String) (w h : Nat) (d : DecodingError) (e : EncodingError) :
    CommandError.MissingImage.display = "Missing image" ∧
    (CommandError.Decoding d).display = d.display ∧ (CommandError.Encoding e).display = e.display ∧
    (DecodingError.BadFileExtension path).display = "Bad file extension: " ++ path ∧
    DecodingError.UnknownFormat.display = "Unknown format" ∧
    (DecodingError.InvalidBufferSize w h).display =
      "Unsupported buffer size for image: " ++ toString w ++ "x" ++ toString h ∧
    (DecodingError.Decoding message).display = message ∧
    (DecodingError.IoError message).display = message ∧
    (EncodingError.BadFileExtension path).display = "Bad file extension: " ++ path ∧
    (EncodingError.BadDimensions message w h).display =
      "Image dimensions not supported by format " ++ message ++ ": " ++ toString w ++ "x" ++
        toString h ∧
    (EncodingError.Encoding message).display = message ∧
    (EncodingError.IoError message).display = message := by
  exact ⟨rfl, rfl, rfl, rfl, rfl, rfl, rfl, rfl, rfl, rfl, rfl, rfl⟩

/-! ## C61 -/

/-- Once there is an image, there always is one, and no command misses it. -/
theorem does_has_image [FloatBytes F] {env : Env σ F} {c : Cmd F String} {w w' : World σ F}
    {r : R (Except CommandError Unit)} (h : Does env c w w' r) (hi : w.image ≠ none) :
    w'.image ≠ none ∧ r ≠ failure .MissingImage := by
  cases h <;> simp_all

theorem C61_has_image [FloatBytes F] {env : Env σ F} {cmds : List (Cmd F String)}
    {w w' : World σ F} {r : R (Except CommandError Unit)} (h : Runs env cmds w w' r)
    (hi : w.image ≠ none) : w'.image ≠ none ∧ r ≠ failure .MissingImage := by
  induction h with
  | nil w => exact ⟨hi, by simp⟩
  | next c cs w w1 w2 r h1 h2 ih => exact ih (does_has_image h1 hi).1
  | stop c cs w w1 r h1 h2 => exact does_has_image h1 hi

/-- After a successful `open` nothing fails for want of an image. -/
theorem C61_after_open [FloatBytes F] {env : Env σ F} {cmds : List (Cmd F String)}
    {w w1 w' : World σ F} {path : String} {r : R (Except CommandError Unit)}
    (h1 : Does env (.Open path) w w1 success) (h : Runs env cmds w1 w' r) :
    r ≠ failure .MissingImage := by
  refine (C61_has_image h ?_).2
  cases h1 with
  | opened => simp
  | recoloured _ f _ _ hf => cases hf
  | noisy _ f _ _ _ _ hf => cases hf

/-- A run ends with `MissingImage` exactly if a command that needs an image comes before anything else
than `silent`; then nothing at all has been changed: no file, no random number, no image. -/
theorem C61_iff [FloatBytes F] (env : Env σ F) (cmds : List (Cmd F String)) (fs : FS) (g : σ)
    (w' : World σ F) :
    Runs env cmds ⟨fs, g, none⟩ w' (failure .MissingImage) ↔
      w' = ⟨fs, g, none⟩ ∧ ∃ silents c after, cmds = silents ++ c :: after ∧
        (∀ s ∈ silents, s = .Silent) ∧ c ≠ .Silent ∧ ∀ path, c ≠ .Open path := by
  constructor
  · generalize hw : (⟨fs, g, none⟩ : World σ F) = w
    generalize hr : (failure .MissingImage) = r
    intro h
    induction h with
    | nil => simp at hr
    | next c cs w w1 w2 r h1 h2 ih =>
      subst hw hr
      cases h1 with
      | silent =>
        obtain ⟨rfl, silents, c, after, rfl, h3, h4⟩ := ih rfl rfl
        refine ⟨rfl, .Silent :: silents, c, after, rfl, ?_, h4⟩
        intro s hs
        rcases List.mem_cons.1 hs with rfl | hs
        · rfl
        · exact h3 s hs
      | opened => exact absurd rfl (C61_has_image h2 (by simp)).2
      | saved _ _ _ _ h => simp at h
      | recoloured _ _ _ _ _ h => simp at h
      | rotated _ _ _ _ _ h => simp at h
      | noisy _ _ _ _ _ _ _ h => simp at h
    | stop c cs w w1 r h1 h2 =>
      subst hw hr
      generalize hr : (failure .MissingImage) = r at h1
      cases h1 with
      | missing _ _ h3 h4 => exact ⟨rfl, [], c, cs, rfl, by simp, h3, h4⟩
      | _ => simp at hr
  · rintro ⟨rfl, silents, c, after, rfl, h1, h2, h3⟩
    induction silents with
    | nil => exact .stop _ _ _ _ _ (.missing _ _ h2 h3 rfl) (by simp)
    | cons s ss ih =>
      obtain rfl := h1 s (.head _)
      exact .next _ _ _ _ _ _ (.silent _) (ih fun s hs => h1 s (.tail _ hs))

/-! ## C62 -/

omit [Scalar F] in
theorem log_step (env : Env σ F) (s : State σ F) (c : Cmd F String) :
    (s.log_command_step env c).log = { s.log with current := s.log.current + 1 } ∧
    (s.log_command_step env c).out = s.out ++ if s.log.disabled then []
      else [toString (s.log.current + 1) ++ "/" ++ toString s.log.total ++ ": " ++ env.debug c] := by
  unfold State.log_command_step
  simp only
  split <;> simp_all

/-- What one command prints, and what it does to the log. -/
theorem command_log [FloatBytes F] (env : Env σ F) (s : State σ F) (c : Cmd F String) :
    (execute_command env s c).1.log.total = s.log.total ∧
    (execute_command env s c).1.log.disabled = (s.log.disabled || isSilent c) ∧
    (isSilent c = false → (execute_command env s c).1.log.current = s.log.current + 1) ∧
    (execute_command env s c).1.out = s.out ++
      if s.log.disabled || isSilent c then []
      else [toString (s.log.current + 1) ++ "/" ++ toString s.log.total ++ ": " ++ env.debug c] := by
  have keep : isSilent c = false →
      (execute_command env s c).1.log = (s.log_command_step env c).log ∧
      (execute_command env s c).1.out = (s.log_command_step env c).out := by
    intro hc
    have img : ∀ (t : State σ F) (k : Image F → Done σ F),
        (∀ i, (k i).1.log = t.log ∧ (k i).1.out = t.out) →
        (t.with_image k).1.log = t.log ∧ (t.with_image k).1.out = t.out := by
      intro t k hk
      unfold State.with_image
      split
      · exact ⟨rfl, rfl⟩
      · exact hk _
    cases c
    case Silent => simp [isSilent] at hc
    all_goals
      simp only [execute_command, Cmd.ignore_in_log, Bool.false_eq_true, if_false]
      generalize s.log_command_step env _ = t
    case Open =>
      unfold execute_open
      split <;> exact ⟨rfl, rfl⟩
    all_goals first
      | exact img t _ fun i => ⟨rfl, rfl⟩
      | exact img t _ fun i => by split <;> exact ⟨rfl, rfl⟩
  cases hc : isSilent c
  · obtain ⟨h1, h2⟩ := keep hc
    obtain ⟨h3, h4⟩ := log_step env s c
    rw [h1, h2, h3, h4]
    simp
  · cases c <;> simp only [isSilent, Bool.false_eq_true] at hc
    simp [execute_command, Cmd.ignore_in_log, State.done, Log.disable]

theorem execute_log [FloatBytes F] (env : Env σ F) (cmds : List (Cmd F String)) (s : State σ F) :
    ∃ k, Started env cmds s.world (execute env s cmds).2 k ∧
      (execute env s cmds).1.out = s.out ++ if s.log.disabled then [] else
        ((cmds.take k).takeWhile fun c => !isSilent c).zipIdx.map fun (c, i) =>
          toString (s.log.current + i + 1) ++ "/" ++ toString s.log.total ++ ": " ++ env.debug c := by
  induction cmds generalizing s with
  | nil =>
    refine ⟨0, ?_, ?_⟩
    · simp [Started, execute, State.done]
    · simp [execute, State.done]
  | cons c cs ih =>
    obtain ⟨h1, h2, h3, h4⟩ := command_log env s c
    have hd := does_command env s c
    rcases hc : execute_command env s c with ⟨s', r'⟩
    rw [hc] at h1 h2 h3 h4 hd
    by_cases hr : r' = success
    · subst hr
      have he : execute env s (c :: cs) = execute env s' cs := by
        rw [execute, hc]
      rw [he]
      obtain ⟨k, hk, ho⟩ := ih s'
      refine ⟨k + 1, ?_, ?_⟩
      · unfold Started at hk ⊢
        split
        next h => rw [if_pos h] at hk; simp [hk]
        next h =>
          rw [if_neg h] at hk
          obtain ⟨w1, w2, k0, k1, k2, k3⟩ := hk
          obtain ⟨j, rfl⟩ := Nat.exists_eq_succ_of_ne_zero k0
          exact ⟨w1, w2, by simp, by simpa using k1, .next _ _ _ _ _ _ hd k2, .next _ _ _ _ _ _ hd k3⟩
      · rw [ho]
        simp only at h1 h2 h3 h4
        rw [h4, h2]
        cases hs : s.log.disabled <;> cases hb : isSilent c
        · simp only [Bool.or_false, Bool.false_eq_true, if_false]
          rw [List.take_succ_cons, List.takeWhile_cons_of_pos (by simp [hb]), List.zipIdx_cons,
            List.map_cons, h3 hb, h1, List.append_assoc, List.singleton_append, Nat.zero_add,
            List.zipIdx_succ, List.map_map]
          congr 2
          apply List.map_congr_left
          rintro ⟨a, i⟩ -
          simp only [Function.comp_apply]
          rw [show s.log.current + 1 + i + 1 = s.log.current + (i + 1) + 1 by omega]
        · simp [hb]
        · simp
        · simp
    · have he : execute env s (c :: cs) = (s', r') := by
        rw [execute, hc]
        split
        next h => cases h; exact absurd rfl hr
        next => rfl
      rw [he]
      refine ⟨1, ?_, ?_⟩
      · unfold Started
        rw [if_neg hr]
        exact ⟨_, _, by simp, by simp, .nil _, .stop _ _ _ _ _ hd hr⟩
      · simp only at h4 ⊢
        rw [h4]
        cases hs : s.log.disabled <;> cases hb : isSilent c <;> simp [hb]

/-- The log has one line for every command that was started before the first `silent`, with its number
and the number of all commands of the queue other than `silent`. -/
theorem C62_log [FloatBytes F] (env : Env σ F) (fs : FS) (g : σ) (out : List String)
    (q : Queue F String) (s : State σ F) (r : R (Except CommandError Unit))
    (h : q.run env fs g out = (s, r)) :
    ∃ k, Started env q.commands ⟨fs, g, none⟩ r k ∧
      s.out = out ++ progress env.debug (q.commands.filter fun c => !isSilent c).length
        ((q.commands.take k).takeWhile fun c => !isSilent c) := by
  have hf : (q.commands.filter fun cmd => !cmd.ignore_in_log) =
      q.commands.filter fun c => !isSilent c := by
    exact List.filter_congr fun c _ => by cases c <;> rfl
  obtain ⟨k, h1, h2⟩ := execute_log env q.commands
    { fs, rng := g, out, image := none,
      log := Log.new (q.commands.filter fun cmd => !cmd.ignore_in_log).length }
  have h' : execute env _ q.commands = (s, r) := h
  rw [h'] at h1 h2
  refine ⟨k, h1, ?_⟩
  rw [h2, hf]
  simp [Log.new, progress]

/-- Without `silent`, a successful run prints one line per command, numbered from 1 to their number. -/
theorem C62_all [FloatBytes F] (env : Env σ F) (fs : FS) (g : σ) (out : List String)
    (q : Queue F String) (s : State σ F) (hq : ∀ c ∈ q.commands, c ≠ .Silent)
    (h : q.run env fs g out = (s, success)) :
    s.out = out ++ progress env.debug q.commands.length q.commands := by
  obtain ⟨k, h1, h2⟩ := C62_log env fs g out q s _ h
  simp only [Started, if_true] at h1
  have hs : ∀ c ∈ q.commands, (!isSilent c) = true := by
    intro c hc
    have := hq c hc
    cases c <;> simp_all [isSilent]
  rw [h2, h1, List.take_length, List.filter_eq_self.2 hs, List.takeWhile_eq_self_iff.2 hs]

/-- A queue that begins with `silent` prints nothing, however it ends. -/
theorem C62_silent [FloatBytes F] (env : Env σ F) (fs : FS) (g : σ) (out : List String)
    (q : Queue F String) (rest : List (Cmd F String)) (hq : q.commands = .Silent :: rest)
    (s : State σ F) (r : R (Except CommandError Unit)) (h : q.run env fs g out = (s, r)) :
    s.out = out := by
  obtain ⟨k, h1, h2⟩ := C62_log env fs g out q s _ h
  rw [h2, hq]
  cases k <;> simp [progress, isSilent]

/-! ## Examples -/

section
variable [FloatBytes F]

/-- A generator that always draws the same. -/
def demoEnv : Env Unit F := ⟨demo, ⟨fun s => (Scalar.lit 0, s), fun s => (Scalar.lit 0, s),
  fun s => (Scalar.lit 0, s), fun s => (0, s)⟩, fun _ => "a command"⟩

omit [FloatBytes F] in
/-- Opening the JPEG file of `demoFS` succeeds. -/
theorem demo_open : ∃ b : PixelBuffer (Col F), decode_file demo demoFS "dir.png/.png" =
    .ok (.ok b) := by
  rw [C56_content (demo : Libs F) demoFS "dir.png/.png" _ .Jpeg rfl rfl ⟨[], rfl⟩]
  obtain ⟨b, hb, -⟩ := C50_read_jpeg (demo : Libs F) (input := [0xFF, 0xD8, 0xFF]) rfl rfl rfl
    (by simp [ValidSize])
  exact ⟨b, hb⟩

/-- A queue that opens a file, inverts and brightens the picture, and then cannot save it for want of
an extension. -/
theorem demo_run : ∃ w1 w2 : World Unit F,
    Runs demoEnv [.Open "dir.png/.png", .Silent, .Invert, .Gamma (Scalar.lit 2)]
      ⟨demoFS, (), none⟩ w1 success ∧
    Does demoEnv (.Save "dir.png/.png") w1 w2
      (failure (.Encoding (.BadFileExtension "dir.png/.png"))) := by
  obtain ⟨b, hb⟩ := demo_open (F := F)
  refine ⟨_, _, .next _ _ _ _ _ _ (.opened _ _ _ hb) (.next _ _ _ _ _ _ (.silent _)
    (.next _ _ _ _ _ _ (.recoloured _ _ _ _ .invert rfl)
      (.next _ _ _ _ _ _ (.recoloured _ _ _ _ (.gamma _) rfl) (.nil _)))),
    .not_saved _ _ _ _ _ rfl (C57_bad_extension _ _ _ _ unnamed_example)⟩

/-- It does not save what comes later, either. -/
theorem demo_fails : ∃ w' : World Unit F,
    Runs demoEnv [.Open "dir.png/.png", .Silent, .Invert, .Gamma (Scalar.lit 2),
      .Save "dir.png/.png", .Save "out.png"] ⟨demoFS, (), none⟩ w'
      (failure (.Encoding (.BadFileExtension "dir.png/.png"))) := by
  obtain ⟨w1, w2, h1, h2⟩ := demo_run (F := F)
  exact ⟨w2, (C60_append _ [_, _, _, _] [_, _] _ _ _).2 (.inl ⟨w1, h1, .stop _ _ _ _ _ h2 (by simp)⟩)⟩

example {w' : World Unit F} {r} (h : Runs demoEnv [.Open "dir.png/.png", .Silent, .Invert,
    .Gamma (Scalar.lit 2), .Save "dir.png/.png", .Save "out.png"] ⟨demoFS, (), none⟩ w' r)
    (hr : r = failure (.Encoding (.BadFileExtension "dir.png/.png"))) :=
  C60_first_failure h (by rw [hr]; simp)
example {w' : World Unit F} {r} (h : Runs demoEnv [.Open "dir.png/.png", .Silent, .Invert,
    .Gamma (Scalar.lit 2), .Save "dir.png/.png", .Save "out.png"] ⟨demoFS, (), none⟩ w' r) :
    w'.fs.content 7 = demoFS.content 7 :=
  C60_other_files h 7 fun p _ => by
    by_cases hp : p = "dir.png/.png" <;> simp [demoFS, hp]
example (b : PixelBuffer (Col F)) (fs' : FS) (hb : encode_to_file (demo : Libs F) demoFS "x.bmp" b none =
    (fs', .ok (.ok ()))) := C60_saved_remains (env := demoEnv)
  (w := ⟨demoFS, (), some ⟨b, none⟩⟩) (path := "x.bmp") (before := []) (after := [.Silent]) (.nil _)
  (.saved _ _ _ _ rfl hb) (.next _ _ _ _ _ _ (.saved _ _ _ _ rfl hb)
    (.next _ _ _ _ _ _ (.silent _) (.nil _))) (by simp)
example (b : PixelBuffer (Col F)) {w h px} (s : Shows b w h px) :=
  C60_recolour (demoEnv (F := F)) (.level (Scalar.lit 0) (Scalar.lit 1) (Scalar.lit 2))
    ⟨demoFS, (), some ⟨b, none⟩⟩ rfl s
example := demo_open.elim fun b hb =>
  C61_after_open (F := F) (env := demoEnv) (w := ⟨demoFS, (), none⟩) (.opened "dir.png/.png" _ b hb) (.nil _)
example : Runs (demoEnv (F := F)) [.Silent, .Silent, .Save "x.png"] ⟨demoFS, (), none⟩
    ⟨demoFS, (), none⟩ (failure .MissingImage) :=
  (C61_iff _ _ _ _ _).2 ⟨rfl, [.Silent, .Silent], _, [], rfl, by simp, by simp, by simp⟩
example := C62_log (demoEnv (F := F)) demoFS () [] ⟨[.Invert, .Silent, .Invert]⟩ _ _ rfl
example : progress (F := F) (fun _ => "a command") 7 [.Invert, .Save "x"] =
    ["1/7: a command", "2/7: a command"] := by
  simp only [progress, List.zipIdx, List.map]
  rfl
end

end D10
