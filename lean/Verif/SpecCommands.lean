import Verif.Model.Commands

/-!
# Specification of command queues (C60 - C62)

What a single command does, as rules about the file system, the random generator and the current
image, and what a run of several commands is. The operations on pixels, `decode_file` and
`encode_to_file` are specified elsewhere.
-/

namespace D10.Spec

variable {σ F : Type} [Scalar F]

/-- What a run works on. -/
structure World (σ F : Type) where
  fs : FS
  rng : σ
  image : Option (Image F)

/-- The colour commands, and what they do to a colour. -/
inductive Recolours : Cmd F String → (Col F → Col F) → Prop
  | to_gray (i) : Recolours (.ToGray i) fun c => Rgb.to_gray_with_intensity c i
  | invert : Recolours .Invert fun c => Rgb.invert c
  | gamma (g) : Recolours (.Gamma g) fun c => Rgb.with_gamma c g
  | level (b w g) : Recolours (.Level b w g) fun c => Rgb.with_level c b w g
  | brightness (v) : Recolours (.Brightness v) fun c => Rgb.with_brightness c v
  | contrast (v) : Recolours (.Contrast v) fun c => Rgb.with_contrast c v
  | brightness_contrast (b k) :
      Recolours (.BrightnessContrast b k) fun c => Rgb.with_brightness_contrast c b k
  | saturation (v) : Recolours (.Saturation v) fun c => Rgb.with_saturation c v
  | stretch_saturation (v) : Recolours (.StretchSaturation v) fun c => Rgb.stretch_saturation c v
  | lightness (v) : Recolours (.Lightness v) fun c => Rgb.with_lightness c v
  | hue_rotate (v) : Recolours (.HueRotate v) fun c => Rgb.with_hue_rotate c v

/-- The noise commands, and the noise they add to the pixels. -/
inductive AddsNoise (g : Rng σ F) :
    Cmd F String → (PixelBuffer (Col F) → StateT σ R (PixelBuffer (Col F))) → Prop
  | random (a) : AddsNoise g (.RandomNoise a) fun b => random_noise g .rgb b a
  | salt_n_pepper (t) : AddsNoise g (.SaltNPepperNoise t) fun b => salt_n_pepper_noise g b t
  | rgb (t) : AddsNoise g (.RgbNoise t) fun b => rgb_noise g b t

/-- Success. -/
abbrev success : R (Except CommandError Unit) := .ok (.ok ())
/-- An error that is reported. -/
abbrev failure (e : CommandError) : R (Except CommandError Unit) := .ok (.error e)

/-- The rules for one command: from a world to a world, with a result. A panic is a result, too. -/
inductive Does [FloatBytes F] (env : Env σ F) :
    Cmd F String → World σ F → World σ F → R (Except CommandError Unit) → Prop
  /-- `silent` only concerns the log. -/
  | silent (w) : Does env .Silent w w success
  /-- `open` makes the picture in the file the current image. -/
  | opened (path w b) : decode_file env.libs w.fs path = .ok (.ok b) →
      Does env (.Open path) w { w with image := some ⟨b, none⟩ } success
  | not_opened (path w e) : decode_file env.libs w.fs path = .ok (.error e) →
      Does env (.Open path) w w (failure (.Decoding e))
  | open_panics (path w p) : decode_file env.libs w.fs path = .error p →
      Does env (.Open path) w w (.error p)
  /-- Everything else needs an image. -/
  | missing (cmd w) : cmd ≠ .Silent → (∀ path, cmd ≠ .Open path) → w.image = none →
      Does env cmd w w (failure .MissingImage)
  /-- `save` writes it to a file, in the format that the name of the file says. -/
  | saved (path w img fs') : w.image = some img →
      encode_to_file env.libs w.fs path img.buffer none = (fs', .ok (.ok ())) →
      Does env (.Save path) w { w with fs := fs' } success
  | not_saved (path w img fs' e) : w.image = some img →
      encode_to_file env.libs w.fs path img.buffer none = (fs', .ok (.error e)) →
      Does env (.Save path) w { w with fs := fs' } (failure (.Encoding e))
  | save_panics (path w img fs' p) : w.image = some img →
      encode_to_file env.libs w.fs path img.buffer none = (fs', .error p) →
      Does env (.Save path) w { w with fs := fs' } (.error p)
  /-- The colour commands change every pixel. -/
  | recoloured (cmd f w img) : Recolours cmd f → w.image = some img →
      Does env cmd w ⟨w.fs, w.rng,
        some ⟨⟨img.buffer.width, img.buffer.height, img.buffer.data.map f⟩, img.bg_color⟩⟩ success
  /-- `rotate` turns the image over its background colour, or over nothing. -/
  | rotated (a filter w img b) : w.image = some img →
      rotate img.buffer a (img.bg_color.getD Rgb.NONE) filter = .ok b →
      Does env (.Rotate a filter) w { w with image := some ⟨b, img.bg_color⟩ } success
  | rotate_panics (a filter w img p) : w.image = some img →
      rotate img.buffer a (img.bg_color.getD Rgb.NONE) filter = .error p →
      Does env (.Rotate a filter) w w (.error p)
  /-- The noise commands also use up random numbers. -/
  | noisy (cmd f w img b g') : AddsNoise env.rng cmd f → w.image = some img →
      (f img.buffer).run w.rng = .ok (b, g') →
      Does env cmd w { w with image := some ⟨b, img.bg_color⟩, rng := g' } success
  | noise_panics (cmd f w img p) : AddsNoise env.rng cmd f → w.image = some img →
      (f img.buffer).run w.rng = .error p → Does env cmd w w (.error p)

/-- One command after the other, until one of them does not succeed. -/
inductive Runs [FloatBytes F] (env : Env σ F) :
    List (Cmd F String) → World σ F → World σ F → R (Except CommandError Unit) → Prop
  | nil (w) : Runs env [] w w success
  | next (c cs w w' w'' r) : Does env c w w' success → Runs env cs w' w'' r →
      Runs env (c :: cs) w w'' r
  | stop (c cs w w' r) : Does env c w w' r → r ≠ success → Runs env (c :: cs) w w' r

open Classical in
/-- `k` is how many of the commands were started: all of them if the run succeeded, and otherwise
those up to the one that did not. -/
def Started [FloatBytes F] (env : Env σ F) (cmds : List (Cmd F String)) (w : World σ F)
    (r : R (Except CommandError Unit)) (k : Nat) : Prop :=
  if r = success then k = cmds.length
  else ∃ w1 w2, k ≠ 0 ∧ k ≤ cmds.length ∧ Runs env (cmds.take (k - 1)) w w1 success ∧
    Runs env (cmds.take k) w w2 r

/-- Is it the command `silent`? -/
def isSilent {P : Type} : Cmd F P → Bool
  | .Silent => true
  | _ => false

/-- The lines `1/n: ..`, `2/n: ..`, one for each of the commands. -/
def progress (debug : Cmd F String → String) (n : Nat) (cmds : List (Cmd F String)) : List String :=
  cmds.zipIdx.map fun (c, i) => toString (i + 1) ++ "/" ++ toString n ++ ": " ++ debug c

end D10.Spec
