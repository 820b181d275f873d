import Verif.Model.Image

/-!
# Command queues

d10-commands/src/{commands,errors,log,queue}.rs, and the `Display` implementations of
d10-codecs/src/errors.rs that the command line prints.

What a run can change is a record `State`: the file system, the thread's random generator, the
standard output, the current image (`Context`) and the log. A command returns the state afterwards and
its result; the result of a command that panics is the panic. `println!` is assumed not to fail.
-/

namespace D10

/-- d10-codecs/src/errors.rs:14-27 `Display for DecodingError`. -/
def DecodingError.display : DecodingError → String
  | .BadFileExtension path => "Bad file extension: " ++ path
  | .UnknownFormat => "Unknown format"
  | .InvalidBufferSize width height =>
    "Unsupported buffer size for image: " ++ toString width ++ "x" ++ toString height
  | .Decoding message => message
  | .IoError err => err

/-- d10-codecs/src/errors.rs:49-68 `Display for EncodingError`. -/
def EncodingError.display : EncodingError → String
  | .BadFileExtension path => "Bad file extension: " ++ path
  | .BadDimensions format width height =>
    "Image dimensions not supported by format " ++ format ++ ": " ++ toString width ++ "x" ++
      toString height
  | .Encoding message => message
  | .IoError err => err

/-- commands.rs:7-37 `Cmd`. `P` is the type of paths. -/
inductive Cmd (F P : Type)
  | Silent
  | Open (path : P)
  | Save (path : P)
  | ToGray (intensity : Intensity)
  | Invert
  | Gamma (gamma : F)
  | Level (black_point white_point gamma : F)
  | Brightness (brightness : F)
  | Contrast (contrast : F)
  | BrightnessContrast (brightness contrast : F)
  | Saturation (saturation : F)
  | StretchSaturation (saturation : F)
  | Lightness (lightness : F)
  | HueRotate (rotation : F)
  | Rotate (radians : F) (filter : FilterMode)
  | RandomNoise (alpha : F)
  | SaltNPepperNoise (threshold : F)
  | RgbNoise (threshold : F)

/-- commands.rs:39-43 `Cmd::ignore_in_log`. -/
def Cmd.ignore_in_log {F P : Type} : Cmd F P → Bool
  | .Silent => true
  | _ => false

/-- errors.rs:7-12 `CommandError`. -/
inductive CommandError
  | MissingImage
  | Decoding (err : DecodingError)
  | Encoding (err : EncodingError)
deriving DecidableEq, Repr

/-- errors.rs:14-22 `Display for CommandError`. -/
def CommandError.display : CommandError → String
  | .MissingImage => "Missing image"
  | .Decoding err => err.display
  | .Encoding err => err.display

/-- log.rs:3-7 `Log`. -/
structure Log where
  disabled : Bool
  total : Nat
  current : Nat

/-- log.rs:10-16 `Log::new`. -/
def Log.new (total : Nat) : Log := { disabled := false, total, current := 0 }

/-- log.rs:18-20 `Log::disable`. -/
def Log.disable (log : Log) : Log := { log with disabled := true }

/-- Everything a run can change. -/
structure State (σ F : Type) where
  fs : FS
  rng : σ
  /-- the lines printed so far -/
  out : List String
  /-- commands.rs:45-47 `Context.image` -/
  image : Option (Image F)
  log : Log

/-- What the program takes from outside: the codec libraries, the random generator and the text that
`derive(Debug)` gives for a command. -/
structure Env (σ F : Type) where
  libs : Libs F
  rng : Rng σ F
  debug : Cmd F String → String

variable {σ F : Type} [Scalar F]

/-- log.rs:22-27 `Log::log_command_step`. The counter cannot overflow: it stays below the length of a
vector. -/
def State.log_command_step (env : Env σ F) (s : State σ F) (cmd : Cmd F String) : State σ F :=
  let log := { s.log with current := s.log.current + 1 }
  if log.disabled then { s with log }
  else { s with
    log
    out := s.out ++ [toString log.current ++ "/" ++ toString log.total ++ ": " ++ env.debug cmd] }

/-- The state after a command, and its result. -/
abbrev Done (σ F : Type) := State σ F × R (Except CommandError Unit)

/-- The command was executed. -/
def State.done (s : State σ F) : Done σ F := (s, .ok (.ok ()))

/-- commands.rs:49-53 `Context::image` followed by `?`. -/
def State.with_image (s : State σ F) (k : Image F → Done σ F) : Done σ F :=
  match s.image with
  | none => (s, .ok (.error .MissingImage))
  | some image => k image

/-- commands.rs:94-97 `execute_open`. -/
def execute_open (env : Env σ F) (s : State σ F) (path : String) : Done σ F :=
  match Image.open env.libs s.fs path with
  | .error p => (s, .error p)
  | .ok (.error e) => (s, .ok (.error (.Decoding e)))
  | .ok (.ok image) => State.done { s with image := some image }

/-- commands.rs:99-101 `execute_save`. -/
def execute_save [FloatBytes F] (env : Env σ F) (s : State σ F) (path : String) : Done σ F :=
  s.with_image fun image =>
    match image.save env.libs s.fs path with
    | (fs, .error p) => ({ s with fs }, .error p)
    | (fs, .ok (.error e)) => ({ s with fs }, .ok (.error (.Encoding e)))
    | (fs, .ok (.ok ())) => State.done { s with fs }

/-- `ctx.image()?.mod_colors(func); Ok(())`, the body of the colour commands below. -/
def execute_mod_colors (s : State σ F) (func : Col F → Col F) : Done σ F :=
  s.with_image fun image => State.done { s with image := some (image.mod_colors func) }

/-- commands.rs:103-107 `execute_to_gray`. -/
def execute_to_gray (s : State σ F) (intensity : Intensity) : Done σ F :=
  execute_mod_colors s fun c => Rgb.to_gray_with_intensity c intensity

/-- commands.rs:109-112 `execute_invert`. -/
def execute_invert (s : State σ F) : Done σ F := execute_mod_colors s fun c => Rgb.invert c

/-- commands.rs:114-117 `execute_gamma`. -/
def execute_gamma (s : State σ F) (gamma : F) : Done σ F :=
  execute_mod_colors s fun c => Rgb.with_gamma c gamma

/-- commands.rs:119-128 `execute_level`. -/
def execute_level (s : State σ F) (black_point white_point gamma : F) : Done σ F :=
  execute_mod_colors s fun c => Rgb.with_level c black_point white_point gamma

/-- commands.rs:130-133 `execute_brightness`. -/
def execute_brightness (s : State σ F) (brightness : F) : Done σ F :=
  execute_mod_colors s fun c => Rgb.with_brightness c brightness

/-- commands.rs:135-138 `execute_contrast`. -/
def execute_contrast (s : State σ F) (contrast : F) : Done σ F :=
  execute_mod_colors s fun c => Rgb.with_contrast c contrast

/-- commands.rs:140-148 `execute_brightness_contrast`. -/
def execute_brightness_contrast (s : State σ F) (brightness contrast : F) : Done σ F :=
  execute_mod_colors s fun c => Rgb.with_brightness_contrast c brightness contrast

/-- commands.rs:150-153 `execute_saturation`. -/
def execute_saturation (s : State σ F) (saturation : F) : Done σ F :=
  execute_mod_colors s fun c => Rgb.with_saturation c saturation

/-- commands.rs:155-159 `execute_stretch_saturation`. -/
def execute_stretch_saturation (s : State σ F) (saturation : F) : Done σ F :=
  execute_mod_colors s fun c => Rgb.stretch_saturation c saturation

/-- commands.rs:161-164 `execute_lightness`. -/
def execute_lightness (s : State σ F) (lightness : F) : Done σ F :=
  execute_mod_colors s fun c => Rgb.with_lightness c lightness

/-- commands.rs:166-169 `execute_hue_rotate`. -/
def execute_hue_rotate (s : State σ F) (rotation : F) : Done σ F :=
  execute_mod_colors s fun c => Rgb.with_hue_rotate c rotation

/-- commands.rs:171-174 `execute_rotate`. -/
def execute_rotate (s : State σ F) (radians : F) (filter : FilterMode) : Done σ F :=
  s.with_image fun image =>
    match image.rotate radians filter with
    | .error p => (s, .error p)
    | .ok image => State.done { s with image := some image }

/-- `ctx.image = Some(ctx.image()?.noise(..)); Ok(())`, the body of the noise commands below. -/
def execute_noise (s : State σ F) (noise : Image F → StateT σ R (Image F)) : Done σ F :=
  s.with_image fun image =>
    match (noise image).run s.rng with
    | .error p => (s, .error p)
    | .ok (image, rng) => State.done { s with image := some image, rng }

/-- commands.rs:176-179 `execute_random_noise`. -/
def execute_random_noise (env : Env σ F) (s : State σ F) (alpha : F) : Done σ F :=
  execute_noise s fun image => image.random_noise env.rng alpha

/-- commands.rs:181-184 `execute_salt_n_pepper_noise`. -/
def execute_salt_n_pepper_noise (env : Env σ F) (s : State σ F) (threshold : F) : Done σ F :=
  execute_noise s fun image => image.salt_n_pepper_noise env.rng threshold

/-- commands.rs:186-189 `execute_rgb_noise`. -/
def execute_rgb_noise (env : Env σ F) (s : State σ F) (threshold : F) : Done σ F :=
  execute_noise s fun image => image.rgb_noise env.rng threshold

/-- commands.rs:57-88, the body of the loop of `execute`. -/
def execute_command [FloatBytes F] (env : Env σ F) (s : State σ F) (cmd : Cmd F String) : Done σ F :=
  let s := if cmd.ignore_in_log then s else s.log_command_step env cmd
  match cmd with
  | .Silent => State.done { s with log := s.log.disable }
  | .Open path => execute_open env s path
  | .Save path => execute_save env s path
  | .ToGray intensity => execute_to_gray s intensity
  | .Invert => execute_invert s
  | .Gamma gamma => execute_gamma s gamma
  | .Level black_point white_point gamma => execute_level s black_point white_point gamma
  | .Brightness brightness => execute_brightness s brightness
  | .Contrast contrast => execute_contrast s contrast
  | .BrightnessContrast brightness contrast => execute_brightness_contrast s brightness contrast
  | .Saturation saturation => execute_saturation s saturation
  | .StretchSaturation saturation => execute_stretch_saturation s saturation
  | .Lightness lightness => execute_lightness s lightness
  | .HueRotate rotation => execute_hue_rotate s rotation
  | .Rotate radians filter => execute_rotate s radians filter
  | .RandomNoise alpha => execute_random_noise env s alpha
  | .SaltNPepperNoise threshold => execute_salt_n_pepper_noise env s threshold
  | .RgbNoise threshold => execute_rgb_noise env s threshold

/-- commands.rs:55-92 `execute`. -/
def execute [FloatBytes F] (env : Env σ F) (s : State σ F) : List (Cmd F String) → Done σ F
  | [] => s.done
  | cmd :: commands =>
    match execute_command env s cmd with
    | (s', .ok (.ok ())) => execute env s' commands
    | r => r

/-- queue.rs:6-8 `Queue`. -/
structure Queue (F P : Type) where
  commands : List (Cmd F P)

namespace Queue
variable {P : Type}

/-- queue.rs:11-13 `new` and queue.rs:116-120 `default`. -/
def new : Queue F P := { commands := [] }

/-- queue.rs:15-29 `run`, with what it finds outside: a file system, a random generator and what has
been printed. -/
def run [FloatBytes F] (env : Env σ F) (fs : FS) (rng : σ) (out : List String)
    (q : Queue F String) : Done σ F :=
  let total := (q.commands.filter fun cmd => !cmd.ignore_in_log).length
  execute env { fs, rng, out, image := none, log := Log.new total } q.commands

/-- queue.rs:31-33 `is_empty`. -/
def is_empty (q : Queue F P) : Bool := q.commands.isEmpty

/-- queue.rs:35-37 `len`. -/
def len (q : Queue F P) : Nat := q.commands.length

/-- queue.rs:39-41 `push`. -/
def push (q : Queue F P) (command : Cmd F P) : Queue F P := { commands := q.commands ++ [command] }

/-- queue.rs:43-46 `with`. -/
def «with» (q : Queue F P) (command : Cmd F P) : Queue F P := { commands := q.commands ++ [command] }

/-- queue.rs:48-50 -/
def silent (q : Queue F P) : Queue F P := q.with .Silent
/-- queue.rs:52-54 -/
def «open» (q : Queue F P) (path : P) : Queue F P := q.with (.Open path)
/-- queue.rs:56-58 -/
def save (q : Queue F P) (path : P) : Queue F P := q.with (.Save path)
/-- queue.rs:60-62 -/
def to_gray (q : Queue F P) (intensity : Intensity) : Queue F P := q.with (.ToGray intensity)
/-- queue.rs:64-66 -/
def invert (q : Queue F P) : Queue F P := q.with .Invert
/-- queue.rs:68-70 -/
def gamma (q : Queue F P) (value : F) : Queue F P := q.with (.Gamma value)
/-- queue.rs:72-78 -/
def level (q : Queue F P) (black_point white_point gamma : F) : Queue F P :=
  q.with (.Level black_point white_point gamma)
/-- queue.rs:80-82 -/
def brightness (q : Queue F P) (value : F) : Queue F P := q.with (.Brightness value)
/-- queue.rs:84-86 -/
def contrast (q : Queue F P) (value : F) : Queue F P := q.with (.Contrast value)
/-- queue.rs:88-93 -/
def brightness_contrast (q : Queue F P) (brightness contrast : F) : Queue F P :=
  q.with (.BrightnessContrast brightness contrast)
/-- queue.rs:95-97 -/
def saturation (q : Queue F P) (value : F) : Queue F P := q.with (.Saturation value)
/-- queue.rs:99-101 -/
def stretch_saturation (q : Queue F P) (value : F) : Queue F P := q.with (.StretchSaturation value)
/-- queue.rs:103-105 -/
def lightness (q : Queue F P) (value : F) : Queue F P := q.with (.Lightness value)
/-- queue.rs:107-109 -/
def hue_rotate (q : Queue F P) (value : F) : Queue F P := q.with (.HueRotate value)
/-- queue.rs:111-113 -/
def rotate (q : Queue F P) (radians : F) (filter : FilterMode) : Queue F P :=
  q.with (.Rotate radians filter)

end Queue
end D10
