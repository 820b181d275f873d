import Verif.Model.Commands

/-!
# The command line

d10-cli/src/main.rs. `P` is `OsString`, `lossy` its `to_string_lossy`; `parseF32` is
`str::parse::<f32>`. Both are arbitrary functions here.
-/

namespace D10

variable {F P : Type}

/-- main.rs:71-78 `ArgHandler`. -/
inductive ArgHandler (F P : Type)
  | None (h : Cmd F P)
  | String (h : String → Except String (Cmd F P))
  | OsString (h : P → Except String (Cmd F P))
  | Number (h : F → Except String (Cmd F P))
  | Number2 (h : F → F → Except String (Cmd F P))
  | Number3 (h : F → F → F → Except String (Cmd F P))

/-- main.rs:80-83 `Arg`. -/
structure Arg (F P : Type) where
  name : String
  handler : ArgHandler F P

/-- main.rs:67-69 `parse_intensity`. -/
def parse_intensity (arg : String) : Except String Intensity :=
  match Intensity.from_str arg with
  | .ok i => .ok i
  | .error err => .error err.display

/-- main.rs:29-65 `create_args`. The builder functions of main.rs:90-160 append to the list. -/
def create_args : List (Arg F P) := [
  ⟨"silent", .None .Silent⟩,
  ⟨"open", .OsString fun v => .ok (.Open v)⟩,
  ⟨"save", .OsString fun v => .ok (.Save v)⟩,
  ⟨"grayscale", .String fun v => do return .ToGray (← parse_intensity v)⟩,
  ⟨"invert", .None .Invert⟩,
  ⟨"gamma", .Number fun v => .ok (.Gamma v)⟩,
  ⟨"level", .Number3 fun v1 v2 v3 => .ok (.Level v1 v2 v3)⟩,
  ⟨"brightness", .Number fun v => .ok (.Brightness v)⟩,
  ⟨"contrast", .Number fun v => .ok (.Contrast v)⟩,
  ⟨"brightness-contrast", .Number2 fun v1 v2 => .ok (.BrightnessContrast v1 v2)⟩,
  ⟨"saturation", .Number fun v => .ok (.Saturation v)⟩,
  ⟨"stretch-saturation", .Number fun v => .ok (.StretchSaturation v)⟩,
  ⟨"lightness", .Number fun v => .ok (.Lightness v)⟩,
  ⟨"hue-rotate", .Number fun v => .ok (.HueRotate v)⟩,
  ⟨"rotate", .Number fun v => .ok (.Rotate v .Bilinear)⟩,
  ⟨"random-noise", .Number fun v => .ok (.RandomNoise v)⟩,
  ⟨"salt-n-pepper-noise", .Number fun v => .ok (.SaltNPepperNoise v)⟩,
  ⟨"rgb-noise", .Number fun v => .ok (.RgbNoise v)⟩]

/-- `str::split(',')` collected into a vector of strings. -/
def splitComma (s : String) : List String := (s.toList.splitOn ',').map String.ofList

/-- The message of main.rs:194-208 and L215-250. -/
def missingParameter (name : String) : String := "Missing parameter for argument: " ++ name

/-- The message of main.rs:211, L225-229 and L234-238, L250-254 and L259-263. -/
def badArgument (name value : String) : String :=
  "Bad argument for parameter " ++ name ++ ": " ++ value

/-- main.rs:188-266 `Args::parse_arg`: the command and the arguments left. -/
def parse_arg (lossy : P → String) (parseF32 : String → Option F) (arg : Arg F P) (iter : List P) :
    Except String (Cmd F P × List P) :=
  match arg.handler, iter with
  | .None h, iter => .ok (h, iter)
  | _, [] => .error (missingParameter arg.name)
  | .String h, s :: iter => do return (← h (lossy s), iter)
  | .OsString h, s :: iter => do return (← h s, iter)
  | .Number h, s :: iter =>
    let v := lossy s
    match parseF32 v with
    | some v => do return (← h v, iter)
    | none => .error (badArgument arg.name v)
  | .Number2 h, s :: iter =>
    let v := splitComma (lossy s)
    match v with
    | [a, b] => match parseF32 a, parseF32 b with
      | some v1, some v2 => do return (← h v1 v2, iter)
      | _, _ => .error (badArgument arg.name (",".intercalate v))
    | _ => .error (badArgument arg.name (",".intercalate v))
  | .Number3 h, s :: iter =>
    let v := splitComma (lossy s)
    match v with
    | [a, b, c] => match parseF32 a, parseF32 b, parseF32 c with
      | some v1, some v2, some v3 => do return (← h v1 v2 v3, iter)
      | _, _, _ => .error (badArgument arg.name (",".intercalate v))
    | _ => .error (badArgument arg.name (",".intercalate v))

/-- `parse_arg` never gives back more arguments than it got, so the loop below ends. -/
theorem parse_arg_length {lossy : P → String} {parseF32 : String → Option F} {arg : Arg F P}
    {iter rest : List P} {cmd : Cmd F P}
    (h : parse_arg lossy parseF32 arg iter = .ok (cmd, rest)) : rest.length ≤ iter.length := by
  unfold parse_arg at h
  simp only [bind, Except.bind, pure, Except.pure] at h
  repeat' split at h
  all_goals first
    | (cases h; done)
    | (cases h; exact Nat.le_refl _)
    | (cases h; exact Nat.le_succ _)

/-- main.rs:167-183, the loop of `Args::parse`. -/
def parseLoop (lossy : P → String) (parseF32 : String → Option F) (args : List (Arg F P))
    (queue : Queue F P) (iter : List P) : Except String (Queue F P) :=
  match iter with
  | [] => .ok queue
  | arg :: iter =>
    let string_arg := lossy arg
    if string_arg.toList.head? = some '-' then
      match args.find? fun arg_info => arg_info.name == String.ofList (string_arg.toList.drop 1) with
      | some info =>
        match h : parse_arg lossy parseF32 info iter with
        | .ok (cmd, rest) =>
          have := parse_arg_length h
          parseLoop lossy parseF32 args (queue.push cmd) rest
        | .error e => .error e
      | none => .error ("Unknown argument: " ++ string_arg)
    else if queue.is_empty then
      parseLoop lossy parseF32 args (queue.push (.Open arg)) iter
    else
      parseLoop lossy parseF32 args (queue.push (.Save arg)) iter
termination_by iter.length

/-- main.rs:162-186 `Args::parse`. -/
def parse (lossy : P → String) (parseF32 : String → Option F) (args : List (Arg F P))
    (argv : List P) : Except String (Queue F P) :=
  parseLoop lossy parseF32 args Queue.new argv.tail

/-- How the process ends: what it wrote to the standard error, and its exit code. -/
structure Exit where
  stderr : List String
  code : Nat
deriving DecidableEq

/-- main.rs:7-27 `main`, for arguments in UTF-8: the state and the end of the process. -/
def main [Scalar F] [FloatBytes F] {σ : Type} (parseF32 : String → Option F) (env : Env σ F)
    (fs : FS) (rng : σ) (args : List String) : FS × σ × List String × R Exit :=
  if args.length = 1 then (fs, rng, [], .ok ⟨["Missing arguments"], 1⟩)
  else
    match parse id parseF32 create_args args with
    | .error err => (fs, rng, [], .ok ⟨[err], 1⟩)
    | .ok queue =>
      match queue.run env fs rng [] with
      | (s, .ok (.ok ())) => (s.fs, s.rng, s.out, .ok ⟨[], 0⟩)
      | (s, .ok (.error err)) => (s.fs, s.rng, s.out, .ok ⟨[err.display], 1⟩)
      | (s, .error p) => (s.fs, s.rng, s.out, .error p)

end D10
