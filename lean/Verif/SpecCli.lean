import Mathlib.Data.List.Forall2
import Verif.Model.Cli
import Verif.SpecOptions
import Verif.SpecCommands

/-!
# Specification of the command line (C63, C64, C79)

A grammar of the arguments after the program's name. `lossy` gives the text of an argument and
`number` the number that a text stands for, if any.
-/

namespace D10.Spec

variable {F P : Type}

/-- The options with one number. -/
inductive NumberOption : String → (F → Cmd F P) → Prop
  | gamma : NumberOption "gamma" .Gamma
  | brightness : NumberOption "brightness" .Brightness
  | contrast : NumberOption "contrast" .Contrast
  | saturation : NumberOption "saturation" .Saturation
  | stretch_saturation : NumberOption "stretch-saturation" .StretchSaturation
  | lightness : NumberOption "lightness" .Lightness
  | hue_rotate : NumberOption "hue-rotate" .HueRotate
  | rotate : NumberOption "rotate" fun v => .Rotate v .Bilinear
  | random_noise : NumberOption "random-noise" .RandomNoise
  | salt_n_pepper_noise : NumberOption "salt-n-pepper-noise" .SaltNPepperNoise
  | rgb_noise : NumberOption "rgb-noise" .RgbNoise

/-- `text` lists the numbers, separated by commas. -/
def Numbers (number : String → Option F) (text : String) (vs : List F) : Prop :=
  ∃ texts : List String, ",".intercalate texts = text ∧
    List.Forall₂ (fun t v => ',' ∉ t.toList ∧ number t = some v) texts vs

/-- An option with its parameter, and the command it stands for. -/
inductive OptionMeans (lossy : P → String) (number : String → Option F) : List P → Cmd F P → Prop
  | silent (o) : lossy o = "-" ++ "silent" → OptionMeans lossy number [o] .Silent
  | invert (o) : lossy o = "-" ++ "invert" → OptionMeans lossy number [o] .Invert
  | «open» (o p) : lossy o = "-" ++ "open" → OptionMeans lossy number [o, p] (.Open p)
  | save (o p) : lossy o = "-" ++ "save" → OptionMeans lossy number [o, p] (.Save p)
  | grayscale (o p i) : lossy o = "-" ++ "grayscale" → (lossy p, i) ∈ intensities →
      OptionMeans lossy number [o, p] (.ToGray i)
  | number (o p name cmd v) : NumberOption name cmd → lossy o = "-" ++ name →
      number (lossy p) = some v → OptionMeans lossy number [o, p] (cmd v)
  | brightness_contrast (o p b c) : lossy o = "-" ++ "brightness-contrast" →
      Numbers number (lossy p) [b, c] → OptionMeans lossy number [o, p] (.BrightnessContrast b c)
  | level (o p b w g) : lossy o = "-" ++ "level" → Numbers number (lossy p) [b, w, g] →
      OptionMeans lossy number [o, p] (.Level b w g)

/-- Does the argument begin with `-`? -/
def Dashed (lossy : P → String) (p : P) : Prop := ∃ name, lossy p = "-" ++ name

/-- One command: an option, or a file that is opened if it is the very first argument and saved
otherwise. -/
inductive ItemMeans (lossy : P → String) (number : String → Option F) :
    (first : Bool) → List P → Cmd F P → Prop
  | option (first words cmd) : OptionMeans lossy number words cmd → ItemMeans lossy number first words cmd
  | input (p) : ¬ Dashed lossy p → ItemMeans lossy number true [p] (.Open p)
  | output (p) : ¬ Dashed lossy p → ItemMeans lossy number false [p] (.Save p)

/-- All arguments. -/
inductive LineMeans (lossy : P → String) (number : String → Option F) :
    (first : Bool) → List P → List (Cmd F P) → Prop
  | nil (first) : LineMeans lossy number first [] []
  | cons (first words cmd rest cmds) : ItemMeans lossy number first words cmd →
      LineMeans lossy number false rest cmds → LineMeans lossy number first (words ++ rest) (cmd :: cmds)

/-- The options that need a parameter. -/
def withParameter : List String :=
  ["open", "save", "grayscale", "gamma", "brightness", "contrast", "saturation", "stretch-saturation",
   "lightness", "hue-rotate", "rotate", "random-noise", "salt-n-pepper-noise", "rgb-noise",
   "brightness-contrast", "level"]

/-- Arguments that begin with something wrong, and what is said about it. -/
inductive Wrong (lossy : P → String) (number : String → Option F) : List P → String → Prop
  | unknown (o rest) : Dashed lossy o →
      (∀ name ∈ "silent" :: "invert" :: withParameter, lossy o ≠ "-" ++ name) →
      Wrong lossy number (o :: rest) ("Unknown argument: " ++ lossy o)
  | missing (o name) : name ∈ withParameter → lossy o = "-" ++ name →
      Wrong lossy number [o] ("Missing parameter for argument: " ++ name)
  | not_intensity (o p rest) : lossy o = "-" ++ "grayscale" → (∀ i, (lossy p, i) ∉ intensities) →
      Wrong lossy number (o :: p :: rest) ("Unknown value for Intensity: " ++ lossy p)
  | not_number (o p rest name) (cmd : F → Cmd F P) : NumberOption name cmd → lossy o = "-" ++ name →
      number (lossy p) = none →
      Wrong lossy number (o :: p :: rest) ("Bad argument for parameter " ++ name ++ ": " ++ lossy p)
  | not_two (o p rest) : lossy o = "-" ++ "brightness-contrast" →
      (∀ b c, ¬ Numbers number (lossy p) [b, c]) → Wrong lossy number (o :: p :: rest)
        ("Bad argument for parameter " ++ "brightness-contrast" ++ ": " ++ lossy p)
  | not_three (o p rest) : lossy o = "-" ++ "level" →
      (∀ b w g, ¬ Numbers number (lossy p) [b, w, g]) → Wrong lossy number (o :: p :: rest)
        ("Bad argument for parameter " ++ "level" ++ ": " ++ lossy p)

/-- How the program ends, what it prints on the way and what it leaves of the files and the random
generator: a message on the standard error and the exit code 1, or no message and the exit code 0. -/
inductive Ends {σ : Type} [Scalar F] [FloatBytes F] (number : String → Option F) (env : Env σ F)
    (fs : FS) (g : σ) : (argv : List String) → FS → σ → (printed : List String) → R Exit → Prop
  | no_arguments (program) :
      Ends number env fs g [program] fs g [] (.ok ⟨["Missing arguments"], 1⟩)
  | wrong (argv good bad cmds msg) : argv.length ≠ 1 → argv.tail = good ++ bad →
      LineMeans id number true good cmds → Wrong id number bad msg →
      Ends number env fs g argv fs g [] (.ok ⟨[msg], 1⟩)
  | run (argv cmds k w r) : argv.length ≠ 1 → LineMeans id number true argv.tail cmds →
      Runs env cmds ⟨fs, g, none⟩ w r → Started env cmds ⟨fs, g, none⟩ r k →
      Ends number env fs g argv w.fs w.rng
        (progress env.debug (cmds.filter fun c => !isSilent c).length
          ((cmds.take k).takeWhile fun c => !isSilent c))
        (match r with
          | .ok (.ok ()) => .ok ⟨[], 0⟩
          | .ok (.error e) => .ok ⟨[e.display], 1⟩
          | .error p => .error p)

end D10.Spec
