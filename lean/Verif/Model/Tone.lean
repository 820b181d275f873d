import Verif.Model.Ops

/-!
# Temperature, lightness and saturation of a whole image

d10-ops/src/{temperature,lightness,saturation}.rs.
-/

namespace D10
open Scalar (lit abs clamp asUsize ofNat tanh powf)

/-- The program's two float types: `F` is `f32`, `D` is `f64`. -/
class Widen (F D : Type) [Scalar F] [Scalar D] where
  /-- `x as f64` -/
  up : F → D
  /-- `x as f32` -/
  down : D → F

variable {F D : Type} [Scalar F] [Scalar D] [Widen F D]

/-! ## temperature.rs -/

/-- temperature.rs:89-103 `TEMPERATURE_TABLE`: CIE x,y for 1000, 2000, ..., 12000. -/
def TEMPERATURE_TABLE : List (D × D) := [
  (lit 0.652750055750174, lit 0.344462227197370),
  (lit 0.526676280311873, lit 0.413297274507630),
  (lit 0.436929833678155, lit 0.404073616886221),
  (lit 0.380438429420364, lit 0.376746069841299),
  (lit 0.345100160725069, lit 0.351607005318840),
  (lit 0.322082269887888, lit 0.331752126277376),
  (lit 0.306372718718652, lit 0.316511125739794),
  (lit 0.295186142428596, lit 0.304763622626521),
  (lit 0.286924765725065, lit 0.295581717193809),
  (lit 0.280632719756407, lit 0.288286029784579),
  (lit 0.275714062105148, lit 0.282393589935205),
  (lit 0.271782994107569, lit 0.277561259748537)]

/-- temperature.rs:64-87 `convert_kelvin_to_rgb`. `usize::clamp(1000, 12000)`. -/
def convert_kelvin_to_rgb (D : Type) [Scalar D] [Widen F D] (temperature : F) : R (Col F) := do
  let temperature := asUsize temperature
  let temperature := if temperature < 1000 then 1000 else if 12000 < temperature then 12000
    else temperature
  let i := temperature / 1000
  let (x, y) ← index (TEMPERATURE_TABLE (D := D)) (← usub i 1)
  let floor_temp : D := ofNat (i * 1000)
  let temperature : D := ofNat temperature
  let (x, y) ←
    if lit 1 <. abs (temperature -. floor_temp) then do
      let (x2, y2) ← index TEMPERATURE_TABLE i
      let f := (temperature -. floor_temp) /. lit 1000
      pure (x *. (lit 1 -. f) +. x2 *. f, y *. (lit 1 -. f) +. y2 *. f)
    else pure (x, y)
  let z := lit 1 -. x -. y
  let s := lit 1 /. y
  return Xyz.to_rgb (Col.opaque (Widen.down (x *. s)) (Widen.down (y *. s)) (Widen.down (z *. s)))

/-- temperature.rs:53-62 `calculate_factors`. -/
def calculate_factors (D : Type) [Scalar D] [Widen F D] (orig_temp new_temp : F) :
    R (F × F × F) := do
  let orig ← convert_kelvin_to_rgb D orig_temp
  let new ← convert_kelvin_to_rgb D new_temp
  return (orig.c0 /. new.c0, orig.c1 /. new.c1, orig.c2 /. new.c2)

/-- The end of the three `get_*_tint_pow`: temperature.rs:118-122, 138-142, 158-162. -/
def tintPow (avg : F) : F := if lit 0 <. avg then lit 1 /. (lit 1 -. tanh avg) else lit 0

/-- temperature.rs:105-123 `get_green_tint_pow`. -/
def get_green_tint_pow (buffer : PixelBuffer (Col F)) (tint_correction : F) : F :=
  if tint_correction <=. lit 0 then lit 0
  else
    let sum := buffer.data.foldl (fun sum c => sum +. (c.c1 -. c.c0 +. c.c1 -. c.c2)) (lit 0)
    let avg := sum *. tint_correction /. ofNat buffer.data.length
    tintPow avg

/-- temperature.rs:125-143 `get_red_tint_pow`. -/
def get_red_tint_pow (buffer : PixelBuffer (Col F)) (tint_correction : F) : F :=
  if tint_correction <=. lit 0 then lit 0
  else
    let sum := buffer.data.foldl (fun sum c => sum +. (c.c0 -. c.c1 +. c.c0 -. c.c2)) (lit 0)
    let avg := lit 0.25 *. sum *. tint_correction /. ofNat buffer.data.length
    tintPow avg

/-- temperature.rs:145-163 `get_blue_tint_pow`. -/
def get_blue_tint_pow (buffer : PixelBuffer (Col F)) (tint_correction : F) : F :=
  if tint_correction <=. lit 0 then lit 0
  else
    let sum := buffer.data.foldl (fun sum c => sum +. (c.c2 -. c.c1 +. c.c2 -. c.c0)) (lit 0)
    let avg := lit 0.33 *. sum *. tint_correction /. ofNat buffer.data.length
    tintPow avg

/-- temperature.rs:5-51 `change_color_temperature`. `Pow::pow` of two `f32` is `powf`. -/
def change_color_temperature (D : Type) [Scalar D] [Widen F D] (buffer : PixelBuffer (Col F))
    (orig_temp new_temp tint_correction : F) : R (PixelBuffer (Col F)) := do
  let factors ← calculate_factors D orig_temp new_temp
  let tint_pow :=
    if lit 0 <. tint_correction then Scalar.max (get_green_tint_pow buffer tint_correction) (lit 0)
    else lit 0
  let res :=
    if lit 0 <. tint_pow then
      buffer.map_colors fun c =>
        Rgb.new_with_alpha (c.c0 *. factors.1) (powf c.c1 tint_pow *. factors.2.1)
          (c.c2 *. factors.2.2) c.alpha
    else
      buffer.map_colors fun c =>
        Rgb.new_with_alpha (c.c0 *. factors.1) (c.c1 *. factors.2.1) (c.c2 *. factors.2.2) c.alpha
  let red_pow := get_red_tint_pow buffer tint_correction
  let blue_pow := get_blue_tint_pow buffer tint_correction
  let res := if lit 0 <. red_pow then res.mod_colors fun c => { c with c0 := powf c.c0 red_pow }
    else res
  let res := if lit 0 <. blue_pow then res.mod_colors fun c => { c with c2 := powf c.c2 blue_pow }
    else res
  return res

/-- temperature.rs:165-180 `optimize_color_temperature`. -/
def optimize_color_temperature (D : Type) [Scalar D] [Widen F D] (buffer : PixelBuffer (Col F))
    (factor tint_correction : F) : R (PixelBuffer (Col F)) :=
  let sum : D := buffer.data.foldl (fun sum c => sum +. (Widen.up c.c0 -. Widen.up c.c2)) (lit 0)
  let avg := sum /. ofNat buffer.data.length
  let new_temp : F := Widen.down (lit 6500 -. tanh avg *. (Widen.up factor *. lit 4000))
  change_color_temperature D buffer (lit 6500) new_temp tint_correction

/-! ## lightness.rs -/

/-- lightness.rs:3-15 `optimize_lightness`. -/
def optimize_lightness (D : Type) [Scalar D] [Widen F D] (buffer : PixelBuffer (Col F))
    (factor : F) : PixelBuffer (Col F) :=
  let sum : D := buffer.data.foldl (fun sum c => sum +. Widen.up (Rgb.to_hsl c).c2) (lit 0)
  let avg := sum /. ofNat buffer.data.length
  let gamma := lit 1 -. (Widen.down avg -. lit 0.5) *. factor
  buffer.map_colors fun c => Rgb.with_gamma c gamma

/-! ## saturation.rs -/

/-- saturation.rs:8-13 `SaturationMode`. -/
inductive SaturationMode | Hsl | Hsv | Lch
deriving DecidableEq, Repr

/-- saturation.rs:45-58 `get_gamma_pow`. -/
def get_gamma_pow (gamma brightness : F) : F :=
  let factor := lit 1 -. (abs (brightness -. lit 0.5) *. lit 2)
  let gamma :=
    if gamma <. lit 0 then
      let diff := lit 1 -. gamma
      lit 1 -. diff *. factor
    else
      let diff := gamma -. lit 1
      lit 1 +. diff *. factor
  lit 1 /. gamma

/-- saturation.rs:60-72 `avg_saturation`. -/
def avg_saturation (buffer : PixelBuffer (Col F)) (mode : SaturationMode) : F :=
  let sum := buffer.data.foldl (fun sum c => sum +. (match mode with
    | .Hsl => (Rgb.to_hsl c).c1
    | .Hsv => (Rgb.to_hsv c).c1
    | .Lch => (to_lch .D65 .O2 .rgb c).c1)) (lit 0)
  sum /. ofNat buffer.data.length

/-- saturation.rs:74-87 `saturate_hsl`. -/
def saturate_hsl (c : Col F) (gamma : F) : Col F :=
  let hsl := Rgb.to_hsl c
  let pow := get_gamma_pow gamma hsl.c2
  Hsl.to_rgb ⟨hsl.c0, powf (clamp01 hsl.c1) pow, hsl.c2, c.alpha⟩

/-- saturation.rs:89-102 `saturate_hsv`. -/
def saturate_hsv (c : Col F) (gamma : F) : Col F :=
  let hsv := Rgb.to_hsv c
  let pow := get_gamma_pow gamma hsv.c2
  Hsv.to_rgb ⟨hsv.c0, powf (clamp01 hsv.c1) pow, hsv.c2, c.alpha⟩

/-- saturation.rs:104-115 `saturate_lch`. -/
def saturate_lch (c : Col F) (gamma : F) : Col F :=
  let lch := to_lch .D65 .O2 .rgb c
  let pow := get_gamma_pow gamma lch.c0
  to_rgb (.lch .D65 .O2) ⟨lch.c0, powf (clamp01 lch.c1) pow, lch.c2, c.alpha⟩

/-- saturation.rs:29-43 `optimize_saturation`. -/
def optimize_saturation (buffer : PixelBuffer (Col F)) (offset : F) (mode : SaturationMode) :
    PixelBuffer (Col F) :=
  let avg_sat := avg_saturation buffer mode
  let gamma := offset +. (lit 1 -. avg_sat) /. lit 1.5
  buffer.map_colors fun c => match mode with
    | .Hsl => saturate_hsl c gamma
    | .Hsv => saturate_hsv c gamma
    | .Lch => saturate_lch c gamma

end D10
