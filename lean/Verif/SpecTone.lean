import Verif.SpecPixel
import Verif.Model.Tone

/-!
# Independent specification of temperature, lightness and saturation

`F` is the number type of the colours, `D` the wider one used for sums and the temperature table.
-/

namespace D10.Spec

variable {F D : Type} [Scalar F] [Scalar D]

/-! ## Temperature -/

/-- CIE chromaticity (x, y) of a black body at `n`·1000 kelvin. -/
def kelvinXY : Nat → ℚ × ℚ
  | 1 => (0.652750055750174, 0.344462227197370)
  | 2 => (0.526676280311873, 0.413297274507630)
  | 3 => (0.436929833678155, 0.404073616886221)
  | 4 => (0.380438429420364, 0.376746069841299)
  | 5 => (0.345100160725069, 0.351607005318840)
  | 6 => (0.322082269887888, 0.331752126277376)
  | 7 => (0.306372718718652, 0.316511125739794)
  | 8 => (0.295186142428596, 0.304763622626521)
  | 9 => (0.286924765725065, 0.295581717193809)
  | 10 => (0.280632719756407, 0.288286029784579)
  | 11 => (0.275714062105148, 0.282393589935205)
  | _ => (0.271782994107569, 0.277561259748537)

/-- A temperature in whole kelvin, limited to 1000..12000. -/
def kelvin (t : F) : Nat := max 1000 (min 12000 (Scalar.toInt 0 (2 ^ 64 - 1) t).toNat)

/-- One coordinate of the chromaticity at `T` kelvin: the table between multiples of 1000 K is
interpolated; up to 1 K above a multiple it is used as it is. -/
def chroma (pick : ℚ × ℚ → ℚ) (T : Nat) : D :=
  let n := T / 1000
  let f : D := (lit (T : ℚ) -. lit ((n * 1000 : Nat) : ℚ)) /. lit 1000
  if T % 1000 ≤ 1 then lit (pick (kelvinXY n))
  else lit (pick (kelvinXY n)) *. (lit 1 -. f) +. lit (pick (kelvinXY (n + 1))) *. f

/-- The colour of the light of `T` kelvin: chromaticity (x, y) with luminance 1. -/
def lightColour (D : Type) [Scalar D] [Widen F D] (T : Nat) : Col F :=
  let x : D := chroma Prod.fst T
  let y : D := chroma Prod.snd T
  to_rgb .xyz ⟨Widen.down (x *. (lit 1 /. y)), Widen.down (y *. (lit 1 /. y)),
    Widen.down ((lit 1 -. x -. y) *. (lit 1 /. y)), lit 1⟩

/-- The exponent for a weighted mean excess `e` of a channel over the two others: none (0) if the
excess is not positive. -/
def exponent (e : F) : F := if lit 0 <. e then lit 1 /. (lit 1 -. Scalar.tanh e) else lit 0

/-- The sum over the pixels of twice the channel `a` minus the channels `b` and `c`. -/
def excess (a b c : Col F → F) (cs : List (Col F)) : F :=
  addUp (cs.map fun p => a p -. b p +. a p -. c p)

/-- A pixel after a temperature change with the three factors and the tint exponents. -/
def tempered (factor power : Col F) (p : Col F) : Col F :=
  let q := Rgb.new_with_alpha (p.c0 *. factor.c0)
    ((if lit 0 <. power.c1 then Scalar.powf p.c1 power.c1 else p.c1) *. factor.c1)
    (p.c2 *. factor.c2) p.alpha
  ⟨if lit 0 <. power.c0 then Scalar.powf q.c0 power.c0 else q.c0, q.c1,
   if lit 0 <. power.c2 then Scalar.powf q.c2 power.c2 else q.c2, q.alpha⟩

/-- The factors of a change between two temperatures. -/
def factors (D : Type) [Scalar D] [Widen F D] (orig new : F) : Col F :=
  let o : Col F := lightColour D (kelvin orig)
  let n : Col F := lightColour D (kelvin new)
  ⟨o.c0 /. n.c0, o.c1 /. n.c1, o.c2 /. n.c2, lit 1⟩

/-- The tint exponents for the pixels `cs` and the correction `t`. -/
def powers (cs : List (Col F)) (t : F) : Col F :=
  let n : F := lit (cs.length : ℚ)
  ⟨if t <=. lit 0 then lit 0 else exponent (lit 0.25 *. excess Col.c0 Col.c1 Col.c2 cs *. t /. n),
   if lit 0 <. t then Scalar.max (exponent (excess Col.c1 Col.c0 Col.c2 cs *. t /. n)) (lit 0) else lit 0,
   if t <=. lit 0 then lit 0 else exponent (lit 0.33 *. excess Col.c2 Col.c1 Col.c0 cs *. t /. n),
   lit 1⟩

/-! ## Lightness and saturation -/

/-- The exponent used for the saturation of a pixel of brightness `v` (`gamma` is reduced at the dark
and the bright end). -/
def saturationPower (gamma v : F) : F :=
  let k := lit 1 -. Scalar.abs (v -. lit 0.5) *. lit 2
  lit 1 /. (if gamma <. lit 0 then lit 1 -. (lit 1 -. gamma) *. k else lit 1 +. (gamma -. lit 1) *. k)

/-- The colour space, the channel of the saturation and the channel of the brightness. -/
def saturationSpace : SaturationMode → Space
  | .Hsl => .hsl
  | .Hsv => .hsv
  | .Lch => .lch .D65 .O2

/-- The brightness channel of the mode. -/
def brightness : SaturationMode → Col F → F
  | .Hsl, c => c.c2
  | .Hsv, c => c.c2
  | .Lch, c => c.c0

/-- A pixel after the optimisation of the saturation with `gamma`: the saturation (chroma), limited to
[0, 1], is raised to the power. -/
def saturated (mode : SaturationMode) (gamma : F) (p : Col F) : Col F :=
  let c := D10.convert .rgb (saturationSpace mode) p
  to_rgb (saturationSpace mode)
    ⟨c.c0, Scalar.powf (Scalar.clamp (lit 0) (lit 1) c.c1) (saturationPower gamma (brightness mode c)),
     c.c2, p.alpha⟩

end D10.Spec
