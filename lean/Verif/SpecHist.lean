import Verif.SpecPixel
import Verif.Model.Histogram
import Mathlib.Logic.Function.Iterate

/-!
# Independent specification of histograms, equalisation, contrast stretching and balancing

`F` is the number type. A histogram here is a function from the level (0 to 255) to a number.
-/

namespace D10.Spec

variable {F : Type} [Scalar F]

/-- `0 + x + x + ... + x` with `n` summands. -/
def times (n : Nat) (x : F) : F := (fun s => s +. x)^[n] (lit 0)

/-- The sum of the levels 0 to `k`, in this order. -/
def upTo (bins : Nat → F) (k : Nat) : F := addUp ((List.range (k + 1)).map bins)

/-- The sum of the levels 255 down to `k`, in this order. -/
def downTo (bins : Nat → F) (k : Nat) : F :=
  addUp ((List.range (256 - k)).map fun j => bins (255 - j))

/-! ## Equalisation -/

/-- A channel value as one of 256 levels: times 255, rounded, limited to 0..255. -/
def level (v : F) : Nat := (Scalar.toInt 0 255 (Scalar.round (v *. lit 255))).toNat

/-- The share of the values with a level up to `k`. -/
def share (vs : List F) (k : Nat) : F :=
  upTo (fun j => times (vs.countP (level · = j)) (lit 1)) k /. lit (vs.length : ℚ)

/-- The new value for level `k`: the shares are stretched to start with 0 and end with 1. If all
shares are the same the new value is 0. -/
def equalTable (vs : List F) (k : Nat) : F :=
  let shares := (List.range 256).map (share vs)
  let hi := shares.foldl Scalar.max (lit 0)
  let lo := shares.foldl Scalar.min (lit greatest)
  if hi -. lo <. lit (1 / 2 ^ 23) then lit 0 else (share vs k -. lo) /. (hi -. lo)

/-- The equalised value of `v`, among the values `vs`. -/
def equalised (vs : List F) (v : F) : F := equalTable vs (level v)

/-- The equalised pixel. -/
def equalisedPixel (w h : Nat) (px : Nat → Nat → Col F) (mode : EqualizeMode) (x y : Nat) : Col F :=
  let all := fun (ch : Col F → F) (sp : Space) => rows w h fun x y => ch (D10.convert .rgb sp (px x y))
  let eq := fun (ch : Col F → F) (sp : Space) => equalised (all ch sp) (ch (D10.convert .rgb sp (px x y)))
  let p := px x y
  let hsl := D10.convert .rgb .hsl p
  match mode with
  | .Rgb => Rgb.new_with_alpha (eq Col.c0 .rgb) (eq Col.c1 .rgb) (eq Col.c2 .rgb) p.alpha
  | .Srgb => to_rgb .srgb (Srgb.new_with_alpha (eq Col.c0 .srgb) (eq Col.c1 .srgb) (eq Col.c2 .srgb)
      (D10.convert .rgb .srgb p).alpha)
  | .Saturation => to_rgb .hsl ⟨hsl.c0, eq Col.c1 .hsl, hsl.c2, hsl.alpha⟩
  | .Lightness => to_rgb .hsl ⟨hsl.c0, hsl.c1, eq Col.c2 .hsl, hsl.alpha⟩
  | .SaturationLightness => to_rgb .hsl ⟨hsl.c0, eq Col.c1 .hsl, eq Col.c2 .hsl, hsl.alpha⟩

/-! ## Black and white points -/

/-- A value as one of 256 levels: times 255, rounded down, limited to 0..255. -/
def levelDown (v : F) : Nat := (Scalar.toInt 0 255 (v *. lit 255)).toNat

/-- The share of every level: `1 / n` added up once for every value with that level. -/
def shares (vs : List F) (k : Nat) : F :=
  times (vs.countP (levelDown · = k)) (lit 1 /. lit (vs.length : ℚ))

/-- `p` is the black point: the lowest level (divided by 255) at which the share of the values up to
this level exceeds `t`; 1 if there is none. -/
def IsBlackPoint (vs : List F) (t p : F) : Prop :=
  (∃ k : Nat, k < 256 ∧ (t <. upTo (shares vs) k) = true ∧
    (∀ j < k, (t <. upTo (shares vs) j) = false) ∧ p = lit (k : ℚ) /. lit 255) ∨
  ((∀ j < 256, (t <. upTo (shares vs) j) = false) ∧ p = lit 1)

/-- `p` is the white point: the highest level (divided by 255) at which the share of the values from
this level on exceeds `t`; 1 if there is none. -/
def IsWhitePoint (vs : List F) (t p : F) : Prop :=
  (∃ k : Nat, k < 256 ∧ (t <. downTo (shares vs) k) = true ∧
    (∀ j, k < j → j < 256 → (t <. downTo (shares vs) j) = false) ∧ p = lit (k : ℚ) /. lit 255) ∨
  ((∀ j < 256, (t <. downTo (shares vs) j) = false) ∧ p = lit 1)

/-- A channel moved by balancing: `s = tanh(10·|w - b|)` reduces the effect for points close to each
other. -/
def balancedChannel (b w v : F) : F :=
  let s := Scalar.tanh (Scalar.abs (w -. b) *. lit 10)
  if s <=. lit (1 / 2 ^ 23) then v
  else (v -. b *. s) *. (lit 1 /. (w -. b)) *. s

/-- Colour channel `i` of a colour. -/
def channel (c : Col F) : Nat → F
  | 0 => c.c0
  | 1 => c.c1
  | _ => c.c2

/-- The colour space a balance mode works in. -/
def balanceSpace : BalanceMode → Space
  | .Rgb => .rgb
  | .Srgb => .srgb
  | .Hsv => .hsv
  | .Hsl => .hsl
  | .Lch => .lch .D65 .O2

/-- The channels a balance mode works on: red, green and blue; saturation and value/lightness;
lightness and chroma. -/
def balanced : BalanceMode → Nat → Bool
  | .Rgb, _ | .Srgb, _ => true
  | .Hsv, i | .Hsl, i => i != 0
  | .Lch, i => i != 2

/-- The pixel `p` balanced with the black points `bp` and the white points `wp` of the channels. -/
def balancedPixel (mode : BalanceMode) (bp wp : Nat → F) (p : Col F) : Col F :=
  let c := D10.convert .rgb (balanceSpace mode) p
  let move := fun i v => if balanced mode i then balancedChannel (bp i) (wp i) v else v
  to_rgb (balanceSpace mode) ⟨move 0 c.c0, move 1 c.c1, move 2 c.c2, c.alpha⟩

end D10.Spec
