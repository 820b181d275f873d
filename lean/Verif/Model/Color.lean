import Verif.Model.Scalar

/-!
# Colours (d10-core/src/color)

All colour structs of the code hold `data: [f32; 4]`; they share the type `Col` here and the colour
space is part of the function names (`Rgb.new`, `Hsl.to_rgb`, ...). The code is written for any
number type (see `Model/Scalar.lean`).

The plain getters and setters (`red()`, `set_red`, `with_hue`, ... read or replace one
field; written as field access below) are in `Model/Channels.lean`, the iterator adapters of `iter.rs`
in `Model/Iter.lean`. `Debug` is not modelled.
-/

namespace D10
open Scalar

variable {F : Type} [Scalar F]

/-- `data: [f32; 4]` of every colour struct: three channels and alpha.
color/rgb.rs L41-43, srgb.rs L6-8, hsl.rs L6-8, hsv.rs L6-8, yuv.rs L18-20, xyz.rs L19-21,
lab.rs L10-14 and L276-281. -/
structure Col (F : Type) where
  c0 : F
  c1 : F
  c2 : F
  alpha : F
deriving DecidableEq

/-- `data()` as a slice. color/mod.rs L47 -/
def Col.data (c : Col F) : List F := [c.c0, c.c1, c.c2, c.alpha]

/-- Constructors that take a function from the channel index (`new_from_fn`, e.g. hsl.rs L23-27,
without clamping). -/
def Col.new_from_fn (func : Nat → F) : Col F := ⟨func 0, func 1, func 2, func 3⟩

/-- color/mod.rs L26 -/
def EPSILON : F := lit 1 /. lit 32768

/-- `f32::EPSILON` = 2^-23 (used in rgb.rs L162) -/
def f32_EPSILON : F := lit (1 / 8388608)

/-- color/mod.rs L28-30 -/
def clamp01 (v : F) : F := clamp (lit 0) (lit 1) v

/-- `==` of all colour types: color/rgb.rs L416-425 and the same in the other colour files. -/
def Col.eq (a b : Col F) : Bool :=
  !(EPSILON <. abs (a.c0 -. b.c0)) && !(EPSILON <. abs (a.c1 -. b.c1)) &&
  !(EPSILON <. abs (a.c2 -. b.c2)) && !(EPSILON <. abs (a.alpha -. b.alpha))

/-- color/mod.rs L200-202 -/
def Col.has_transparency (c : Col F) : Bool := EPSILON <. abs (lit 1 -. c.alpha)

/-- `with_alpha` of all colour types, e.g. rgb.rs L385-389 -/
def Col.with_alpha (c : Col F) (a : F) : Col F := { c with alpha := a }

/-- color/mod.rs L349-356; the matrix as a list of its rows would be indexed with literals only, so
it is given by its three rows. -/
def apply_matrix (c : Col F) (m0 m1 m2 : F × F × F) : Col F where
  c0 := c.c0 *. m0.1 +. c.c1 *. m0.2.1 +. c.c2 *. m0.2.2
  c1 := c.c0 *. m1.1 +. c.c1 *. m1.2.1 +. c.c2 *. m1.2.2
  c2 := c.c0 *. m2.1 +. c.c1 *. m2.2.1 +. c.c2 *. m2.2.2
  alpha := c.alpha

/-- color/mod.rs L358-365 -/
def apply_matrix_clamped (c : Col F) (m0 m1 m2 : F × F × F) : Col F where
  c0 := clamp01 (c.c0 *. m0.1 +. c.c1 *. m0.2.1 +. c.c2 *. m0.2.2)
  c1 := clamp01 (c.c0 *. m1.1 +. c.c1 *. m1.2.1 +. c.c2 *. m1.2.2)
  c2 := clamp01 (c.c0 *. m2.1 +. c.c1 *. m2.2.1 +. c.c2 *. m2.2.2)
  alpha := c.alpha

/-! ## Constructors -/

/-- rgb.rs L46-50 -/
def Rgb.new (r g b : F) : Col F := ⟨clamp01 r, clamp01 g, clamp01 b, lit 1⟩

/-- rgb.rs L52-56 -/
def Rgb.new_with_alpha (r g b a : F) : Col F := ⟨clamp01 r, clamp01 g, clamp01 b, clamp01 a⟩

/-- srgb.rs L11-15 -/
def Srgb.new (r g b : F) : Col F := ⟨clamp01 r, clamp01 g, clamp01 b, lit 1⟩

/-- srgb.rs L17-21 -/
def Srgb.new_with_alpha (r g b a : F) : Col F := ⟨clamp01 r, clamp01 g, clamp01 b, clamp01 a⟩

/-- srgb.rs L23-27 -/
def Srgb.new_from_fn (func : Nat → F) : Col F :=
  ⟨clamp01 (func 0), clamp01 (func 1), clamp01 (func 2), clamp01 (func 3)⟩

/-- `new` of the other colours (no clamping): hsl.rs L11-15, hsv.rs L11-15, yuv.rs L23-27,
xyz.rs L24-28, lab.rs L124-126 and L284-286 -/
def Col.opaque (a b c : F) : Col F := ⟨a, b, c, lit 1⟩

/-- rgb.rs L337-339; also the default of every colour: rgb.rs L366-370, srgb.rs L72-76, hsl.rs
L72-78, hsv.rs L72-78, yuv.rs L84-90, xyz.rs L85-91, lab.rs L181-185 and L341-345 -/
def Rgb.NONE : Col F := ⟨lit 0, lit 0, lit 0, lit 0⟩
/-- rgb.rs L340-342 -/
def Rgb.WHITE : Col F := ⟨lit 1, lit 1, lit 1, lit 1⟩
/-- rgb.rs L343-345 -/
def Rgb.BLACK : Col F := ⟨lit 0, lit 0, lit 0, lit 1⟩

/-! ## sRGB -/

/-- srgb.rs L149-155 -/
def gamma_to_linear (v : F) : F :=
  if lit 0.04045 <. v then powf ((v +. lit 0.055) /. lit 1.055) (lit 2.4)
  else v /. lit 12.92

/-- srgb.rs L158-164 -/
def linear_to_gamma (v : F) : F :=
  if lit 0.003130805 <. v then lit 1.055 *. powf v (lit 1 /. lit 2.4) -. lit 0.055
  else lit 12.92 *. v

/-- srgb.rs L79-86 -/
def Srgb.to_rgb (c : Col F) : Col F :=
  Rgb.new_with_alpha (gamma_to_linear c.c0) (gamma_to_linear c.c1) (gamma_to_linear c.c2) c.alpha

/-- Default `to_srgb`, applied to the colour's `to_rgb()`. color/mod.rs L51-60 -/
def Rgb.to_srgb (rgb : Col F) : Col F :=
  Srgb.new_with_alpha (linear_to_gamma rgb.c0) (linear_to_gamma rgb.c1) (linear_to_gamma rgb.c2)
    rgb.alpha

/-! ## HSL -/

/-- rgb.rs L320-322 -/
def Rgb.max (c : Col F) : F := [c.c0, c.c1, c.c2].foldl Scalar.max (lit 0)

/-- rgb.rs L324-326 -/
def Rgb.min (c : Col F) : F := [c.c0, c.c1, c.c2].foldl Scalar.min (lit 1)

/-- Default `to_hsl`, applied to the colour's `to_rgb()`. color/mod.rs L62-104 -/
def Rgb.to_hsl (rgb : Col F) : Col F :=
  let max := Rgb.max rgb
  let min := Rgb.min rgb
  let red := rgb.c0
  let green := rgb.c1
  let blue := rgb.c2
  let lightness := (max +. min) /. lit 2
  let delta := max -. min
  if delta <. EPSILON then
    ⟨lit 0, lit 0, lightness, rgb.alpha⟩
  else
    let d := max -. min
    let saturation :=
      if lit 0.5 <. lightness then d /. (lit 2 -. max -. min) else d /. (max +. min)
    let hue :=
      if abs (max -. red) <. EPSILON then
        (green -. blue) /. d +. (if green <. blue then lit 6 else lit 0)
      else if abs (max -. green) <. EPSILON then
        (blue -. red) /. d +. lit 2
      else
        (red -. green) /. d +. lit 4
    ⟨hue /. lit 6, saturation, lightness, rgb.alpha⟩

/-- hsl.rs L94-113 -/
def Hsl.hue2rgb (p q t : F) : F :=
  let t := if t <. lit 0 then t +. lit 1 else t
  let t := if lit 1 <. t then t -. lit 1 else t
  if t <. lit 1 /. lit 6 then p +. (q -. p) *. lit 6 *. t
  else if t <. lit 1 /. lit 2 then q
  else if t <. lit 2 /. lit 3 then p +. (q -. p) *. (lit 2 /. lit 3 -. t) *. lit 6
  else p

/-- hsl.rs L85-130 -/
def Hsl.to_rgb (c : Col F) : Col F :=
  let hue := c.c0
  let saturation := c.c1
  let lightness := c.c2
  if saturation ==. lit 0 then
    Rgb.new_with_alpha lightness lightness lightness c.alpha
  else
    let q :=
      if lightness <. lit 0.5 then lightness *. (lit 1 +. saturation)
      else lightness +. saturation -. lightness *. saturation
    let p := lit 2 *. lightness -. q
    Rgb.new_with_alpha
      (Hsl.hue2rgb p q (hue +. lit 1 /. lit 3))
      (Hsl.hue2rgb p q hue)
      (Hsl.hue2rgb p q (hue -. lit 1 /. lit 3))
      c.alpha

/-! ## HSV -/

/-- Default `to_hsv`, applied to the colour's `to_rgb()`. color/mod.rs L106-146 -/
def Rgb.to_hsv (rgb : Col F) : Col F :=
  let max := Rgb.max rgb
  let min := Rgb.min rgb
  let red := rgb.c0
  let green := rgb.c1
  let blue := rgb.c2
  let value := max
  let delta := max -. min
  if (EPSILON <=. delta) || (EPSILON <=. max) then
    let saturation := delta /. max
    let hue :=
      if max <=. red then (green -. blue) /. delta
      else if max <=. green then lit 2 +. (blue -. red) /. delta
      else lit 4 +. (red -. green) /. delta
    let hue := hue *. lit 60
    let hue := if hue <. lit 0 then hue +. lit 360 else hue
    ⟨hue /. lit 360, saturation, value, rgb.alpha⟩
  else
    ⟨lit 0 /. lit 360, lit 0, value, rgb.alpha⟩

/-- hsv.rs L85-120 -/
def Hsv.to_rgb (c : Col F) : Col F :=
  let hue := c.c0 *. lit 360
  let saturation := c.c1
  let value := c.c2
  if saturation <=. lit 0 then ⟨value, value, value, c.alpha⟩
  else
    let hh := if lit 360 <=. hue then lit 0 else hue
    let hh := hh /. lit 60
    let i := asU32 hh
    let ff := hh -. ofNat i
    let p := value *. (lit 1 -. saturation)
    let q := value *. (lit 1 -. (saturation *. ff))
    let t := value *. (lit 1 -. (saturation *. (lit 1 -. ff)))
    match i with
    | 0 => Rgb.new_with_alpha value t p c.alpha
    | 1 => Rgb.new_with_alpha q value p c.alpha
    | 2 => Rgb.new_with_alpha p value t c.alpha
    | 3 => Rgb.new_with_alpha p q value c.alpha
    | 4 => Rgb.new_with_alpha t p value c.alpha
    | _ => Rgb.new_with_alpha value p q c.alpha

/-! ## XYZ and YUV -/

/-- Default `to_xyz`, applied to the colour's `to_rgb()`. color/mod.rs L154-158 with the matrix
xyz.rs L5-9 -/
def Rgb.to_xyz (rgb : Col F) : Col F :=
  apply_matrix rgb
    (lit 0.412453, lit 0.357580, lit 0.180423)
    (lit 0.212671, lit 0.715160, lit 0.072169)
    (lit 0.019334, lit 0.119193, lit 0.950227)

/-- xyz.rs L98-102 with the matrix L11-15 -/
def Xyz.to_rgb (c : Col F) : Col F :=
  apply_matrix_clamped c
    (lit 3.240479, lit (-1.53715), lit (-0.498535))
    (lit (-0.969256), lit 1.875991, lit 0.041556)
    (lit 0.055648, lit (-0.204043), lit 1.057311)

/-- Default `to_yuv`, applied to the colour's `to_srgb()`. color/mod.rs L148-152 with the matrix
yuv.rs L5-9 -/
def Srgb.to_yuv (srgb : Col F) : Col F :=
  apply_matrix srgb
    (lit 0.299, lit 0.587, lit 0.114)
    (lit (-0.14714119), lit (-0.28886917), lit 0.43601036)
    (lit 0.6149754, lit (-0.5149651), lit (-0.10001026))

/-- yuv.rs L97-102 with the matrix L11-15 -/
def Yuv.to_rgb (c : Col F) : Col F :=
  Srgb.to_rgb (apply_matrix c
    (lit 1, lit 0, lit 1.139883)
    (lit 1, lit (-0.39464232), lit (-0.58062184))
    (lit 1, lit 2.0320618, lit 0))

/-! ## Lab and LCh -/

/-- lab.rs L60-71: the illuminants -/
inductive Illuminant | D50 | D65 | E
deriving DecidableEq
/-- lab.rs L85-121: the observers -/
inductive Observer | O2 | O10
deriving DecidableEq

/-- White point. lab.rs L60-71 and L272-274 -/
def get_refs : Illuminant → Observer → F × F × F
  | .D50, .O2 => (lit 0.964212, lit 1, lit 0.8251883)
  | .D50, .O10 => (lit 0.9672063, lit 1, lit 0.81428015)
  | .D65, .O2 => (lit 0.95047, lit 1, lit 1.08883)
  | .D65, .O10 => (lit 0.9480967, lit 1, lit 1.0730513)
  | .E, _ => (lit 1, lit 1, lit 1)

/-- `func` in color/mod.rs L161-167 -/
def labFunc (v : F) : F :=
  if v <. lit 0.008856 then (lit 903.3 *. v +. lit 16) /. lit 116 else powf v (lit 1 /. lit 3)

/-- Default `to_lab`, applied to the colour's `to_xyz()`. color/mod.rs L160-186 -/
def Xyz.to_lab (i : Illuminant) (o : Observer) (xyz : Col F) : Col F :=
  let refs : F × F × F := get_refs i o
  let rx := xyz.c0 /. refs.1
  let ry := xyz.c1 /. refs.2.1
  let rz := xyz.c2 /. refs.2.2
  let l := lit 116 *. labFunc ry -. lit 16
  let a := lit 500 *. (labFunc rx -. labFunc ry)
  let b := lit 200 *. (labFunc ry -. labFunc rz)
  ⟨l /. lit 100, a /. lit 128, b /. lit 128, xyz.alpha⟩

/-- `func` in lab.rs L193-199 -/
def labInvFunc (v : F) : F :=
  if lit 0.20689303 <. v then powf v (lit 3) else (v -. lit 16 /. lit 116) /. lit 7.787

/-- lab.rs L192-216 -/
def Lab.to_xyz (i : Illuminant) (o : Observer) (c : Col F) : Col F :=
  let l := c.c0 *. lit 100
  let a := c.c1 *. lit 128
  let b := c.c2 *. lit 128
  let ry := (l +. lit 16) /. lit 116
  let rx := a /. lit 500 +. ry
  let rz := ry -. b /. lit 200
  let refs : F × F × F := get_refs i o
  ⟨labInvFunc rx *. refs.1, labInvFunc ry *. refs.2.1, labInvFunc rz *. refs.2.2, c.alpha⟩

/-- Default `to_lch`, applied to the colour's `to_lab()`. color/mod.rs L188-198 -/
def Lab.to_lch (lab : Col F) : Col F :=
  let a := lab.c1
  let b := lab.c2
  let c := sqrt (a *. a +. b *. b)
  let h := atan2 b a
  ⟨lab.c0, c, h, lab.alpha⟩

/-- lab.rs L352-356 -/
def Lch.to_xyz (i : Illuminant) (o : Observer) (c : Col F) : Col F :=
  let a := c.c1 *. cos c.c2
  let b := c.c1 *. sin c.c2
  Lab.to_xyz i o ⟨c.c0, a, b, c.alpha⟩

/-! ## The conversion table

`Color` is a trait with default methods; which conversion is used depends on the colour type. -/

/-- The colour types. color/mod.rs L10-17 -/
inductive Space
  | rgb | srgb | hsl | hsv | yuv | xyz
  | lab (i : Illuminant) (o : Observer)
  | lch (i : Illuminant) (o : Observer)
deriving DecidableEq

/-- `to_rgb`: rgb.rs L373, srgb.rs L79, hsl.rs L85, hsv.rs L85, yuv.rs L97, xyz.rs L98, lab.rs
L188-190, lab.rs L348-350 (through `to_lab`, whose default goes through `Lch::to_xyz`) -/
def to_rgb : Space → Col F → Col F
  | .rgb, c => c
  | .srgb, c => Srgb.to_rgb c
  | .hsl, c => Hsl.to_rgb c
  | .hsv, c => Hsv.to_rgb c
  | .yuv, c => Yuv.to_rgb c
  | .xyz, c => Xyz.to_rgb c
  | .lab i o, c => Xyz.to_rgb (Lab.to_xyz i o c)
  | .lch i o, c => Xyz.to_rgb (Lab.to_xyz i o (Xyz.to_lab i o (Lch.to_xyz i o c)))

/-- `to_xyz`: color/mod.rs L154, overridden in xyz.rs L94, lab.rs L192 and L352 -/
def to_xyz : Space → Col F → Col F
  | .xyz, c => c
  | .lab i o, c => Lab.to_xyz i o c
  | .lch i o, c => Lch.to_xyz i o c
  | s, c => Rgb.to_xyz (to_rgb s c)

/-- `to_srgb`: color/mod.rs L51, overridden in srgb.rs L110 -/
def to_srgb : Space → Col F → Col F
  | .srgb, c => c
  | s, c => Rgb.to_srgb (to_rgb s c)

/-- `to_hsl`: color/mod.rs L62, overridden in hsl.rs L81 -/
def to_hsl : Space → Col F → Col F
  | .hsl, c => c
  | s, c => Rgb.to_hsl (to_rgb s c)

/-- `to_hsv`: color/mod.rs L106, overridden in hsv.rs L81 -/
def to_hsv : Space → Col F → Col F
  | .hsv, c => c
  | s, c => Rgb.to_hsv (to_rgb s c)

/-- `to_yuv`: color/mod.rs L148, overridden in yuv.rs L93 -/
def to_yuv : Space → Col F → Col F
  | .yuv, c => c
  | s, c => Srgb.to_yuv (to_srgb s c)

/-- `to_lab`: color/mod.rs L160, not overridden (also not for Lab itself) -/
def to_lab (i : Illuminant) (o : Observer) (s : Space) (c : Col F) : Col F :=
  Xyz.to_lab i o (to_xyz s c)

/-- `to_lch`: color/mod.rs L188, not overridden -/
def to_lch (i : Illuminant) (o : Observer) (s : Space) (c : Col F) : Col F :=
  Lab.to_lch (to_lab i o s c)

/-- Any conversion, `color_from!` in color/mod.rs L220-292. -/
def convert (src : Space) : Space → Col F → Col F
  | .rgb, c => to_rgb src c
  | .srgb, c => to_srgb src c
  | .hsl, c => to_hsl src c
  | .hsv, c => to_hsv src c
  | .yuv, c => to_yuv src c
  | .xyz, c => to_xyz src c
  | .lab i o, c => to_lab i o src c
  | .lch i o, c => to_lch i o src c

/-- `new_with_alpha` of the colour type: only Rgb and Srgb clamp. rgb.rs L52, srgb.rs L17, hsl.rs
L17, hsv.rs L17, yuv.rs L29, xyz.rs L30, lab.rs L128 and L288 -/
def new_with_alpha (s : Space) (a b c alpha : F) : Col F :=
  match s with
  | .rgb | .srgb => Rgb.new_with_alpha a b c alpha
  | _ => ⟨a, b, c, alpha⟩

/-- `try_map_color_channels`: rgb.rs L399-409 and the same in the other colour files. The closure
is called on the three colour channels in order; the first error is returned. `m` is any monad, so
the closure may also have state. -/
def try_map_color_channels {m : Type → Type} [Monad m] (s : Space) (c : Col F) (func : F → m F) :
    m (Col F) := do
  let a ← func c.c0
  let b ← func c.c1
  let d ← func c.c2
  pure (new_with_alpha s a b d c.alpha)

/-- color/mod.rs L205-208 (the `unwrap` cannot fail: the closure never returns an error) -/
def map_color_channels (s : Space) (c : Col F) (func : F → F) : Col F :=
  new_with_alpha s (func c.c0) (func c.c1) (func c.c2) c.alpha

/-! ## Operations on RGB colours -/

/-- rgb.rs L8-18 -/
inductive Intensity
  | Average | Rec601Luma | Rec709Luma | Brightness | Lightness | Saturation | Red | Green | Blue
deriving DecidableEq

/-- rgb.rs L100-102 -/
def Rgb.is_grayscale (c : Col F) : Bool :=
  (abs (c.c0 -. c.c1) <. EPSILON) && (abs (c.c1 -. c.c2) <. EPSILON)

/-- rgb.rs L108-129 -/
def Rgb.to_gray_with_intensity (c : Col F) (i : Intensity) : Col F :=
  let v := match i with
    | .Rec601Luma => c.c0 *. lit 0.298839 +. c.c1 *. lit 0.586811 +. c.c2 *. lit 0.114350
    | .Rec709Luma => c.c0 *. lit 0.212656 +. c.c1 *. lit 0.715158 +. c.c2 *. lit 0.072186
    | .Average => (c.c0 +. c.c1 +. c.c2) /. lit 3
    | .Brightness => Rgb.max c
    | .Lightness => (Rgb.min c +. Rgb.max c) /. lit 2
    | .Saturation => (Rgb.to_hsl c).c1
    | .Red => c.c0
    | .Green => c.c1
    | .Blue => c.c2
  ⟨v, v, v, c.alpha⟩

/-- rgb.rs L104-106 -/
def Rgb.to_gray (c : Col F) : Col F := Rgb.to_gray_with_intensity c .Rec709Luma

/-- rgb.rs L131-135 -/
def Rgb.invert (c : Col F) : Col F :=
  ⟨lit 1 -. c.c0, lit 1 -. c.c1, lit 1 -. c.c2, c.alpha⟩

/-- rgb.rs L137-143 -/
def Rgb.difference (c d : Col F) : Col F :=
  Rgb.new (abs (c.c0 -. d.c0)) (abs (c.c1 -. d.c1)) (abs (c.c2 -. d.c2))

/-- rgb.rs L309-318 -/
def Rgb.map_channels (c : Col F) (func : F → F) : Col F :=
  ⟨clamp01 (func c.c0), clamp01 (func c.c1), clamp01 (func c.c2), c.alpha⟩

/-- rgb.rs L298-307; also `mod_color_channels` L292-296 (the modified colour) -/
def Rgb.map_channels_unclamped (c : Col F) (func : F → F) : Col F :=
  ⟨func c.c0, func c.c1, func c.c2, c.alpha⟩

/-- rgb.rs L145-147 -/
def Rgb.with_gamma (c : Col F) (gamma : F) : Col F :=
  Rgb.map_channels c fun v => powf (clamp01 v) (lit 1 /. gamma)

/-- rgb.rs L149-157 -/
def Rgb.with_gamma_opt (c : Col F) (gamma : F) : Col F :=
  Rgb.map_channels c fun v =>
    if lit 0.5 <. v then
      powf (clamp01 ((v -. lit 0.5) *. lit 2)) (lit 1 /. gamma) /. lit 2 +. lit 0.5
    else
      powf (clamp01 (v *. lit 2)) (lit 1 *. gamma) /. lit 2

/-- The closure of `with_level`: rgb.rs L160-172 -/
def Rgb.level (black_point white_point gamma v : F) : F :=
  let diff := white_point -. black_point
  let factor := if abs diff <. f32_EPSILON then lit 1 /. EPSILON else lit 1 /. diff
  let v := v -. black_point
  let v := v *. factor
  powf (clamp01 v) (lit 1 /. gamma)

/-- rgb.rs L159-173 -/
def Rgb.with_level (c : Col F) (black_point white_point gamma : F) : Col F :=
  Rgb.map_channels c (Rgb.level black_point white_point gamma)

/-- rgb.rs L175-177 -/
def Rgb.with_brightness (c : Col F) (factor : F) : Col F :=
  Rgb.map_channels c fun v => v +. factor

/-- rgb.rs L179-190 -/
def Rgb.with_saturation (c : Col F) (factor : F) : Col F :=
  let hsl := Rgb.to_hsl c
  Hsl.to_rgb ⟨hsl.c0, clamp01 (hsl.c1 *. factor), hsl.c2, c.alpha⟩

/-- rgb.rs L192-202 -/
def Rgb.stretch_saturation (c : Col F) (factor : F) : Col F :=
  let hsl := Rgb.to_hsl c
  let s := hsl.c1 -. lit 0.5
  let s := s *. factor +. lit 0.5
  Hsl.to_rgb ⟨hsl.c0, clamp01 s, hsl.c2, c.alpha⟩

/-- rgb.rs L204-215 -/
def Rgb.with_gamma_saturation (c : Col F) (gamma : F) : Col F :=
  let hsl := Rgb.to_hsl c
  Hsl.to_rgb ⟨hsl.c0, powf (clamp01 hsl.c1) (lit 1 /. gamma), hsl.c2, c.alpha⟩

/-- rgb.rs L217-228 -/
def Rgb.with_lightness (c : Col F) (factor : F) : Col F :=
  let hsl := Rgb.to_hsl c
  Hsl.to_rgb ⟨hsl.c0, hsl.c1, clamp01 (hsl.c2 *. factor), c.alpha⟩

/-- The hue computed by `with_hue_rotate`: rgb.rs L233-238 -/
def Rgb.rotated_hue (hue radians : F) : F :=
  let hue := hue +. radians /. lit 360
  if lit 1 <=. hue then hue -. lit 1
  else if hue <. lit 0 then hue +. lit 1
  else hue

/-- rgb.rs L230-244 -/
def Rgb.with_hue_rotate (c : Col F) (radians : F) : Col F :=
  let hsl := Rgb.to_hsl c
  Hsl.to_rgb ⟨Rgb.rotated_hue hsl.c0 radians, hsl.c1, hsl.c2, c.alpha⟩

/-- rgb.rs L246-248 -/
def Rgb.with_contrast (c : Col F) (factor : F) : Col F :=
  Rgb.map_channels c fun v => (v -. lit 0.5) *. factor +. lit 0.5

/-- rgb.rs L250-252 -/
def Rgb.with_brightness_contrast (c : Col F) (brightness contrast : F) : Col F :=
  Rgb.map_channels c fun v => (v +. brightness -. lit 0.5) *. contrast +. lit 0.5

/-- rgb.rs L254-261; `self` is the base, `o` the overlay -/
def Rgb.alpha_blend (c o : Col F) : Col F :=
  Rgb.new_with_alpha
    (o.c0 *. o.alpha +. (lit 1 -. o.alpha) *. c.c0)
    (o.c1 *. o.alpha +. (lit 1 -. o.alpha) *. c.c1)
    (o.c2 *. o.alpha +. (lit 1 -. o.alpha) *. c.c2)
    (Scalar.min (c.alpha +. o.alpha) (lit 1))

/-- `std::f32::consts::PI` -/
def PI : F := lit 3.14159265358979323846264338327950288

/-- rgb.rs L263-282 -/
def Rgb.with_vibrance (c : Col F) (factor : F) : Col F :=
  let hsl := Rgb.to_hsl c
  let s := hsl.c1
  let scale := factor *. Scalar.min (sin (hsl.c0 *. PI) *. lit 1.5) (lit 1)
  let s := s +. sin (s *. PI) *. scale
  Hsl.to_rgb (Col.opaque hsl.c0 (Scalar.max (Scalar.min s (lit 1)) (lit 0)) hsl.c2)

/-- rgb.rs L284-290 -/
def Rgb.with_sepia (c : Col F) : Col F :=
  let red := c.c0 *. lit 0.393 +. c.c1 *. lit 0.769 +. c.c2 *. lit 0.189
  let green := c.c0 *. lit 0.349 +. c.c1 *. lit 0.686 +. c.c2 *. lit 0.168
  let blue := c.c0 *. lit 0.272 +. c.c1 *. lit 0.534 +. c.c2 *. lit 0.131
  Rgb.new_with_alpha red green blue c.alpha

/-- rgb.rs L328-335 -/
def Rgb.modulate (c : Col F) (hue saturation lightness : F) : Col F :=
  let hsl := Rgb.to_hsl c
  Hsl.to_rgb ⟨clamp01 (hsl.c0 *. hue), clamp01 (hsl.c1 *. saturation),
    clamp01 (hsl.c2 *. lightness), hsl.alpha⟩

/-! ## Display -/

/-- `type_name`: rgb.rs L411, srgb.rs L126, hsl.rs L166, hsv.rs L156, yuv.rs L138, xyz.rs L138,
lab.rs L43-55, L250, L390 -/
def type_name : Space → String
  | .rgb => "rgb"
  | .srgb => "srgb"
  | .hsl => "hsl"
  | .hsv => "hsv"
  | .yuv => "yuv"
  | .xyz => "xyz"
  | .lab .D50 .O2 => "lab<D50,O2>"
  | .lab .D50 .O10 => "lab<D50,O10>"
  | .lab .D65 .O2 => "lab<D65,O2>"
  | .lab .D65 .O10 => "lab<D65,O10>"
  | .lab .E .O2 => "lab<E,O2>"
  | .lab .E .O10 => "lab<E,O10>"
  | .lch .D50 .O2 => "lch<D50,O2>"
  | .lch .D50 .O10 => "lch<D50,O10>"
  | .lch .D65 .O2 => "lch<D65,O2>"
  | .lch .D65 .O10 => "lch<D65,O10>"
  | .lch .E .O2 => "lch<E,O2>"
  | .lch .E .O10 => "lch<E,O10>"

/-- `format_f32` in color/mod.rs L313-322. `toStr` is `f32::to_string`, which is not modelled. -/
def format_f32 (toStr : F → String) (v : F) : String :=
  let v := round (v *. lit 10000) /. lit 10000
  let s := toStr v
  if s.toList.contains '.' then s else s ++ ".0"

/-- `format_color` in color/mod.rs L298-343; the result is built up as there, two characters are
removed with `pop` when there is no alpha. -/
def format_color (toStr : F → String) (s : Space) (c : Col F) : String :=
  let with_alpha := c.has_transparency
  let result := type_name s
  let result := if with_alpha then result ++ "a" else result
  let result := result ++ "("
  let result := [c.c0, c.c1, c.c2].foldl (fun r v => r ++ format_f32 toStr v ++ ", ") result
  let result := if with_alpha then result ++ format_f32 toStr c.alpha
    else String.ofList (result.toList.dropLast.dropLast)
  result ++ ")"

end D10
