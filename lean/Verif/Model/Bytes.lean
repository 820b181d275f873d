import Verif.Model.Color
import Verif.Model.PixelBuffer

/-!
# Pixels as bytes

d10-codecs/src/utils.rs. A byte (`u8`) is a natural number below 256, a `u16` one below 65536.
`Vec::with_capacity` has no observable effect and is left out.
-/

namespace D10
open Scalar (lit clamp)

/-- `f32::to_be_bytes`: the four bytes of the IEEE 754 bit pattern, highest first. -/
class FloatBytes (F : Type) where
  be : F → List Nat
  be_length : ∀ x, (be x).length = 4

variable {F : Type} [Scalar F]

/-- utils.rs:9-11 `as_u8`. -/
def as_u8 (value : F) : Nat := Scalar.asU8 (clamp (lit 0) (lit 255) (value *. lit 255))

/-- utils.rs:14-16 `as_u16`. -/
def as_u16 (value : F) : Nat := Scalar.asU16 (clamp (lit 0) (lit 65535) (value *. lit 65535))

/-- `u16::to_be_bytes` -/
def u16be (v : Nat) : List Nat := [v / 256, v % 256]

/-- utils.rs:18-27 `to_l8_vec`. -/
def to_l8_vec (buffer : PixelBuffer (Col F)) : List Nat :=
  buffer.data.foldl (fun out color =>
    let color := Rgb.to_srgb (Rgb.to_gray color)
    out ++ [as_u8 color.c0]) []

/-- utils.rs:29-40 `to_la8_vec`. -/
def to_la8_vec (buffer : PixelBuffer (Col F)) : List Nat :=
  buffer.data.foldl (fun out color =>
    let color := Rgb.to_srgb (Rgb.to_gray color)
    out ++ [as_u8 color.c0] ++ [as_u8 color.alpha]) []

/-- utils.rs:42-55 `to_rgb8_vec`. -/
def to_rgb8_vec (buffer : PixelBuffer (Col F)) : List Nat :=
  buffer.data.foldl (fun out color =>
    let color := Rgb.to_srgb color
    out ++ [as_u8 color.c0] ++ [as_u8 color.c1] ++ [as_u8 color.c2]) []

/-- utils.rs:57-71 `to_rgba8_vec`. -/
def to_rgba8_vec (buffer : PixelBuffer (Col F)) : List Nat :=
  buffer.data.foldl (fun out color =>
    let color := Rgb.to_srgb color
    out ++ [as_u8 color.c0] ++ [as_u8 color.c1] ++ [as_u8 color.c2] ++ [as_u8 color.alpha]) []

/-- utils.rs:73-87 `to_argb8_vec32`. The shifted `u8`s stay below 2^32. -/
def to_argb8_vec32 (buffer : PixelBuffer (Col F)) : List Nat :=
  buffer.data.foldl (fun out color =>
    let color := Rgb.to_srgb color
    let v := as_u8 color.alpha <<< 24 ||| as_u8 color.c0 <<< 16 ||| as_u8 color.c1 <<< 8
      ||| as_u8 color.c2
    out ++ [v]) []

/-- utils.rs:89-99 `to_l16_be_vec`: the bytes of the `f32` itself are written. -/
def to_l16_be_vec [FloatBytes F] (buffer : PixelBuffer (Col F)) : List Nat :=
  buffer.data.foldl (fun out color =>
    let color := Rgb.to_srgb (Rgb.to_gray color)
    out ++ FloatBytes.be color.c0) []

/-- utils.rs:101-113 `to_la16_be_vec`. -/
def to_la16_be_vec (buffer : PixelBuffer (Col F)) : List Nat :=
  buffer.data.foldl (fun out color =>
    let color := Rgb.to_srgb (Rgb.to_gray color)
    out ++ u16be (as_u16 color.c0) ++ u16be (as_u16 color.alpha)) []

/-- utils.rs:115-128 `to_rgb16_be_vec`. -/
def to_rgb16_be_vec (buffer : PixelBuffer (Col F)) : List Nat :=
  buffer.data.foldl (fun out color =>
    let color := Rgb.to_srgb color
    out ++ u16be (as_u16 color.c0) ++ u16be (as_u16 color.c1) ++ u16be (as_u16 color.c2)) []

/-- utils.rs:130-144 `to_rgba16_be_vec`. -/
def to_rgba16_be_vec (buffer : PixelBuffer (Col F)) : List Nat :=
  buffer.data.foldl (fun out color =>
    let color := Rgb.to_srgb color
    out ++ u16be (as_u16 color.c0) ++ u16be (as_u16 color.c1) ++ u16be (as_u16 color.c2)
      ++ u16be (as_u16 color.alpha)) []

/-- utils.rs:146-148 `from_u8`; `f32::from(v)` is exact. -/
def from_u8 (v : Nat) : F := lit (v : ℚ) /. lit 255

/-- utils.rs:150-152 `from_u16_be`. -/
def from_u16_be (a b : Nat) : F := lit ((a * 256 + b : Nat) : ℚ) /. lit 65535

/-- utils.rs:154-156 `from_u16_ne`; `little` says whether the machine is little endian. -/
def from_u16_ne (little : Bool) (a b : Nat) : F :=
  lit (((if little then b * 256 + a else a * 256 + b) : Nat) : ℚ) /. lit 65535

/-- `slice::chunks(n)`: pieces of `n` items, the last one may be shorter. `n = 0` panics in Rust and
is not used. -/
def chunks {α : Type} (n : Nat) (l : List α) : List (List α) :=
  if _h : l = [] ∨ n = 0 then [] else l.take n :: chunks n (l.drop n)
termination_by l.length
decreasing_by
  have h1 : l ≠ [] := fun e => _h (.inl e)
  have h2 : n ≠ 0 := fun e => _h (.inr e)
  have : 0 < l.length := List.length_pos_iff.2 h1
  rw [List.length_drop]; omega

/-- utils.rs:310-324 `cmyk_to_rgb`. -/
def cmyk_to_rgb (c m y k : Nat) : Col F :=
  let c := lit 255 -. lit (c : ℚ)
  let m := lit 255 -. lit (m : ℚ)
  let y := lit 255 -. lit (y : ℚ)
  let k := lit 255 -. lit (k : ℚ)
  let r := c *. k /. lit 65536
  let g := m *. k /. lit 65536
  let b := y *. k /. lit 65536
  Srgb.to_rgb (Srgb.new r g b)

end D10
