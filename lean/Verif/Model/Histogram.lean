import Verif.Model.Ops

/-!
# Operations driven by a histogram

d10-ops/src/{stretch_contrast,equalize,balance_channels}.rs. A table `[f32; 256]` is a list; every
read and write of it is checked.
-/

namespace D10
open Scalar (lit abs round clamp asU8 asUsize ofNat tanh)

variable {F : Type} [Scalar F]

/-! ## stretch_contrast.rs -/

/-- stretch_contrast.rs:4-7 `get_color_value`. -/
def get_color_value (c : Col F) : Nat :=
  let v := grayAverage c *. lit 255
  asU8 (clamp (lit 0) (lit 255) v)

/-- stretch_contrast.rs:9-20 `get_color_values`. -/
def get_color_values (buffer : PixelBuffer (Col F)) : R (List F) :=
  let len := ofNat buffer.data.length
  buffer.data.foldlM (fun result c => do
    let v := get_color_value c
    setIndex result v ((← index result v) +. lit 1 /. len)) (List.replicate 256 (lit 0))

/-- The loop of `get_min_value` and `get_max_value` over the enumerated table (stretch_contrast.rs:
26-32 and 41-47, balance_channels.rs:28-34 and 43-49), starting with the aggregate `agg`. -/
def scanLevels (threshold : F) : F → List (F × Nat) → F
  | _, [] => lit 1
  | agg, (v, i) :: rest =>
    let agg := agg +. v
    if threshold <. agg then ofNat i /. lit 255 else scanLevels threshold agg rest

/-- stretch_contrast.rs:22-35 and balance_channels.rs:24-37 `get_min_value` (the same code). -/
def get_min_value (values : List F) (threshold : F) : F :=
  scanLevels threshold (lit 0) values.zipIdx

/-- stretch_contrast.rs:37-50 and balance_channels.rs:39-52 `get_max_value` (the same code). -/
def get_max_value (values : List F) (threshold : F) : F :=
  scanLevels threshold (lit 0) values.zipIdx.reverse

/-- stretch_contrast.rs:52-65 `stretch_contrast`. -/
def stretch_contrast (buffer : PixelBuffer (Col F)) (threshold : F) : R (PixelBuffer (Col F)) := do
  let threshold := threshold /. lit 1000
  let values ← get_color_values buffer
  let min_value := get_min_value values threshold
  let max_value := get_max_value values threshold
  if (lit 0 <. min_value) || (max_value <. lit 1) then
    return buffer.map_colors fun c => Rgb.with_level c min_value max_value (lit 1)
  else
    return buffer

/-! ## equalize.rs -/

/-- The counting loop for one channel: equalize.rs:38-42. -/
def countChannel (buffer : PixelBuffer (Col F)) (channel : Nat) : R (List F) :=
  buffer.data.foldlM (fun h c => do
    let v := (← index c.data channel) *. lit 255
    let i := asUsize (clamp (lit 0) (lit 255) (round v))
    setIndex h i ((← index h i) +. lit 1)) (List.replicate 256 (lit 0))

/-- The cumulation loop for one channel: equalize.rs:49-54, with the running sum. -/
def cumulate (pixels : F) : F → List F → List F
  | _, [] => []
  | sum, v :: rest =>
    let sum := sum +. v
    sum /. pixels :: cumulate pixels sum rest

/-- The normalisation of one channel: equalize.rs:56-77. -/
def normalizeTable (h : List F) : List F :=
  let max := h.foldl Scalar.max (lit 0)
  let min := h.foldl Scalar.min f32_MAX
  let delta := max -. min
  if delta <. f32_EPSILON then h.map fun _ => lit 0
  else h.map fun v => (v -. min) /. delta

/-- equalize.rs:31-80 `channel_histogram`, for the channel `channel_offset + i`. The code handles the
channels in parallel steps; they do not influence each other, so the model handles one. -/
def channel_histogram (buffer : PixelBuffer (Col F)) (channel : Nat) : R (List F) := do
  let h ← countChannel buffer channel
  let pixels := ofNat (← u32 (buffer.width * buffer.height))
  return normalizeTable (cumulate pixels (lit 0) h)

/-- equalize.rs:82-85 `pick_value`. -/
def pick_value (histogram : List F) (value : F) : R F :=
  let r := asU8 (round (value *. lit 255))
  index histogram r

/-- `map_colors` with a closure that may panic. -/
def PixelBuffer.map_colors_R (b : PixelBuffer (Col F)) (f : Col F → R (Col F)) :
    R (PixelBuffer (Col F)) :=
  b.map_colorsM f

/-- equalize.rs:87-98 `equalize_rgb`. -/
def equalize_rgb (buffer : PixelBuffer (Col F)) : R (PixelBuffer (Col F)) := do
  let histogram0 ← channel_histogram buffer 0
  let histogram1 ← channel_histogram buffer 1
  let histogram2 ← channel_histogram buffer 2
  buffer.map_colors_R fun c => do
    return Rgb.new_with_alpha (← pick_value histogram0 c.c0) (← pick_value histogram1 c.c1)
      (← pick_value histogram2 c.c2) c.alpha

/-- equalize.rs:100-113 `equalize_srgb`. -/
def equalize_srgb (buffer : PixelBuffer (Col F)) : R (PixelBuffer (Col F)) := do
  let buffer := buffer.convert .rgb .srgb
  let histogram0 ← channel_histogram buffer 0
  let histogram1 ← channel_histogram buffer 1
  let histogram2 ← channel_histogram buffer 2
  buffer.map_colors_R fun c => do
    return Srgb.to_rgb (Srgb.new_with_alpha (← pick_value histogram0 c.c0)
      (← pick_value histogram1 c.c1) (← pick_value histogram2 c.c2) c.alpha)

/-- equalize.rs:115-128 `equalize_saturation`. -/
def equalize_saturation (buffer : PixelBuffer (Col F)) : R (PixelBuffer (Col F)) := do
  let buffer := buffer.convert .rgb .hsl
  let histogram0 ← channel_histogram buffer 1
  buffer.map_colors_R fun c => do
    return Hsl.to_rgb ⟨c.c0, ← pick_value histogram0 c.c1, c.c2, c.alpha⟩

/-- equalize.rs:130-143 `equalize_lightness`. -/
def equalize_lightness (buffer : PixelBuffer (Col F)) : R (PixelBuffer (Col F)) := do
  let buffer := buffer.convert .rgb .hsl
  let histogram0 ← channel_histogram buffer 2
  buffer.map_colors_R fun c => do
    return Hsl.to_rgb ⟨c.c0, c.c1, ← pick_value histogram0 c.c2, c.alpha⟩

/-- equalize.rs:145-158 `equalize_saturation_lightness`. -/
def equalize_saturation_lightness (buffer : PixelBuffer (Col F)) : R (PixelBuffer (Col F)) := do
  let buffer := buffer.convert .rgb .hsl
  let histogram0 ← channel_histogram buffer 1
  let histogram1 ← channel_histogram buffer 2
  buffer.map_colors_R fun c => do
    return Hsl.to_rgb ⟨c.c0, ← pick_value histogram0 c.c1, ← pick_value histogram1 c.c2, c.alpha⟩

/-- equalize.rs:6-13 `EqualizeMode`. -/
inductive EqualizeMode | Rgb | Srgb | Saturation | Lightness | SaturationLightness
deriving DecidableEq, Repr

/-- equalize.rs:160-168 `equalize`. -/
def equalize (buffer : PixelBuffer (Col F)) : EqualizeMode → R (PixelBuffer (Col F))
  | .Rgb => equalize_rgb buffer
  | .Srgb => equalize_srgb buffer
  | .Saturation => equalize_saturation buffer
  | .Lightness => equalize_lightness buffer
  | .SaturationLightness => equalize_saturation_lightness buffer

/-! ## balance_channels.rs -/

/-- balance_channels.rs:6-22 `get_color_values`, for the channel `START + channel`; the channels do
not influence each other. `space` is the colour type `C`. -/
def balanceValues (space : Space) (buffer : PixelBuffer (Col F)) (channel : Nat) : R (List F) :=
  let len := ofNat buffer.data.length
  buffer.data.foldlM (fun res c => do
    let c := D10.convert .rgb space c
    let v := asU8 (clamp (lit 0) (lit 255) ((← index c.data channel) *. lit 255))
    setIndex res v ((← index res v) +. lit 1 /. len)) (List.replicate 256 (lit 0))

/-- balance_channels.rs:54-66 `level_channel`. -/
def level_channel (value black_point white_point : F) : F :=
  let diff := white_point -. black_point
  let scale := tanh (abs diff *. lit 10)
  if scale <=. f32_EPSILON then value
  else
    let factor := lit 1 /. diff
    (value -. black_point *. scale) *. factor *. scale

/-- balance_channels.rs:68-93 `balance_buffer` for the colour type `space`. -/
def balance_buffer (space : Space) (START NUM_CHANNELS : Nat) (buffer : PixelBuffer (Col F))
    (threshold : F) : R (PixelBuffer (Col F)) := do
  let threshold := threshold /. lit 1000
  let points ← (List.range NUM_CHANNELS).mapM fun i => do
    let values ← balanceValues space buffer (START + i)
    return (get_min_value values threshold, get_max_value values threshold)
  buffer.map_colors_R fun c => do
    let data ← forRange NUM_CHANNELS (D10.convert .rgb space c).data fun i data => do
      let p ← index points i
      setIndex data (START + i) (level_channel (← index data (START + i)) p.1 p.2)
    return to_rgb space (← Col.ofData data)

/-- balance_channels.rs:95-102 `BalanceMode`. -/
inductive BalanceMode | Rgb | Srgb | Hsv | Hsl | Lch
deriving DecidableEq, Repr

/-- balance_channels.rs:120-128 `balance`; `Lch` without parameters is `Lch<D65, O2>`. -/
def balance (buffer : PixelBuffer (Col F)) (mode : BalanceMode) (threshold : F) :
    R (PixelBuffer (Col F)) :=
  match mode with
  | .Rgb => balance_buffer .rgb 0 3 buffer threshold
  | .Srgb => balance_buffer .srgb 0 3 buffer threshold
  | .Hsv => balance_buffer .hsv 1 2 buffer threshold
  | .Hsl => balance_buffer .hsl 1 2 buffer threshold
  | .Lch => balance_buffer (.lch .D65 .O2) 0 2 buffer threshold

end D10
