import Verif.Model.PixelBuffer
import Verif.Model.Color
import Verif.Model.Geometry

/-!
# Convolution kernels

d10-core/src/kernel.rs, d10-core/src/kernel_dyn.rs, the convolution methods of
d10-core/src/pixelbuffer.rs and the operations built on them: d10-ops/src/gaussian_blur.rs,
d10-ops/src/unsharp.rs, d10-ops/src/edge_detection.rs.
-/

namespace D10
open Scalar

variable {F : Type} [Scalar F]

/-- `Rgb { data }` for the four accumulated values (the Rust type is `[f32; 4]`, so the list always
has four entries; any other length is treated like a bad index). -/
def Col.ofData : List F → R (Col F)
  | [a, b, c, d] => .ok ⟨a, b, c, d⟩
  | _ => .error .index

/-- Rust `for i in lo..hi { body }` over signed integers. -/
def forInts (lo hi : Int) (s : σ) (body : Int → σ → R σ) : R σ :=
  forRange (hi - lo).toNat s fun i s => body (lo + i) s

/-- kernel.rs:3-5 `Kernel<N>`: `N` rows of `N` numbers. -/
structure Kernel (F : Type) where
  data : List (List F)

/-- kernel.rs:14-29 `apply_kernel` with `S` result channels. -/
def Kernel.apply_kernel {T : Type} (N : Nat) (k : Kernel F) (data : List (List T))
    (func : T → Nat → R F) (S : Nat) : R (List F) :=
  forRange N (List.replicate S (lit 0)) fun y result =>
    forRange N result fun x result =>
      result.zipIdx.mapM fun (v, i) => do
        return v +. (← index (← index k.data y) x) *. (← func (← index (← index data y) x) i)

/-- The value computed for one entry of a Gaussian kernel: kernel.rs:44-46, kernel_dyn.rs:54-56,
with `s = 2.0 * sigma * sigma`. -/
def gaussianValue (s : F) (x y : Int) : F :=
  let r := sqrt (ofInt x *. ofInt x +. ofInt y *. ofInt y)
  exp (neg (r *. r) /. s) /. (PI *. s)

/-- kernel.rs:31-61 `Kernel::<N>::new_gaussian`. -/
def Kernel.new_gaussian (N : Nat) (sigma : F) : R (Kernel F) := do
  let data := List.replicate N (List.replicate N (lit 0 : F))
  let size : Int := N
  let offset := size.tdiv 2
  let s := lit 2 *. sigma *. sigma
  let (data, sum) ← forInts (-offset) (size - offset) (data, (lit 0 : F)) fun x st =>
    forInts (-offset) (size - offset) st fun y st => do
      let v := gaussianValue s x y
      let row ← index st.1 (y + offset).toNat
      let row ← setIndex row (x + offset).toNat v
      let data ← setIndex st.1 (y + offset).toNat row
      return (data, st.2 +. v)
  return { data := data.map fun row => row.map fun v => v /. sum }

/-- kernel_dyn.rs:3-7 `KernelDyn`. -/
structure KernelDyn (F : Type) where
  data : List F
  width : Nat
  height : Nat

/-- kernel_dyn.rs:10-18 `KernelDyn::new`. -/
def KernelDyn.new (data : List F) (width height : Nat) : R (KernelDyn F) := do
  let len ← u32 (width * height)
  assert (data.length == len)
  return { data, width, height }

/-- kernel_dyn.rs:20-22 `get`. -/
def KernelDyn.get (k : KernelDyn F) (x y : Nat) : R F := do
  let i ← u32 (x + (← u32 (y * k.width)))
  index k.data i

/-- kernel_dyn.rs:24-26 -/
def KernelDyn.get_offset_x (k : KernelDyn F) : Int := (asI32 k.width).tdiv 2
/-- kernel_dyn.rs:28-30 -/
def KernelDyn.get_offset_y (k : KernelDyn F) : Int := (asI32 k.height).tdiv 2

/-- kernel_dyn.rs:32-39 `enumerate`. The kernel has fewer than 2^32 entries, so `i as u32` is `i`. -/
def KernelDyn.enumerate (k : KernelDyn F) : List (Nat × Nat × F) :=
  k.data.zipIdx.map fun (v, i) => (i % 2 ^ 32 % k.width, i % 2 ^ 32 / k.width, v)

/-- kernel_dyn.rs:41-71 `KernelDyn::new_gaussian`. -/
def KernelDyn.new_gaussian (size : Nat) (sigma : F) : R (KernelDyn F) := do
  let len ← u32 (size * size)
  let data := List.replicate len (lit 0 : F)
  let isize : Int := size
  let offset := isize.tdiv 2
  let s := lit 2 *. sigma *. sigma
  let (data, sum) ← forInts (-offset) (isize - offset) (data, (lit 0 : F)) fun x st =>
    forInts (-offset) (isize - offset) st fun y st => do
      let v := gaussianValue s x y
      let i := ((x + offset) + ((y + offset) * isize)).toNat
      let data ← setIndex st.1 i v
      return (data, st.2 +. v)
  KernelDyn.new (data.map fun v => v /. sum) size size

/-- kernel_dyn.rs:73-79 -/
def KernelDyn.new_sobel_x : KernelDyn F :=
  { data := [lit (-1), lit 0, lit 1, lit (-2), lit 0, lit 2, lit (-1), lit 0, lit 1]
    width := 3, height := 3 }

/-- kernel_dyn.rs:81-87 -/
def KernelDyn.new_sobel_y : KernelDyn F :=
  { data := [lit 1, lit 2, lit 1, lit 0, lit 0, lit 0, lit (-1), lit (-2), lit (-1)]
    width := 3, height := 3 }

namespace PixelBuffer

/-- pixelbuffer.rs:402-410 `apply_kernel::<N>`. -/
def apply_kernel (b : PixelBuffer (Col F)) (N : Nat) (kernel : Kernel F) :
    R (PixelBuffer (Col F)) :=
  b.map_colors_enumerated fun x y _ => do
    let buffer_k ← b.get_kernel N (asI32 x) (asI32 y)
    let data ← kernel.apply_kernel N buffer_k (fun c i => index c.data i) 4
    Col.ofData data

/-- pixelbuffer.rs:416-434 `get_kernel_value`. -/
def get_kernel_value (b : PixelBuffer (Col F)) (image_x image_y : Nat) (kernel : KernelDyn F) :
    R (Col F) := do
  let offset_x := kernel.get_offset_x
  let offset_y := kernel.get_offset_y
  let data ← kernel.enumerate.foldlM (fun data (x, y, kernel_value) => do
    let px ← i32 (asI32 (← u32 (image_x + x)) - offset_x)
    let py ← i32 (asI32 (← u32 (image_y + y)) - offset_y)
    let color ← b.get_pixel_clamped px py
    return List.zipWith (fun value color_value => value +. color_value *. kernel_value)
      data color.data) (List.replicate 4 (lit 0))
  Col.ofData data

/-- pixelbuffer.rs:412-414 `apply_kernel_dyn`. -/
def apply_kernel_dyn (b : PixelBuffer (Col F)) (kernel : KernelDyn F) :
    R (PixelBuffer (Col F)) :=
  b.map_colors_enumerated fun x y _ => b.get_kernel_value x y kernel

end PixelBuffer

/-- gaussian_blur.rs:28-30 `get_default_sigma`. -/
def get_default_sigma (kernel_size : Nat) : F := (ofNat kernel_size -. lit 1) /. lit 4

/-- gaussian_blur.rs:6-26 `gaussian_blur`. -/
def gaussian_blur (buffer : PixelBuffer (Col F)) (radius : Nat) (sigma : Option F) :
    R (PixelBuffer (Col F)) := do
  let kernel_size ← u32 ((← u32 (radius * 2)) + 1)
  let sigma := sigma.getD (get_default_sigma kernel_size)
  match kernel_size with
  | 3 => buffer.apply_kernel 3 (← Kernel.new_gaussian 3 sigma)
  | 5 => buffer.apply_kernel 5 (← Kernel.new_gaussian 5 sigma)
  | 7 => buffer.apply_kernel 7 (← Kernel.new_gaussian 7 sigma)
  | _ => buffer.apply_kernel_dyn (← KernelDyn.new_gaussian kernel_size sigma)

/-- unsharp.rs:5-27 `unsharp`. -/
def unsharp (buffer : PixelBuffer (Col F)) (radius : Nat) (factor : F) (sigma : Option F) :
    R (PixelBuffer (Col F)) := do
  let kernel_size ← u32 ((← u32 (radius * 2)) + 1)
  let sigma := sigma.getD (get_default_sigma kernel_size)
  let kernel ← KernelDyn.new_gaussian kernel_size sigma
  buffer.map_colors_enumerated fun x y c => do
    let c_blurred ← buffer.get_kernel_value x y kernel
    return Rgb.new_with_alpha
      (c.c0 +. (c.c0 -. c_blurred.c0) *. factor)
      (c.c1 +. (c.c1 -. c_blurred.c1) *. factor)
      (c.c2 +. (c.c2 -. c_blurred.c2) *. factor)
      (c.alpha +. (c.alpha -. c_blurred.alpha) *. factor)

/-- edge_detection.rs:8-12 -/
inductive EdgeDetection | Sobel | Laplace
deriving DecidableEq, Repr

/-- edge_detection.rs:39-46, the closure that merges the two directions. -/
def sobelMerge : List (Col F) → R (Col F)
  | [img1, img2] =>
    .ok (Rgb.new
      (sqrt (img1.c0 *. img1.c0 +. img2.c0 *. img2.c0))
      (sqrt (img1.c1 *. img1.c1 +. img2.c1 *. img2.c1))
      (sqrt (img1.c2 *. img1.c2 +. img2.c2 *. img2.c2)))
  | _ => .error .index

/-- edge_detection.rs:26-46 `edge_detection_sobel`. The array pattern `[img1, img2]` is a list
pattern here. -/
def edge_detection_sobel (buffer : PixelBuffer (Col F)) : R (PixelBuffer (Col F)) := do
  let buffer_x ← buffer.apply_kernel 3 ⟨[
    [lit 1, lit 0, lit (-1)],
    [lit 2, lit 0, lit (-2)],
    [lit 1, lit 0, lit (-1)]]⟩
  let buffer_y ← buffer.apply_kernel 3 ⟨[
    [lit 1, lit 2, lit 1],
    [lit 0, lit 0, lit 0],
    [lit (-1), lit (-2), lit (-1)]]⟩
  compose_slice [buffer_x, buffer_y] Rgb.BLACK fun _ _ colors => sobelMerge colors

/-- edge_detection.rs:48-56 `edge_detection_laplace`. -/
def edge_detection_laplace (buffer : PixelBuffer (Col F)) : R (PixelBuffer (Col F)) := do
  let b ← buffer.apply_kernel 3 ⟨[
    [lit 1, lit 1, lit 1],
    [lit 1, lit (-8), lit 1],
    [lit 1, lit 1, lit 1]]⟩
  return b.map_colors fun c => c.with_alpha (lit 1)

/-- edge_detection.rs:58-63 `edge_detection`. -/
def edge_detection (buffer : PixelBuffer (Col F)) (mode : EdgeDetection) :
    R (PixelBuffer (Col F)) :=
  match mode with
  | .Sobel => edge_detection_sobel buffer
  | .Laplace => edge_detection_laplace buffer

end D10
