import Verif.Model.PixelBuffer

/-!
# Geometric operations and composition

d10-ops/src/flip.rs, rotate_90.rs, crop.rs, interlace.rs, compose.rs. `dflt` is the colour type's
`Default::default()`. All `u32` arithmetic is checked; `usize` arithmetic on values below 2^33 is
not.
-/

namespace D10

variable {C : Type}

/-- d10-ops/src/flip.rs:5-19 `flip_horizontal`. -/
def flip_horizontal (dflt : C) (buffer : PixelBuffer C) : R (PixelBuffer C) := do
  let result ← forRange buffer.width (List.replicate buffer.data.length dflt) fun x result =>
    forRange buffer.height result fun y result => do
      let v ← index buffer.data (← u32 (x + (← u32 (y * buffer.width))))
      let x2 ← usub (← usub buffer.width x) 1
      setIndex result (← u32 (x2 + (← u32 (y * buffer.width)))) v
  PixelBuffer.new_from_raw buffer.width buffer.height result

/-- d10-ops/src/flip.rs:22-36 `flip_vertical`. -/
def flip_vertical (dflt : C) (buffer : PixelBuffer C) : R (PixelBuffer C) := do
  let result ← forRange buffer.width (List.replicate buffer.data.length dflt) fun x result =>
    forRange buffer.height result fun y result => do
      let v ← index buffer.data (← u32 (x + (← u32 (y * buffer.width))))
      let y2 ← usub (← usub buffer.height y) 1
      setIndex result (← u32 (x + (← u32 (y2 * buffer.width)))) v
  PixelBuffer.new_from_raw buffer.width buffer.height result

/-- d10-ops/src/rotate_90.rs:5-21 `rotate90`. -/
def rotate90 (dflt : C) (buffer : PixelBuffer C) : R (PixelBuffer C) := do
  let result ← forRange buffer.width (List.replicate buffer.data.length dflt) fun x result =>
    forRange buffer.height result fun y result => do
      let x2 ← usub (← usub buffer.height y) 1
      let y2 := x
      let v ← index buffer.data (← u32 (x + (← u32 (y * buffer.width))))
      setIndex result (← u32 (x2 + (← u32 (y2 * buffer.height)))) v
  PixelBuffer.new_from_raw buffer.height buffer.width result

/-- d10-ops/src/rotate_90.rs:24-40 `rotate180`. -/
def rotate180 (dflt : C) (buffer : PixelBuffer C) : R (PixelBuffer C) := do
  let result ← forRange buffer.width (List.replicate buffer.data.length dflt) fun x result =>
    forRange buffer.height result fun y result => do
      let x2 ← usub (← usub buffer.width x) 1
      let y2 ← usub (← usub buffer.height y) 1
      let v ← index buffer.data (← u32 (x + (← u32 (y * buffer.width))))
      setIndex result (← u32 (x2 + (← u32 (y2 * buffer.width)))) v
  PixelBuffer.new_from_raw buffer.width buffer.height result

/-- d10-ops/src/rotate_90.rs:43-59 `rotate270`. -/
def rotate270 (dflt : C) (buffer : PixelBuffer C) : R (PixelBuffer C) := do
  let result ← forRange buffer.width (List.replicate buffer.data.length dflt) fun x result =>
    forRange buffer.height result fun y result => do
      let x2 := y
      let y2 ← usub (← usub buffer.width x) 1
      let v ← index buffer.data (← u32 (x + (← u32 (y * buffer.width))))
      setIndex result (← u32 (x2 + (← u32 (y2 * buffer.height)))) v
  PixelBuffer.new_from_raw buffer.height buffer.width result

/-- d10-ops/src/crop.rs:4-39 `crop`. -/
def crop (dflt : C) (buffer : PixelBuffer C) (offset_x offset_y width height : Nat) :
    R (PixelBuffer C) := do
  if buffer.is_empty then
    return buffer
  else
    let offset_x := min offset_x buffer.width
    let offset_y := min offset_y buffer.height
    let width := min width (← usub buffer.width offset_x)
    let height := min height (← usub buffer.height offset_y)
    if width == 0 || height == 0 then
      return ← PixelBuffer.new dflt 0 0
    let _capacity ← u32 (width * height)
    let data ← forRange height [] fun y data => do
      let offset ← u32 ((← u32 ((← u32 (offset_y + y)) * buffer.width)) + offset_x)
      let row ← slice buffer.data offset (offset + width)
      return data ++ row
    PixelBuffer.new_from_raw width height data

/-- d10-ops/src/interlace.rs:4-14 `interlace`. -/
def interlace (buffer : PixelBuffer C) (offset : Nat) : R (PixelBuffer C) :=
  let offset := asI32 offset
  PixelBuffer.new_from_func buffer.width buffer.height fun x y => do
    if y % 2 == 0 then
      buffer.get_pixel_clamped (← i32 (asI32 x - offset)) (asI32 y)
    else
      buffer.get_pixel_clamped (← i32 (asI32 x + offset)) (asI32 y)

/-- Rust `Iterator::max().unwrap()` on a list of `u32`. -/
def maxUnwrap : List Nat → R Nat
  | [] => .error .unwrap
  | a :: as => .ok (as.foldl max a)

/-- d10-ops/src/compose.rs:4-28 `try_compose`. An array `[_; N]` is a `Vector _ N`. The scratch array
`pixels` is overwritten completely in every call, so it is not carried from call to call here. The
closure may have effects in `m`. -/
def try_compose {m : Type → Type} [Monad m] [MonadLiftT R m] {E : Type} {N : Nat}
    (buffers : Vector (PixelBuffer C) N) (default : C)
    (func : Nat → Nat → Vector C N → m (Except E C)) : m (Except E (PixelBuffer C)) := do
  liftM (assert (N > 0))
  let width ← liftM (maxUnwrap (buffers.toList.map (·.width)))
  let height ← liftM (maxUnwrap (buffers.toList.map (·.height)))
  PixelBuffer.try_new_from_func width height fun x y => do
    let pixels ← liftM (buffers.mapM (m := R) fun b => do
      match ← b.get_pixel_optional (asI32 x) (asI32 y) with
      | some v => pure v
      | none => pure default)
    func x y pixels

/-- d10-ops/src/compose.rs:30-40 `compose`. The error type is `()`. -/
def compose {m : Type → Type} [Monad m] [MonadLiftT R m] {N : Nat}
    (buffers : Vector (PixelBuffer C) N) (default : C)
    (func : Nat → Nat → Vector C N → m C) : m (PixelBuffer C) := do
  match ← try_compose (E := Unit) buffers default
      (fun x y colors => do return .ok (← func x y colors)) with
  | .ok b => pure b
  | .error _ => liftM (Except.error .unwrap : R (PixelBuffer C))

/-- d10-ops/src/compose.rs:42-66 `try_compose_slice`. The scratch vector `pixels` is
overwritten completely in every call, so it is not carried from call to call here. The closure may
have effects in `m`. -/
def try_compose_slice {m : Type → Type} [Monad m] [MonadLiftT R m] {E : Type}
    (buffers : List (PixelBuffer C)) (default : C)
    (func : Nat → Nat → List C → m (Except E C)) : m (Except E (PixelBuffer C)) := do
  liftM (assert (!buffers.isEmpty))
  let width ← liftM (maxUnwrap (buffers.map (·.width)))
  let height ← liftM (maxUnwrap (buffers.map (·.height)))
  PixelBuffer.try_new_from_func width height fun x y => do
    let pixels ← liftM (buffers.mapM (m := R) fun b => do
      match ← b.get_pixel_optional (asI32 x) (asI32 y) with
      | some v => pure v
      | none => pure default)
    func x y pixels

/-- d10-ops/src/compose.rs:68-74 `compose_slice`. The
error type is `()` and the wrapped closure never fails, so `unwrap` never panics. -/
def compose_slice {m : Type → Type} [Monad m] [MonadLiftT R m]
    (buffers : List (PixelBuffer C)) (default : C)
    (func : Nat → Nat → List C → m C) : m (PixelBuffer C) := do
  match ← try_compose_slice (E := Unit) buffers default
      (fun x y colors => do return .ok (← func x y colors)) with
  | .ok b => pure b
  | .error _ => liftM (Except.error .unwrap : R (PixelBuffer C))

end D10
