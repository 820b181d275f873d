import Verif.Model.Basic

/-!
# d10-core/src/pixelbuffer.rs

`PixelBuffer<T>`: the storage of an image. `Vec<T>` is a `List`, `u32` is `Nat` with checked
arithmetic, `&mut self` methods return the new buffer.
-/

namespace D10

/-- pixelbuffer.rs:7 `MAX_BUFFER_SIZE = i32::MAX / 2`. -/
def MAX_BUFFER_SIZE : Nat := 2147483647 / 2

/-- pixelbuffer.rs:9-17 `is_valid_buffer_size`. The `u64` product of two `u32` cannot overflow. -/
def is_valid_buffer_size (width height : Nat) : Bool :=
  if width = 0 then height = 0
  else if height = 0 then width = 0
  else width * height ≤ MAX_BUFFER_SIZE

/-- pixelbuffer.rs:19-23 `validate_size`. -/
def validate_size (width height : Nat) : R Unit :=
  if is_valid_buffer_size width height then .ok () else .error .invalidSize

/-- pixelbuffer.rs:30-34 `struct PixelBuffer`. -/
structure PixelBuffer (T : Type) where
  width : Nat
  height : Nat
  data : List T
  deriving Repr, DecidableEq

namespace PixelBuffer

variable {T U : Type}

/-- pixelbuffer.rs:46-54 `new_with_color`. -/
def new_with_color (width height : Nat) (color : T) : R (PixelBuffer T) := do
  validate_size width height
  let len ← u32 (width * height)
  return { width, height, data := List.replicate len color }

/-- pixelbuffer.rs:42-44 `new`; `T::default()` is the parameter `dflt`. -/
def new (dflt : T) (width height : Nat) : R (PixelBuffer T) :=
  new_with_color width height dflt

/-- pixelbuffer.rs:56-76 `new_from_raw`. On a 64-bit target `required_len > usize::MAX` is never
true for two `u32` factors. -/
def new_from_raw (width height : Nat) (data : List T) : R (PixelBuffer T) := do
  let required_len := width * height
  if required_len ≠ data.length then
    .error .wrongLength
  else
    validate_size width height
    return { width, height, data }

/-- pixelbuffer.rs:99-114 `new_from_func`. The closure's effects (panics, captured mutable state)
are the monad `m`; for width 0 the range is empty, so `%` and `/` by zero are not evaluated. -/
def new_from_funcM {m : Type → Type} [Monad m] [MonadLiftT R m]
    (width height : Nat) (func : Nat → Nat → m T) : m (PixelBuffer T) := do
  liftM (validate_size width height)
  let len ← liftM (u32 (width * height))
  let data ← (List.range len).mapM (fun i => func (i % width) (i / width))
  return { width, height, data }

/-- pixelbuffer.rs:99-114 `new_from_func` with a closure that may panic but keeps no state. -/
def new_from_func (width height : Nat) (func : Nat → Nat → R T) : R (PixelBuffer T) :=
  new_from_funcM width height func

/-- `Iterator::map(f).collect::<Result<Vec<_>, E>>()`: stops at the first `Err`. -/
def collectResult {m : Type → Type} [Monad m] {α β E : Type}
    (f : α → m (Except E β)) : List α → m (Except E (List β))
  | [] => pure (.ok [])
  | a :: as => do
    match ← f a with
    | .error e => pure (.error e)
    | .ok b =>
      match ← collectResult f as with
      | .error e => pure (.error e)
      | .ok bs => pure (.ok (b :: bs))

/-- pixelbuffer.rs:78-97 `try_new_from_func`. -/
def try_new_from_func {m : Type → Type} [Monad m] [MonadLiftT R m] {E : Type}
    (width height : Nat) (func : Nat → Nat → m (Except E T)) : m (Except E (PixelBuffer T)) := do
  liftM (validate_size width height)
  let len ← liftM (u32 (width * height))
  match ← collectResult (fun i => func (i % width) (i / width)) (List.range len) with
  | .error e => pure (.error e)
  | .ok data => pure (.ok { width, height, data })

/-- pixelbuffer.rs:124-126 `is_empty`. -/
def is_empty (b : PixelBuffer T) : Bool := b.width == 0 && b.height == 0

/-- pixelbuffer.rs:136-143 `enumerate` (collected into a list). `i as u32` is exact because a
buffer has fewer than 2^30 pixels; for an empty buffer nothing is divided. -/
def enumerate (b : PixelBuffer T) : List (Nat × Nat × T) :=
  b.data.zipIdx.map (fun (v, i) => (i % 2 ^ 32 % b.width, i % 2 ^ 32 / b.width, v))

/-- pixelbuffer.rs:196-203 `map_colors` for a pure closure. -/
def map_colors (b : PixelBuffer T) (func : T → U) : PixelBuffer U :=
  { width := b.width, height := b.height, data := b.data.map func }

/-- pixelbuffer.rs:196-203 `map_colors` for an `FnMut` closure with effects in `m`. -/
def map_colorsM {m : Type → Type} [Monad m] (b : PixelBuffer T) (func : T → m U) :
    m (PixelBuffer U) := do
  let data ← b.data.mapM func
  return { width := b.width, height := b.height, data }

/-- The loop of pixelbuffer.rs:155-159: overwrite the pixels one after the other; `done` are the
pixels already overwritten. -/
def modLoop {m : Type → Type} [Monad m] (func : T → m T) : List T → List T → m (List T)
  | done, [] => pure done
  | done, pixel :: rest => do
    let new_color ← func pixel
    modLoop func (done ++ [new_color]) rest

/-- pixelbuffer.rs:154-160 `mod_colors` (`&mut self`: the new buffer is returned). -/
def mod_colorsM {m : Type → Type} [Monad m] (b : PixelBuffer T) (func : T → m T) :
    m (PixelBuffer T) := do
  let data ← modLoop func [] b.data
  return { b with data }

/-- pixelbuffer.rs:154-160 `mod_colors` for a pure closure. -/
def mod_colors (b : PixelBuffer T) (func : T → T) : PixelBuffer T :=
  Id.run (b.mod_colorsM (m := Id) func)

/-- The loop of pixelbuffer.rs:166-172, returning the pixels after the loop together with the
`Result`. -/
def tryModLoop {m : Type → Type} [Monad m] {E : Type} (func : T → m (Except E T)) :
    List T → List T → m (List T × Except E Unit)
  | done, [] => pure (done, .ok ())
  | done, pixel :: rest => do
    match ← func pixel with
    | .error e => pure (done ++ pixel :: rest, .error e)
    | .ok new_color => tryModLoop func (done ++ [new_color]) rest

/-- pixelbuffer.rs:162-173 `try_mod_colors`: the buffer afterwards and the returned `Result`. -/
def try_mod_colors {m : Type → Type} [Monad m] {E : Type} (b : PixelBuffer T)
    (func : T → m (Except E T)) : m (PixelBuffer T × Except E Unit) := do
  let (data, res) ← tryModLoop func [] b.data
  return ({ b with data }, res)

/-- pixelbuffer.rs:175-181 `mod_colors_enumerated` (the closure may panic). The loop runs over
`enumerate_mut`; each pixel is overwritten before the next one is visited. -/
def mod_colors_enumerated (b : PixelBuffer T) (func : Nat → Nat → T → R T) : R (PixelBuffer T) := do
  let data ← b.enumerate.foldlM (fun acc (x, y, c) => do
    let new_color ← func x y c
    return acc ++ [new_color]) []
  return { b with data }

/-- pixelbuffer.rs:183-194 `try_mod_colors_enumerated`. -/
def try_mod_colors_enumerated {E : Type} (b : PixelBuffer T)
    (func : Nat → Nat → T → Except E T) : PixelBuffer T × Except E Unit :=
  go [] b.enumerate
where
  go : List T → List (Nat × Nat × T) → PixelBuffer T × Except E Unit
  | done, [] => ({ b with data := done }, .ok ())
  | done, (x, y, c) :: rest =>
    match func x y c with
    | .error e => ({ b with data := done ++ c :: rest.map (fun p => p.2.2) }, .error e)
    | .ok new_color => go (done ++ [new_color]) rest

/-- pixelbuffer.rs:205-215 `try_map_colors`. -/
def try_map_colors {m : Type → Type} [Monad m] {E : Type} (b : PixelBuffer T)
    (func : T → m (Except E U)) : m (Except E (PixelBuffer U)) := do
  match ← collectResult func b.data with
  | .error e => pure (.error e)
  | .ok data => pure (.ok { width := b.width, height := b.height, data })

/-- pixelbuffer.rs:217-224 `map_colors_enumerated` (the closure may panic). -/
def map_colors_enumerated (b : PixelBuffer T) (func : Nat → Nat → T → R T) : R (PixelBuffer T) := do
  let data ← b.enumerate.mapM (fun (x, y, c) => func x y c)
  return { width := b.width, height := b.height, data }

/-- pixelbuffer.rs:226-239 `try_map_colors_enumerated`. -/
def try_map_colors_enumerated {E : Type} (b : PixelBuffer T)
    (func : Nat → Nat → T → Except E T) : Except E (PixelBuffer T) := do
  let data ← Id.run (collectResult (m := Id) (fun (x, y, c) => func x y c) b.enumerate)
  return { width := b.width, height := b.height, data }

/-- pixelbuffer.rs:241-245 `get_pixel`. -/
def get_pixel (b : PixelBuffer T) (x y : Nat) : R T := do
  assert (x < b.width)
  assert (y < b.height)
  let row ← u32 (y * b.width)
  let i ← u32 (x + row)
  index b.data i

/-- pixelbuffer.rs:247-251 `put_pixel`. -/
def put_pixel (b : PixelBuffer T) (x y : Nat) (color : T) : R (PixelBuffer T) := do
  assert (x < b.width)
  assert (y < b.height)
  let row ← u32 (y * b.width)
  let i ← u32 (x + row)
  let data ← setIndex b.data i color
  return { b with data }

/-- pixelbuffer.rs:253-258 `get_pixel_clamped`. -/
def get_pixel_clamped (b : PixelBuffer T) (x y : Int) : R T := do
  let wm ← usub b.width 1
  let cx ← clampI32 x 0 (asI32 wm)
  let hm ← usub b.height 1
  let cy ← clampI32 y 0 (asI32 hm)
  b.get_pixel (asU32 cx) (asU32 cy)

/-- pixelbuffer.rs:269-271 `is_in_image`. -/
def is_in_image (b : PixelBuffer T) (x y : Int) : Bool :=
  x ≥ 0 && x < asI32 b.width && y ≥ 0 && y < asI32 b.height

/-- pixelbuffer.rs:260-266 `get_pixel_optional`. -/
def get_pixel_optional (b : PixelBuffer T) (x y : Int) : R (Option T) :=
  if b.is_in_image x y then do
    let row ← u32 (asU32 y * b.width)
    let i ← u32 (asU32 x + row)
    return some (← index b.data i)
  else
    return none

/-- pixelbuffer.rs:273-298 `get_kernel::<N>` (arrays are lists here). `N as i32` is modelled by `asI32`; `/` on non-negative `i32` is `Int.tdiv`.
`usize` additions are not checked: they stay far below 2^64. -/
def get_kernel (b : PixelBuffer T) (N : Nat) (x y : Int) : R (List (List T)) := do
  let offset := (asI32 N).tdiv 2
  let start_x ← i32 (x - offset)
  let start_y ← i32 (y - offset)
  -- `&&` is lazy: the end position is computed only if the start is in the image
  let fast ← if b.is_in_image start_x start_y then do
      let end_x ← i32 (x + offset)
      let end_y ← i32 (y + offset)
      pure (b.is_in_image end_x end_y)
    else pure false
  if fast then
    (List.range N).mapM (fun ty => do
      let start := b.width * (ty + start_y.toNat) + start_x.toNat
      slice b.data start (start + N))
  else
    (List.range N).mapM (fun ty => (List.range N).mapM (fun tx => do
      let px ← i32 (asI32 tx + x)
      let px ← i32 (px - offset)
      let py ← i32 (asI32 ty + y)
      let py ← i32 (py - offset)
      b.get_pixel_clamped px py))

/-- pixelbuffer.rs:300-326 `get_kernel_dyn` (Vecs are lists here), otherwise as above. -/
def get_kernel_dyn (b : PixelBuffer T) (x y : Int) (size : Nat) : R (List (List T)) := do
  let offset := (asI32 size).tdiv 2
  let start_x ← i32 (x - offset)
  let start_y ← i32 (y - offset)
  -- `&&` is lazy: the end position is computed only if the start is in the image
  let fast ← if b.is_in_image start_x start_y then do
      let end_x ← i32 (x + offset)
      let end_y ← i32 (y + offset)
      pure (b.is_in_image end_x end_y)
    else pure false
  if fast then
    (List.range size).mapM (fun ty => do
      let start := b.width * (ty + start_y.toNat) + start_x.toNat
      slice b.data start (start + size))
  else
    (List.range size).mapM (fun ty => (List.range size).mapM (fun tx => do
      let px ← i32 (asI32 tx + x)
      let px ← i32 (px - offset)
      let py ← i32 (asI32 ty + y)
      let py ← i32 (py - offset)
      b.get_pixel_clamped px py))

end PixelBuffer

end D10
