import Verif.Model.Python
import Verif.Model.Commands

/-!
# Python objects, callbacks and threads

d10-python/src/image.rs once more, this time with the objects that Python programs share. An object
of the class `Image` is a cell (`PyCell` of PyO3 0.20, see d10-python/Cargo.toml:23) that counts who
is using it. The wrapper that `#[pymethods]` generates for a method borrows the cell of the receiver
first (shared for `&self`, exclusive for `&mut self`), then the cells of image arguments (shared), and
gives everything back when the method returns, raises or panics. A refused borrow raises.

The methods that call a Python function hold their borrows while that function runs. The function may
do anything, including calling methods of the same objects, and while it runs Python may switch to
other threads. So a Python program is modelled by an arbitrary type `K` of program points with a
function that tells the next action (`Act`) at each of them, and a schedule says which thread takes the
next step. Native code without callbacks runs in one step: nothing in d10-python releases the global
lock.

Left out: colours as objects (a colour is its value; the only method of a colour that calls back,
`Rgb.map_color_channels`, is in Model/PythonColor), reading and writing files in between steps, and
what happens when an argument does not have the expected type.
-/

namespace D10.Python

/-- A Python object of the class `Image`, by number. -/
abbrev Ref := Nat

/-- The counter of a `PyCell` (pyo3 0.20, `BorrowFlag`). `shared 0` is an object nobody uses. -/
inductive Flag
  | shared (readers : Nat)
  | exclusive
deriving DecidableEq, Repr

/-- How a method borrows its receiver: `&self` or `&mut self`. -/
inductive Mode | shared | exclusive
deriving DecidableEq, Repr

/-- image.rs:22-25 `#[pyclass] struct Image`, with the counter of its cell. -/
structure Cell (F : Type) where
  image : Image F
  flag : Flag

/-- All objects that were ever created. -/
abbrev Heap (F : Type) := List (Cell F)

/-- The exceptions a call can raise. `E` are the exceptions of Python functions. -/
inductive Exc (E : Type)
  /-- `RuntimeError: Already mutably borrowed` -/
  | alreadyMutablyBorrowed
  /-- `RuntimeError: Already borrowed` -/
  | alreadyBorrowed
  /-- `PanicException` -/
  | panic (p : Panic)
  /-- the panic of `PyCell::borrow`, `PanicException` -/
  | panicBorrow
  /-- `OSError` -/
  | os (message : String)
  /-- `TypeError` -/
  | type
  | raised (e : E)

/-- What a call returns. -/
inductive Value (F D : Type)
  | none
  | bool (b : Bool)
  | number (n : Nat)
  | colour (c : Col F)
  | colours (l : List (Col F))
  | array (a : NpArray F D)
  | image (r : Ref)

/-- What a native method returns: a new image becomes a new object. -/
inductive Out (F D : Type)
  | value (v : Value F D)
  | image (img : Image F)

/-- `PyCell::try_borrow` and `try_borrow_mut` on the counter. -/
def Flag.acquire {E : Type} : Flag → Mode → Except (Exc E) Flag
  | .shared n, .shared => .ok (.shared (n + 1))
  | .exclusive, .shared => .error .alreadyMutablyBorrowed
  | .shared 0, .exclusive => .ok .exclusive
  | _, .exclusive => .error .alreadyBorrowed

/-- Dropping a `PyRef` or `PyRefMut`. -/
def Flag.release : Flag → Mode → Flag
  | .shared n, .shared => .shared (n - 1)
  | f, .shared => f
  | _, .exclusive => .shared 0

/-- Borrowing an object. Something that is not an image raises `TypeError`. -/
def Heap.acquire {F E : Type} (h : Heap F) (r : Ref) (m : Mode) : Except (Exc E) (Heap F) :=
  match h[r]? with
  | some c =>
    match c.flag.acquire m with
    | .ok flag => .ok (h.set r { c with flag })
    | .error e => .error e
  | none => .error .type

/-- Giving an object back. -/
def Heap.release {F : Type} (h : Heap F) (r : Ref) (m : Mode) : Heap F :=
  match h[r]? with
  | some c => h.set r { c with flag := c.flag.release m }
  | none => h

/-- Overwriting the image in an object. -/
def Heap.write {F : Type} (h : Heap F) (r : Ref) (image : Image F) : Heap F :=
  match h[r]? with
  | some c => h.set r { c with image }
  | none => h

/-- The images in some objects. -/
def Heap.images {F : Type} (h : Heap F) (rs : List Ref) : List (Image F) :=
  rs.filterMap fun r => h[r]?.map (·.image)

section
variable {F D G : Type} [Scalar F] [Scalar D] [Widen F D] [FloatBytes F]

/-- The methods of `Image` that take `&self`, no image and no Python function. The generator of the
noise methods is the one of the thread; its state when the method is called is an argument here. -/
inductive Reader (F G : Type)
  | to_list | get_width | get_height | has_transparency | is_grayscale | len
  | get_pixel (x y : Int) | get_pixel_clamped (x y : Int) | is_in_image (x y : Int)
  | getitem (key : Int × Int)
  | crop (offset_x offset_y width height : Nat)
  | flip_horizontal | flip_vertical | rotate90 | rotate180 | rotate270
  | rotate (radians : F) (filter : Option String)
  | resize (new_width new_height : Nat) (filter : Option String)
  | resize_pct (pct_100 : F) (filter : Option String)
  | edge_detection (mode : Option String)
  | with_jpeg_quality (quality : Nat) (preserve_alpha : Option Bool)
  | random_noise (alpha : F) (rng : G) | salt_n_pepper_noise (threshold : F) (rng : G)
  | rgb_noise (threshold : F) (rng : G) | gaussian_noise (alpha : F) (rng : G)
  | gaussian_blur (radius : Nat) (sigma : Option F)
  | unsharp (radius : Nat) (factor sigma : Option F)
  | drawing (radius : Nat) (mode : Option String)
  | interlace (offset : Nat)
  | despeckle (threshold : Option F) (amount : Option Nat)
  | symmetric_nearest_neighbor (radius : Option Nat) (with_center : Option Bool)
  | stretch_contrast (threshold : Option F)
  | optimize_saturation (offset : Option F) (mode : Option String)
  | change_color_temperature (orig_temp new_temp : F) (tint_correction : Option F)
  | optimize_color_temperature (factor : F) (tint_correction : Option F)
  | optimize_lightness (factor : F)
  | white_balance (threshold : Option F)
  | balance (mode : Option String) (threshold : Option F)
  | equalize (mode : Option String)
  | to_np_array (colorspace : Option String) (data_type : Option PyDtype)

/-- The constructor of `Image` and the functions that make an image from something else. -/
inductive Creator (F D : Type)
  | new (width height : Nat) (color : Option (Col F))
  | from_list (width height : Nat) (list : List (Col F))
  | open (fs : FS) (path : String)
  | from_np_array (array : NpArray F D) (colorspace : Option String)

/-- image.rs:28-36 `new`, L38-47 `from_list`, L63-66 `open`, L644-730 `from_np_array`. -/
def Creator.run (libs : Libs F) : Creator F D → Py (Image F)
  | .new width height color => Py.ofR (Python.new width height color)
  | .from_list width height list => Py.ofR (Python.from_list width height list)
  | .open fs path => do
    match ← Py.ofR (Image.open libs fs path).run with
    | .ok img => return img
    | .error e => throw e.display
  | .from_np_array array colorspace => Python.from_np_array array colorspace

/-- A new image made by a method of the library. -/
def made (x : R (Image F)) : Py (Out F D) := do return .image (← Py.ofR x)

/-- The bodies of these methods, image.rs:49-62, 79-85, 134-140, 146-253, 255-287, 326-402, 411-642. -/
def Reader.run (libs : Libs F) (g : Rng G F) (img : Image F) : Reader F G → Py (Out F D)
  | .to_list => return .value (.colours (Python.to_list img))
  | .get_width => return .value (.number img.width)
  | .get_height => return .value (.number img.height)
  | .has_transparency => return .value (.bool img.has_transparency)
  | .is_grayscale => return .value (.bool img.is_grayscale)
  | .len => return .value (.number (Python.len img))
  | .get_pixel x y => do
    match ← Py.ofR (Python.get_pixel img x y) with
    | some c => return .value (.colour c)
    | none => return .value .none
  | .get_pixel_clamped x y => do return .value (.colour (← Py.ofR (img.get_pixel_clamped x y)))
  | .is_in_image x y => return .value (.bool (img.is_in_image x y))
  | .getitem key => do return .value (.colour (← Python.getitem img key))
  | .crop x y w h => made (img.crop x y w h)
  | .flip_horizontal => made img.flip_horizontal
  | .flip_vertical => made img.flip_vertical
  | .rotate90 => made img.rotate90
  | .rotate180 => made img.rotate180
  | .rotate270 => made img.rotate270
  | .rotate radians filter => do return .image (← Python.rotate img radians filter)
  | .resize w h filter => do return .image (← Python.resize img w h filter)
  | .resize_pct pct filter => do return .image (← Python.resize_pct img pct filter)
  | .edge_detection mode => do return .image (← Python.edge_detection img mode)
  | .with_jpeg_quality q alpha => made (Python.with_jpeg_quality libs img q alpha)
  | .random_noise alpha rng => made (do return (← (img.random_noise g alpha).run rng).1)
  | .salt_n_pepper_noise t rng => made (do return (← (img.salt_n_pepper_noise g t).run rng).1)
  | .rgb_noise t rng => made (do return (← (img.rgb_noise g t).run rng).1)
  | .gaussian_noise alpha rng => made (do return (← (img.gaussian_noise g alpha).run rng).1)
  | .gaussian_blur radius sigma => made (img.gaussian_blur radius sigma)
  | .unsharp radius factor sigma => made (Python.unsharp img radius factor sigma)
  | .drawing radius mode => do return .image (← Python.drawing img radius mode)
  | .interlace offset => made (img.interlace offset)
  | .despeckle threshold amount => made (Python.despeckle img threshold amount)
  | .symmetric_nearest_neighbor radius center =>
    made (Python.symmetric_nearest_neighbor img radius center)
  | .stretch_contrast t => do return .image (← Python.stretch_contrast img t)
  | .optimize_saturation offset mode => do return .image (← Python.optimize_saturation img offset mode)
  | .change_color_temperature orig new tint => do
    return .image (← Python.change_color_temperature D img orig new tint)
  | .optimize_color_temperature factor tint => do
    return .image (← Python.optimize_color_temperature D img factor tint)
  | .optimize_lightness factor => return .image (img.optimize_lightness D factor)
  | .white_balance t => do return .image (← Python.white_balance img t)
  | .balance mode t => do return .image (← Python.balance img mode t)
  | .equalize mode => do return .image (← Python.equalize img mode)
  | .to_np_array colorspace data_type => do
    return .value (.array (← Python.to_np_array D img colorspace data_type))

/-- The methods that take `&self` and another image. -/
inductive Reader2 (F : Type)
  | apply_palette
  | blend (blend_op : Option String) (intensity : Option F)

/-- image.rs:265-267 `apply_palette`, L314-324 `blend`. -/
def Reader2.run (img other : Image F) : Reader2 F → Py (Out F D)
  | .apply_palette => return .image (img.apply_palette other)
  | .blend op intensity => do return .image (← Python.blend img other op intensity)

/-- The methods that take `&mut self`, no image and no Python function. `save` is one of them. -/
inductive Writer (F G : Type)
  | save (fs : FS) (path : String) (format : Option EncodingFormat)
  | put_pixel (x y : Nat) (color : Col F)
  | setitem (key : Nat × Nat) (value : Col F)
  | add_random_noise (alpha : F) (rng : G) | add_salt_n_pepper_noise (threshold : F) (rng : G)
  | add_rgb_noise (threshold : F) (rng : G) | add_gaussian_noise (alpha : F) (rng : G)

/-- image.rs:68-77, 142-144, 217-243, 404-409: the image afterwards. None of these methods has changed
a pixel when it raises or panics. -/
def Writer.run (libs : Libs F) (g : Rng G F) (img : Image F) : Writer F G → Py (Image F)
  | .save fs path format => do
    match ← Py.ofR (Python.save libs fs img path format).2 with
    | .ok () => return img
    | .error e => throw e.display
  | .put_pixel x y color => Py.ofR (img.put_pixel x y color)
  | .setitem key value => Py.ofR (Python.setitem img key value)
  | .add_random_noise alpha rng => Py.ofR (do return (← (img.add_random_noise g alpha).run rng).1)
  | .add_salt_n_pepper_noise t rng =>
    Py.ofR (do return (← (img.add_salt_n_pepper_noise g t).run rng).1)
  | .add_rgb_noise t rng => Py.ofR (do return (← (img.add_rgb_noise g t).run rng).1)
  | .add_gaussian_noise alpha rng => Py.ofR (do return (← (img.add_gaussian_noise g alpha).run rng).1)

end

/-- What a Python program does next. `k` is where it goes on with the outcome of a call, `func` the
Python function given as an argument. -/
inductive Act (F D G E K : Type)
  /-- the function (or the whole thread) ends -/
  | ret (r : Except (Exc E) (Value F D))
  /-- `Image(...)`, `Image.open`, `Image.from_list` and `Image.from_np_array` -/
  | create (c : Creator F D) (k : Except (Exc E) (Value F D) → K)
  | read (self : Ref) (m : Reader F G) (k : Except (Exc E) (Value F D) → K)
  | read2 (self other : Ref) (m : Reader2 F) (k : Except (Exc E) (Value F D) → K)
  | write (self : Ref) (m : Writer F G) (k : Except (Exc E) (Value F D) → K)
  | apply_palette_in_place (self palette : Ref) (k : Except (Exc E) (Value F D) → K)
  | mod_colors (self : Ref) (func : Col F → K) (k : Except (Exc E) (Value F D) → K)
  | mod_colors_enumerated (self : Ref) (func : Int → Int → Col F → K)
      (k : Except (Exc E) (Value F D) → K)
  | map_colors (self : Ref) (func : Col F → K) (k : Except (Exc E) (Value F D) → K)
  | map_colors_enumerated (self : Ref) (func : Int → Int → Col F → K)
      (k : Except (Exc E) (Value F D) → K)
  | compose (images : List Ref) (func : Nat → Nat → List (Col F) → K) (default : Option (Col F))
      (k : Except (Exc E) (Value F D) → K)
  /-- start another thread -/
  | spawn (thread : K) (k : Except (Exc E) (Value F D) → K)

/-- The native methods that call a Python function. -/
inductive Call (F K : Type)
  | mod_colors (self : Ref) (func : Col F → K)
  | mod_colors_enumerated (self : Ref) (func : Int → Int → Col F → K)
  | map_colors (self : Ref) (func : Col F → K)
  | map_colors_enumerated (self : Ref) (func : Int → Int → Col F → K)
  | compose (images : List Ref) (default : Col F) (func : Nat → Nat → List (Col F) → K)

/-- The objects a call has borrowed. -/
def Call.refs {F K : Type} : Call F K → List Ref
  | .mod_colors self _ | .mod_colors_enumerated self _ | .map_colors self _
  | .map_colors_enumerated self _ => [self]
  | .compose images _ _ => images

/-- How it has borrowed them: image.rs:87 and 97 `&mut self`, L110 and 121 `&self`, L300 `borrow()`. -/
def Call.mode {F K : Type} : Call F K → Mode
  | .mod_colors .. | .mod_colors_enumerated .. => .exclusive
  | .map_colors .. | .map_colors_enumerated .. | .compose .. => .shared

/-- The pixel a Python function is asked about: its position and its colour in every image. -/
structure Question (F : Type) where
  x : Nat
  y : Nat
  colours : List (Col F)

/-- A call that waits for its Python function. `answers` are the colours returned so far: for
`map_colors` and `compose` they are the vector being collected (pixelbuffer.rs:85-96, 205-239), for
`mod_colors` only their number is part of the code, the position of the loop (pixelbuffer.rs:162-194).
`asked` and `began` are not in the code: the questions asked so far, including the one that is not
answered yet, each with the program point where the Python function began, and the images as they were
when the call began. -/
structure Frame (F D E K : Type) where
  call : Call F K
  answers : List (Col F)
  asked : List (Question F × K)
  began : List (Image F)
  kont : Except (Exc E) (Value F D) → K

/-- A thread: where its Python code is, and the calls that wait for it. -/
structure Thread (F D E K : Type) where
  code : K
  stack : List (Frame F D E K)

structure State (F D E K : Type) where
  heap : Heap F
  threads : List (Thread F D E K)

section
variable {F D G E K : Type} [Scalar F] [Scalar D] [Widen F D] [FloatBytes F]

/-- The outcome of a native method: its exceptions are `OSError` and `PanicException`. -/
def outcome {α : Type} (x : Py α) : Except (Exc E) α :=
  match x.run with
  | .ok (.ok a) => .ok a
  | .ok (.error message) => .error (.os message)
  | .error p => .error (.panic p)

/-- Turning the result into a Python value; a new image becomes a new object. -/
def deliver (h : Heap F) : Except (Exc E) (Out F D) → Heap F × Except (Exc E) (Value F D)
  | .ok (.value v) => (h, .ok v)
  | .ok (.image img) => (h ++ [⟨img, .shared 0⟩], .ok (.image h.length))
  | .error e => (h, .error e)

/-- A method with `&self`. -/
def doRead (libs : Libs F) (g : Rng G F) (h : Heap F) (self : Ref) (m : Reader F G) :
    Heap F × Except (Exc E) (Value F D) :=
  match h.acquire self .shared with
  | .error e => (h, .error e)
  | .ok h1 =>
    match h1[self]? with
    | some c => deliver (h1.release self .shared) (outcome (m.run libs g c.image))
    | none => (h, .error .type)

/-- A method with `&self` and another image. -/
def doRead2 (h : Heap F) (self other : Ref) (m : Reader2 F) : Heap F × Except (Exc E) (Value F D) :=
  match h.acquire self .shared with
  | .error e => (h, .error e)
  | .ok h1 =>
    match h1.acquire other .shared with
    | .error e => (h1.release self .shared, .error e)
    | .ok h2 =>
      match h2[self]?, h2[other]? with
      | some c, some o =>
        deliver ((h2.release other .shared).release self .shared) (outcome (m.run c.image o.image))
      | _, _ => (h, .error .type)

/-- A method with `&mut self`. -/
def doWrite (libs : Libs F) (g : Rng G F) (h : Heap F) (self : Ref) (m : Writer F G) :
    Heap F × Except (Exc E) (Value F D) :=
  match h.acquire self .exclusive with
  | .error e => (h, .error e)
  | .ok h1 =>
    match h1[self]? with
    | some c =>
      match outcome (m.run libs g c.image) with
      | .ok img => ((h1.write self img).release self .exclusive, .ok .none)
      | .error e => (h1.release self .exclusive, .error e)
    | none => (h, .error .type)

/-- image.rs:269-271 `apply_palette_in_place`. -/
def doApplyPaletteInPlace (h : Heap F) (self palette : Ref) : Heap F × Except (Exc E) (Value F D) :=
  match h.acquire self .exclusive with
  | .error e => (h, .error e)
  | .ok h1 =>
    match h1.acquire palette .shared with
    | .error e => (h1.release self .exclusive, .error e)
    | .ok h2 =>
      match h2[self]?, h2[palette]? with
      | some c, some p =>
        (((h2.write self (c.image.apply_palette_in_place p.image)).release palette .shared).release
          self .exclusive, .ok .none)
      | _, _ => (h, .error .type)

/-- image.rs:300 `r.borrow()` for all images of a list: an image that is being changed panics, and
the borrows so far are given back. -/
def borrowAll (h : Heap F) : List Ref → Except (Exc E) (Heap F)
  | [] => .ok h
  | r :: rs =>
    match h.acquire (E := E) r .shared with
    | .error _ => .error .panicBorrow
    | .ok h => borrowAll h rs

/-- image.rs:295-300: something else than an image in the list raises before anything is borrowed. -/
def acquireAll (h : Heap F) (rs : List Ref) : Except (Exc E) (Heap F) :=
  if rs.all (· < h.length) then borrowAll h rs else .error .type

/-- Giving back all objects of a call. -/
def releaseAll (h : Heap F) (m : Mode) : List Ref → Heap F
  | [] => h
  | r :: rs => releaseAll (h.release r m) m rs

/-- The colours at position `(x, y)` of several images: compose.rs:55-62. -/
def coloursAt (images : List (Image F)) (default : Col F) (x y : Nat) : R (List (Col F)) :=
  images.mapM fun img => do
    match ← img.get_pixel_optional (asI32 x) (asI32 y) with
    | some v => pure v
    | none => pure default

/-- The next question of a call and where the Python function begins to run, or `none` after the last
pixel. pixelbuffer.rs:166-172, 187-193 (with L145-152 `enumerate_mut`), 205-239; for `compose`
pixelbuffer.rs:85-96 and compose.rs:42-66. -/
def Call.next (images : List (Image F)) (position : Nat) : Call F K → R (Option (Question F × K))
  | .mod_colors _ func | .map_colors _ func => do
    let img ← index images 0
    match img.data[position]? with
    | some c => return some (⟨position % img.width, position / img.width, [c]⟩, func c)
    | none => return none
  | .mod_colors_enumerated _ func | .map_colors_enumerated _ func => do
    let img ← index images 0
    match img.buffer.enumerate[position]? with
    | some (x, y, c) => return some (⟨x, y, [c]⟩, func (asI32 x) (asI32 y) c)
    | none => return none
  | .compose _ default func => do
    let width ← maxUnwrap (images.map (·.width))
    let height ← maxUnwrap (images.map (·.height))
    if position < width * height then
      let x := position % width
      let y := position / width
      let colours ← coloursAt images default x y
      return some (⟨x, y, colours⟩, func x y colours)
    else return none

/-- What is checked before the first pixel: compose.rs:51-54 and pixelbuffer.rs:82-83. -/
def Call.check (images : List (Image F)) : Call F K → R Unit
  | .compose .. => do
    assert (!images.isEmpty)
    let width ← maxUnwrap (images.map (·.width))
    let height ← maxUnwrap (images.map (·.height))
    validate_size width height
    let _ ← u32 (width * height)
    return ()
  | _ => return ()

/-- The result after the last pixel: nothing for `mod_colors`, a new image with the meta data of the
first one otherwise (d10/src/image.rs:163-182, 381-388). -/
def Call.result (images : List (Image F)) (answers : List (Col F)) : Call F K → R (Out F D)
  | .mod_colors .. | .mod_colors_enumerated .. => return .value .none
  | .map_colors .. | .map_colors_enumerated .. => do
    let img ← index images 0
    return .image (Image.new_from_buffer_with_meta img
      { width := img.width, height := img.height, data := answers })
  | .compose .. => do
    let width ← maxUnwrap (images.map (·.width))
    let height ← maxUnwrap (images.map (·.height))
    return .image (Image.new_from_buffer_with_meta (← index images 0)
      { width, height, data := answers })

/-- A call returns or raises: its objects are given back, and the thread goes on below it. -/
def finish (h : Heap F) (fr : Frame F D E K) (rest : List (Frame F D E K))
    (r : Except (Exc E) (Out F D)) : Heap F × Thread F D E K :=
  let (h, v) := deliver (releaseAll h fr.call.mode fr.call.refs) r
  (h, ⟨fr.kont v, rest⟩)

/-- The loop of a call goes on to the next pixel. -/
def proceed (h : Heap F) (fr : Frame F D E K) (rest : List (Frame F D E K)) :
    Heap F × Thread F D E K :=
  match fr.call.next (h.images fr.call.refs) fr.answers.length with
  | .error p => finish h fr rest (.error (.panic p))
  | .ok (some (question, code)) =>
    (h, ⟨code, { fr with asked := fr.asked ++ [(question, code)] } :: rest⟩)
  | .ok none =>
    match fr.call.result (h.images fr.call.refs) fr.answers with
    | .ok out => finish h fr rest (.ok out)
    | .error p => finish h fr rest (.error (.panic p))

/-- A call begins: it borrows its objects and asks about the first pixel. -/
def start (h : Heap F) (call : Call F K) (rest : List (Frame F D E K))
    (k : Except (Exc E) (Value F D) → K) : Heap F × Thread F D E K :=
  match (match call with
    | .compose images _ _ => acquireAll h images
    | .mod_colors self _ | .mod_colors_enumerated self _ => h.acquire self .exclusive
    | .map_colors self _ | .map_colors_enumerated self _ => h.acquire self .shared) with
  | .error e => (h, ⟨k (.error e), rest⟩)
  | .ok h =>
    let fr := { call, answers := [], asked := [], began := h.images call.refs, kont := k }
    match call.check (h.images call.refs) with
    | .error p => finish h fr rest (.error (.panic p))
    | .ok () => proceed h fr rest

/-- A Python function ends: image.rs:88-95, 98-108, 111-119, 122-132, 304-311. An exception ends the
call as well (`?`), and so does a result that is not a colour. `mod_colors` writes the pixel before it
goes on (pixelbuffer.rs:169 and 190). -/
def answer (h : Heap F) (fr : Frame F D E K) (rest : List (Frame F D E K)) :
    Except (Exc E) (Value F D) → Heap F × Thread F D E K
  | .error e => finish h fr rest (.error e)
  | .ok (.colour c) =>
    let h := match fr.call with
      | .mod_colors self _ | .mod_colors_enumerated self _ =>
        match h[self]? with
        | some cell => h.write self { cell.image with
            buffer := { cell.image.buffer with data := cell.image.data.set fr.answers.length c } }
        | none => h
      | _ => h
    proceed h { fr with answers := fr.answers ++ [c] } rest
  | .ok _ => finish h fr rest (.error .type)

/-- One step of a thread: the objects afterwards, the thread afterwards, and new threads. -/
def Thread.step (libs : Libs F) (g : Rng G F) (act : K → Act F D G E K) (h : Heap F)
    (t : Thread F D E K) : Heap F × Thread F D E K × List (Thread F D E K) :=
  match act t.code with
  | .ret r =>
    match t.stack with
    | [] => (h, t, [])
    | fr :: rest => let (h, t) := answer h fr rest r; (h, t, [])
  | .create c k =>
    let (h, v) := deliver h (outcome (do return .image (← c.run libs))); (h, { t with code := k v }, [])
  | .read self m k => let (h, v) := doRead libs g h self m; (h, { t with code := k v }, [])
  | .read2 self other m k => let (h, v) := doRead2 h self other m; (h, { t with code := k v }, [])
  | .write self m k => let (h, v) := doWrite libs g h self m; (h, { t with code := k v }, [])
  | .apply_palette_in_place self palette k =>
    let (h, v) := doApplyPaletteInPlace h self palette; (h, { t with code := k v }, [])
  | .mod_colors self func k => let (h, t) := start h (.mod_colors self func) t.stack k; (h, t, [])
  | .mod_colors_enumerated self func k =>
    let (h, t) := start h (.mod_colors_enumerated self func) t.stack k; (h, t, [])
  | .map_colors self func k => let (h, t) := start h (.map_colors self func) t.stack k; (h, t, [])
  | .map_colors_enumerated self func k =>
    let (h, t) := start h (.map_colors_enumerated self func) t.stack k; (h, t, [])
  | .compose images func default k =>
    let (h, t) := start h (.compose images (default.getD Rgb.NONE) func) t.stack k; (h, t, [])
  | .spawn thread k => (h, { t with code := k (.ok .none) }, [⟨thread, []⟩])

/-- The thread with number `t` takes a step. -/
def State.step (libs : Libs F) (g : Rng G F) (act : K → Act F D G E K) (s : State F D E K) (t : Nat) :
    State F D E K :=
  match s.threads[t]? with
  | none => s
  | some thread =>
    let (heap, thread, new) := thread.step libs g act s.heap
    { heap, threads := s.threads.set t thread ++ new }

/-- A program begins with one thread and no objects. -/
def State.initial (main : K) : State F D E K := ⟨[], [⟨main, []⟩]⟩

/-- The state after the threads of a schedule have taken their steps. -/
def State.run (libs : Libs F) (g : Rng G F) (act : K → Act F D G E K) (s : State F D E K)
    (schedule : List Nat) : State F D E K :=
  schedule.foldl (State.step libs g act) s

end
end D10.Python
