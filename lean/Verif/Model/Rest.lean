import Verif.Model.Commands

/-!
# References into a picture, constants, sources of errors

`&mut T` into the data of a buffer is the place it points to: it can be read and written as long as the
buffer is borrowed, in any order.
-/

namespace D10
variable {T : Type}

/-- A `&mut T` into `data`. -/
structure Slot where
  index : Nat

/-- `*r` -/
def Slot.get (r : Slot) (b : PixelBuffer T) : Option T := b.data[r.index]?

/-- `*r = v` -/
def Slot.set (r : Slot) (b : PixelBuffer T) (v : T) : PixelBuffer T := { b with data := b.data.set r.index v }

namespace PixelBuffer

/-- pixelbuffer.rs:132-134 `data_mut`: a slice, that is, one place per pixel. -/
def data_mut (b : PixelBuffer T) : List Slot := (List.range b.data.length).map Slot.mk

/-- pixelbuffer.rs:145-152 `enumerate_mut`. -/
def enumerate_mut (b : PixelBuffer T) : List (Nat × Nat × Slot) :=
  (b.data_mut.zipIdx).map fun (v, i) => (i % 4294967296 % b.width, i % 4294967296 / b.width, v)

/-- pixelbuffer.rs:177-179, the body of the loop: the pixel is read, then overwritten. -/
def visit (func : Nat → Nat → T → R T) (b : PixelBuffer T) : Nat × Nat × Slot → R (PixelBuffer T)
  | (x, y, pixel) => match pixel.get b with
    | none => .error .index
    | some v => do return pixel.set b (← func x y v)

/-- pixelbuffer.rs:175-181 `mod_colors_enumerated` as it is written: a loop over `enumerate_mut`. (The
definition in Model/PixelBuffer builds the new data from the old.) -/
def mod_colors_enumerated_loop (b : PixelBuffer T) (func : Nat → Nat → T → R T) : R (PixelBuffer T) :=
  b.enumerate_mut.foldlM (visit func) b

end PixelBuffer

open Scalar (lit)
variable {F : Type} [Scalar F]

/-- image.rs:120-122 `Image::data_mut`: writing through one of its places. -/
def Image.write_data (img : Image F) (r : Slot) (v : Col F) : Image F := { img with buffer := r.set img.buffer v }

/-- rgb.rs L346-348 -/
def Rgb.RED : Col F := ⟨lit 1, lit 0, lit 0, lit 1⟩
/-- rgb.rs L349-351 -/
def Rgb.GREEN : Col F := ⟨lit 0, lit 1, lit 0, lit 1⟩
/-- rgb.rs L352-354 -/
def Rgb.BLUE : Col F := ⟨lit 0, lit 0, lit 1, lit 1⟩
/-- rgb.rs L355-357 -/
def Rgb.CYAN : Col F := ⟨lit 0, lit 1, lit 1, lit 1⟩
/-- rgb.rs L358-360 -/
def Rgb.MAGENTA : Col F := ⟨lit 1, lit 0, lit 1, lit 1⟩
/-- rgb.rs L361-363 -/
def Rgb.YELLOW : Col F := ⟨lit 1, lit 1, lit 0, lit 1⟩

/-- d10-commands/src/errors.rs:24-32 `CommandError::source`: the error behind it. -/
def CommandError.source : CommandError → Option (DecodingError ⊕ EncodingError)
  | .Decoding err => some (.inl err)
  | .Encoding err => some (.inr err)
  | _ => none

/-- d10-commands/src/errors.rs:34-38 `From<DecodingError>`. -/
def CommandError.from_decoding (err : DecodingError) : CommandError := .Decoding err

/-- d10-commands/src/errors.rs:40-44 `From<EncodingError>`. -/
def CommandError.from_encoding (err : EncodingError) : CommandError := .Encoding err

end D10
