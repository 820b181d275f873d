import Verif.SpecObjects
import Verif.SpecPanic
import Verif.SpecPython
import Verif.SpecImage
import Verif.SpecOptions

/-! # Specification of the panics of the methods of Python images (C121)

Which calls of the methods end in a panic (a `PanicException` in Python), method by method. -/

namespace D10.Spec
open Python

section
variable {F D G : Type} [Scalar F] [Scalar D] [Widen F D]

/-- The optional name is left out or one of those in the table. (Any other name raises an ordinary
exception before anything is computed.) -/
def Known {α : Type} (table : List (String × α)) (name : Option String) : Prop :=
  ∀ n, name = some n → n ∈ table.map (·.1)

/-- The image can be written as a JPEG file with this quality and read back. -/
def JpegWorks [FloatBytes F] (libs : Libs F) (img : Image F) (quality : Nat) : Prop :=
  ∃ bytes out, encode libs img.buffer (.jpeg_with_quality quality) = .ok ⟨bytes, .ok ()⟩ ∧
    (decode_buffer libs bytes).run = .ok (.ok out)

/-- The calls with which a method that reads an image panics. All others return a result or raise an
ordinary exception. -/
def Panics [FloatBytes F] (libs : Libs F) (img : Image F) : Reader F G → Prop
  /- there is no nearest pixel -/
  | .get_pixel_clamped _ _ => img.width = 0
  /- an impossible size, or pixels out of nothing -/
  | .resize w h filter => Known filterModes filter ∧ (¬ ValidSize w h ∨ img.width = 0 ∧ 0 < w)
  | .resize_pct p filter => Known filterModes filter ∧
    (img.width = 0 ∨ ¬ ValidSize (percentOf p img.width) (percentOf p img.height))
  | .with_jpeg_quality quality _ => ¬ JpegWorks libs img quality
  /- the number of weights does not fit 32 bits -/
  | .gaussian_blur radius _ => 32767 < radius
  | .unsharp radius _ _ => 32767 < radius
  | .drawing radius mode => Known drawingModes mode ∧ 32767 < radius
  | _ => False

/-- Sizes and distances in the range of what is proved: sides of at most 2^27 for the filter `auto`,
distances below 2^30 otherwise. -/
def Moderate (img : Image F) : Reader F G → Prop
  | .resize _ _ filter => filter = some "auto" ∨ filter = some "default" →
    img.width ≤ 134217728 ∧ img.height ≤ 134217728
  | .resize_pct _ filter => filter = some "auto" ∨ filter = some "default" →
    img.width ≤ 134217728 ∧ img.height ≤ 134217728
  | .interlace offset => offset < 1073741824
  | .symmetric_nearest_neighbor radius _ => ∀ r, radius = some r → r < 1073741824
  | _ => True

/-- The same for the methods with another image: the picture that covers both must be possible. -/
def Panics2 (img other : Image F) : Reader2 F → Prop
  | .apply_palette => False
  | .blend op _ => Known blendOps op ∧
    ¬ ValidSize (max img.width other.width) (max img.height other.height)

/-- The same for the methods that change the image: only pixels of the image can be set. -/
def PanicsW (img : Image F) : Writer F G → Prop
  | .put_pixel x y _ => ¬ (x < img.width ∧ y < img.height)
  | .setitem key _ => ¬ (key.1 < img.width ∧ key.2 < img.height)
  | _ => False

/-- An array that can be taken as colours: its dimensions and the name of a colour space. -/
inductive AsColours : List Nat → String → (height width : Nat) → Prop
  | gray2 (h w name) (hn : name = "gray" ∨ name = "auto") : AsColours [h, w] name h w
  | gray3 (h w name) (hn : name = "gray" ∨ name = "auto") : AsColours [h, w, 1] name h w
  | three (h w name) (hn : name = "auto" ∨ name ∈ colourModels.map (·.1)) : AsColours [h, w, 3] name h w
  | four (h w name) (hn : name = "auto" ∨ ∃ p ∈ colourModels, name = p.1 ∨ name = p.1 ++ "a") :
    AsColours [h, w, 4] name h w

/-- Arrays have as many elements as their shape says; sides fit 32 bits. -/
def ProperArray (a : NpArray F D) : Prop :=
  (∀ l, ElementValues a.data l → l.length = a.dims.prod) ∧ ∀ d ∈ a.dims, d < 2 ^ 32

/-- The same for what makes an image: impossible sizes, a list of another length, a file with a JPEG
picture of an impossible size, and arrays with fewer than two dimensions or an impossible size. -/
def PanicsC (libs : Libs F) : Creator F D → Prop
  | .new w h _ => ¬ ValidSize w h
  | .from_list w h list => ¬ (ValidSize w h ∧ list.length = w * h)
  | .open fs path => HugeJpeg libs fs path
  | .from_np_array a colorspace => (∃ l, ElementValues a.data l) ∧ (a.dims.length < 2 ∨
    ∃ h w, AsColours a.dims (colorspace.getD "auto") h w ∧ ¬ ValidSize w h)

/-- Arrays as NumPy makes them. -/
def Proper : Creator F D → Prop
  | .from_np_array a _ => ProperArray a
  | _ => True

/-- A call that panics. -/
def panics {α : Type} (x : Py α) : Prop := ∃ p, x.run = .error p

end

/-- Thread `t` has gone on at `k` with the outcome of a call, which is a panic exactly if `P`. -/
def GoesOn {F D E K : Type} (s : Python.State F D E K) (t : Nat) (k : Except (Exc E) (Value F D) → K)
    (P : Prop) : Prop :=
  ∃ r th, s.threads[t]? = some th ∧ th.code = k r ∧ ((∃ p, r = .error (.panic p)) ↔ P)

end D10.Spec
