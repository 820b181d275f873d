import Verif.Model.LibErrors
import Verif.Model.Commands
import Verif.SpecCodecs

/-! # What happens to an error of a format library: specification -/

namespace D10.Spec

open D10

/-- The calls that write, one after the other: bytes of all calls made, in order. The first call that fails is
the last one made, and its error is the result: an I/O error stays that I/O error, any other becomes an
encoding error with the library's text. -/
inductive Performed : List RawWritten → Written → Prop
  | done : Performed [] ⟨[], .ok ()⟩
  | step {w : RawWritten} {ws : List RawWritten} {v : Written} (ok : w.result = .ok ()) (rest : Performed ws v) :
      Performed (w :: ws) ⟨w.bytes ++ v.bytes, v.result⟩
  | io {w : RawWritten} {ws : List RawWritten} {s : String} (fail : w.result = .error (.Io s)) :
      Performed (w :: ws) ⟨w.bytes, .error (.IoError s)⟩
  | other {w : RawWritten} {ws : List RawWritten} {s : String} (fail : w.result = .error (.Other s)) :
      Performed (w :: ws) ⟨w.bytes, .error (.Encoding s)⟩

/-- The first of two calls that read fails, or it succeeds and the second fails. -/
def EitherFails {α β : Type} (a : Except LibError α) (b : Except LibError β) (e : LibError) : Prop :=
  a = .error e ∨ (∃ x, a = .ok x) ∧ b = .error e

/-- A library call made while reading fails with the error `e`. For PNG the pixels are only asked for if the size
is one a buffer can have and the kind of samples is one of the eight that are supported; the buffer for them is as
long as the image. WebP reads its data without a library. -/
def ReadFails {F : Type} (r : RawLibs F) (input : List Nat) (e : LibError) : Format → Prop
  | .Png => r.png_read_info input = .error e ∨
      ∃ rd ct, r.png_read_info input = .ok rd ∧ ValidSize rd.width rd.height ∧
        rd.color_type = pngColor ct ∧ rd.bits = pngDepth ct ∧
        rd.next_frame (rd.width * rd.height * (channels ct * sampleSize ct)) = .error e
  | .Jpeg => r.jpeg_decode input = .error e
  | .Gif => EitherFails (r.gif_read_info input) (r.gif_read_next_frame input) e
  | .Bmp => EitherFails (r.bmp_decoder_new input) (r.bmp_from_decoder input) e
  | .Ico => EitherFails (r.ico_decoder_new input) (r.ico_from_decoder input) e
  | .WebP => False

/-- The text of a library's error: that of the I/O error in it, or its own. -/
def libText : LibError → String
  | .Io s => s
  | .Other s => s

end D10.Spec
