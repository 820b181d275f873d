import Verif.Model.Codecs

/-!
# The errors of the format libraries

Model/Codecs takes the result of a library as it is after this crate has translated its error. Here the
libraries have their own error type, and each of the calls the crate makes is visible.
-/

namespace D10

/-- The error types of the crates `png` (`DecodingError`, `EncodingError`), `gif`, `jpeg_decoder`,
`jpeg_encoder` and `image` (`ImageError`), as far as this crate looks at them: the variant that holds an I/O
error, and the text (`to_string`) of the others. -/
inductive LibError
  | Io (err : String)
  | Other (text : String)

/-- png.rs:169-174 and gif.rs:50-55 `decode_error`; the closures in jpeg.rs:178-181, bmp.rs:68-71 and 73-76,
ico.rs:68-71 and 73-76. -/
def decode_error : LibError → DecodingError
  | .Io err => .IoError err
  | .Other text => .Decoding text

/-- png.rs:116-121 and gif.rs:14-19 `encode_error`; the matches in jpeg.rs:163-166, bmp.rs:55-58 and
ico.rs:55-58. -/
def encode_error : LibError → EncodingError
  | .Io err => .IoError err
  | .Other text => .Encoding text

/-- What a call of a library did that writes: the bytes, and its own result. -/
structure RawWritten where
  bytes : List Nat
  result : Except LibError Unit

/-- One call, its error translated. -/
def RawWritten.once (w : RawWritten) : Written := ⟨w.bytes, w.result.mapError encode_error⟩

/-- Two calls one after the other, each with `map_err(encode_error)?`: png.rs:164-165, gif.rs:43-45. -/
def RawWritten.twice (first second : RawWritten) : Written :=
  match first.result with
  | .error e => ⟨first.bytes, .error (encode_error e)⟩
  | .ok () => ⟨first.bytes ++ second.bytes, second.result.mapError encode_error⟩

/-- `png::Reader`; see `PngReader`. -/
structure RawPngReader where
  color_type : PngColor
  bits : BitDepth
  width : Nat
  height : Nat
  next_frame : (n : Nat) → Except LibError { l : List Nat // l.length = n }

/-- The calls of the libraries. The pairs of calls are those of the code: a second one is made with what the
first one gave (here: with the same input). -/
structure RawLibs (F : Type) where
  /-- `read_info`, png.rs:183 -/
  png_read_info : List Nat → Except LibError RawPngReader
  /-- `write_header`, png.rs:164 -/
  png_write_header : PngImage → RawWritten
  /-- `write_image_data`, png.rs:165, and what the writer adds when it is dropped -/
  png_write_image_data : PngImage → RawWritten
  /-- `decode`, jpeg.rs:178 -/
  jpeg_decode : List Nat → Except LibError (List Nat)
  jpeg_info : List Nat → Option JpegInfo
  /-- `encode`, jpeg.rs:162 -/
  jpeg_encode : JpegImage → RawWritten
  /-- `read_info`, gif.rs:65 -/
  gif_read_info : List Nat → Except LibError Unit
  /-- `read_next_frame`, gif.rs:67 -/
  gif_read_next_frame : List Nat → Except LibError (Option GifFrame)
  /-- `Encoder::new`, gif.rs:43 -/
  gif_encoder_new : GifImage → RawWritten
  /-- `write_frame`, gif.rs:45 -/
  gif_write_frame : GifImage → RawWritten
  /-- `BmpDecoder::new`, bmp.rs:68 -/
  bmp_decoder_new : List Nat → Except LibError Unit
  /-- `DynamicImage::from_decoder`, bmp.rs:73 -/
  bmp_from_decoder : List Nat → Except LibError (DynamicImage F)
  /-- bmp.rs:52-53 -/
  bmp_encode : ImageImage → RawWritten
  /-- `IcoDecoder::new`, ico.rs:68 -/
  ico_decoder_new : List Nat → Except LibError Unit
  /-- `DynamicImage::from_decoder`, ico.rs:73 -/
  ico_from_decoder : List Nat → Except LibError (DynamicImage F)
  /-- ico.rs:52-53 -/
  ico_write_image : ImageImage → RawWritten
  webp_info : List Nat → Bool
  webp_read : List Nat → Option WebPDecoded
  webp_write : WebPImage → Except Bool (List Nat × Option String × Bool)
  little : Bool

/-- The two calls of bmp.rs:68-76 and ico.rs:68-76, and of gif.rs:65-67. -/
def twoReads {α : Type} (first : Except LibError Unit) (second : Except LibError α) : Except DecodingError α := do
  let _ ← first.mapError decode_error
  second.mapError decode_error

/-- The libraries as Model/Codecs sees them. -/
def RawLibs.libs {F : Type} (r : RawLibs F) : Libs F where
  png_read input := match r.png_read_info input with
    | .error e => .error (decode_error e)
    | .ok p => .ok ⟨p.color_type, p.bits, p.width, p.height, fun n => (p.next_frame n).mapError decode_error⟩
  png_write img := (r.png_write_header img).twice (r.png_write_image_data img)
  jpeg_read input := (r.jpeg_decode input).mapError decode_error
  jpeg_info := r.jpeg_info
  jpeg_write img := (r.jpeg_encode img).once
  gif_read input := twoReads (r.gif_read_info input) (r.gif_read_next_frame input)
  gif_write img := (r.gif_encoder_new img).twice (r.gif_write_frame img)
  bmp_read input := twoReads (r.bmp_decoder_new input) (r.bmp_from_decoder input)
  bmp_write img := (r.bmp_encode img).once
  ico_read input := twoReads (r.ico_decoder_new input) (r.ico_from_decoder input)
  ico_write img := (r.ico_write_image img).once
  webp_info := r.webp_info
  webp_read := r.webp_read
  webp_write := r.webp_write
  little := r.little

end D10
