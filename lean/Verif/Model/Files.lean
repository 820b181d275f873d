import Verif.Model.Codecs

/-!
# Paths and files

d10-codecs/src/lib.rs: the functions that look at a path or touch a file.

Paths are Unix paths in valid UTF-8 (`to_string_lossy` is then the identity).
-/

namespace D10

/-- `Path::file_name` (std): the last component, unless it is `..`; empty components and `.` are
skipped (a leading `.` is a component, but not a name). -/
def fileName (path : String) : Option (List Char) :=
  match ((path.toList.splitOn '/').filter fun c => c ≠ [] ∧ c ≠ ['.']).getLast? with
  | none => none
  | some name => if name = ['.', '.'] then none else some name

/-- `Path::extension` (std): the part of the file name after the last dot, if there is a dot that is
not the first character. -/
def pathExtension (path : String) : Option String :=
  match fileName path with
  | none => none
  | some name =>
    let after := (name.reverse.takeWhile (· ≠ '.')).reverse
    let before := name.take (name.length - after.length - 1)
    if '.' ∈ name ∧ before ≠ [] then some (String.ofList after) else none

/-- `str::to_ascii_lowercase` -/
def asciiLower (s : String) : String := String.ofList (s.toList.map Char.toLower)

/-- lib.rs:41-53 `Format::from_path`. -/
def Format.from_path (path : String) : Option Format :=
  match pathExtension path with
  | none => none
  | some ext => match asciiLower ext with
    | "jpg" | "jpeg" => some .Jpeg
    | "png" => some .Png
    | "gif" => some .Gif
    | "bmp" => some .Bmp
    | "ico" => some .Ico
    | "webp" => some .WebP
    | _ => none

/-- lib.rs:180-192 `EncodingFormat::from_path`. -/
def EncodingFormat.from_path (path : String) : Except EncodingError EncodingFormat :=
  match Format.from_path path with
  | some .Jpeg => .ok EncodingFormat.jpeg_default
  | some .Png => .ok EncodingFormat.png_default
  | some .Gif => .ok EncodingFormat.gif_default
  | some .Bmp => .ok EncodingFormat.bmp_default
  | some .Ico => .ok EncodingFormat.ico_default
  | some .WebP => .ok EncodingFormat.webp_default
  | none => .error (.BadFileExtension path)

/-- A file system. Several paths may lead to the same file (`node`). `readErr` and `writeErr` are the
errors of `File::open` and `File::create`. `settle n bytes` is what a file holds after `bytes` were
given to a `BufWriter` on it that was then dropped: dropping ignores errors (std documentation), so
this may be only a part. -/
structure FS where
  node : String → Nat
  content : Nat → Option (List Nat)
  readErr : Nat → Option String
  writeErr : Nat → Option String
  settle : Nat → List Nat → List Nat

/-- `File::open` and reading all of it; reading does not fail once the file is open. -/
def FS.read (fs : FS) (path : String) : Except String (List Nat) :=
  match fs.readErr (fs.node path), fs.content (fs.node path) with
  | some e, _ => .error e
  | none, none => .error "No such file or directory"
  | none, some data => .ok data

/-- The file system with another content of one file. -/
def FS.store (fs : FS) (path : String) (data : List Nat) : FS :=
  { fs with content := fun n => if n = fs.node path then some data else fs.content n }

variable {F : Type} [Scalar F]

/-- lib.rs:199-213 `decode_file`. -/
def decode_file (libs : Libs F) (fs : FS) (path : String) : Dec (PixelBuffer (Col F)) :=
  match fs.read path with
  | .error e => throw (.IoError e)
  | .ok data => match Format.from_reader data with
    | .ok format => decode libs data format
    | .error _ => match Format.from_path path with
      | some format => decode libs data format
      | none => throw .UnknownFormat

/-- lib.rs:236-252 `encode_to_file`: the file system afterwards, and the result or the panic. -/
def encode_to_file [FloatBytes F] (libs : Libs F) (fs : FS) (path : String)
    (buffer : PixelBuffer (Col F)) (format : Option EncodingFormat) :
    FS × R (Except EncodingError Unit) :=
  match (match format with | some f => Except.ok f | none => EncodingFormat.from_path path) with
  | .error e => (fs, .ok (.error e))
  | .ok format => match fs.writeErr (fs.node path) with
    | some e => (fs, .ok (.error (.IoError e)))
    | none => -- `File::create` leaves an empty file
      match encode libs buffer format with
      | .error p => (fs.store path [], .error p)
      | .ok w => (fs.store path (fs.settle (fs.node path) w.bytes), .ok w.result)

end D10
