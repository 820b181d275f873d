import Verif.Model.Files
import Verif.SpecCodecs

/-!
# Specification of formats and files (C54 - C57)

Magic numbers, file names and extensions, and what a file system may do.
-/

namespace D10.Spec

/-- The bytes with which the files of a format begin. -/
def Magic : Format → List Nat → Prop
  | .Jpeg, d => [0xFF, 0xD8, 0xFF] <+: d
  | .Png, d => [0x89, 0x50, 0x4E, 0x47, 0x0D, 0x0A, 0x1A, 0x0A] <+: d
  | .Gif, d => "GIF87a".toList.map Char.toNat <+: d ∨ "GIF89a".toList.map Char.toNat <+: d
  | .Bmp, d => "BM".toList.map Char.toNat <+: d
  | .Ico, d => [0, 0, 1, 0] <+: d
  | .WebP, d => ∃ size : List Nat, size.length = 4 ∧
      "RIFF".toList.map Char.toNat ++ size ++ "WEBP".toList.map Char.toNat <+: d

/-- What may follow the last name in a path: slashes and `.` components. -/
inductive Tail : List Char → Prop
  | nil : Tail []
  | slash {t} : Tail t → Tail ('/' :: t)
  | dot {t} : Tail t → Tail ('/' :: '.' :: t)

/-- `name` is the last name in `path`. -/
def LastName (path name : List Char) : Prop :=
  ∃ dir tail, path = dir ++ name ++ tail ∧ (dir = [] ∨ dir.getLast? = some '/') ∧
    '/' ∉ name ∧ name ≠ [] ∧ name ≠ ['.'] ∧ Tail tail

/-- The extensions of the formats, in lower case. -/
def extensions : Format → List String
  | .Jpeg => ["jpg", "jpeg"]
  | .Png => ["png"]
  | .Gif => ["gif"]
  | .Bmp => ["bmp"]
  | .Ico => ["ico"]
  | .WebP => ["webp"]

/-- The last name in `path` is `stem.ext`, and `ext` in lower case is an extension of the format. -/
def Named (path : String) (f : Format) : Prop :=
  ∃ stem ext, LastName path.toList (stem ++ '.' :: ext) ∧ stem ≠ [] ∧ '.' ∉ ext ∧
    String.ofList (ext.map Char.toLower) ∈ extensions f

/-- How a file is saved if only its name says how. -/
def usual : Format → EncodingFormat
  | .Jpeg => .Jpeg 85 false none false true
  | .Png => .Png .Rgba8 .Default .Sub
  | .Gif => .Gif
  | .Bmp => .Bmp .Rgba8
  | .Ico => .Ico .Rgba8
  | .WebP => .WebP 90 .Default

/-- A file never gets other bytes than those that were written to it, although it may get only the
first of them. -/
def Plausible (fs : FS) : Prop := ∀ n bytes, fs.settle n bytes <+: bytes

/-- The disk keeps all that is written to a file. -/
def Reliable (fs : FS) : Prop :=
  (∀ n bytes, fs.settle n bytes = bytes) ∧ (∀ n, fs.readErr n = none) ∧ ∀ n, fs.writeErr n = none

/-- A PNG library that reads what it wrote: files of pictures with at least one pixel and data of the
right length begin with the PNG magic number and are read with the same size, kind and data. -/
def Lossless {F : Type} (libs : Libs F) : Prop :=
  ∀ (w h : Nat) (ct : PngColorType) (cmp : PngCompression) (flt : PngFilterType) (data : List Nat),
    0 < w → 0 < h → data.length = w * h * (channels ct * sampleSize ct) →
    ∃ bytes rd, libs.png_write ⟨w, h, pngColor ct, pngDepth ct, cmp, flt, data⟩ = ⟨bytes, .ok ()⟩ ∧
      Magic .Png bytes ∧ libs.png_read bytes = .ok rd ∧ rd.width = w ∧ rd.height = h ∧
      rd.color_type = pngColor ct ∧ rd.bits = pngDepth ct ∧
      rd.next_frame data.length = .ok ⟨data, rfl⟩

/-- A BMP or ICO library that reads what it wrote: files of pictures with at least one pixel, sides up to
`limit` and four bytes per pixel are recognised and read with the same size and bytes. -/
def ReadsBack {F : Type} (write : ImageImage → Written)
    (read : List Nat → Except DecodingError (DynamicImage F)) (f : Format) (limit : Nat) : Prop :=
  ∀ (w h : Nat) (data : List Nat), 0 < w → 0 < h → w ≤ limit → h ≤ limit → data.length = w * h * 4 →
    ∃ bytes l, write ⟨data, w, h, .Rgba8⟩ = ⟨bytes, .ok ()⟩ ∧ Magic f bytes ∧
      read bytes = .ok ⟨w, h, .Rgba8 l⟩ ∧ l.length = w * h ∧
      ∀ i, i < w * h → l[i]? = some (data.getD (i * 4) 0, data.getD (i * 4 + 1) 0,
        data.getD (i * 4 + 2) 0, data.getD (i * 4 + 3) 0)

/-- A WebP library whose lossless mode reads what it wrote: pictures with at least one pixel and sides
up to 16383 are recognised and read with the same size and alpha, and the same colour wherever alpha is
not 0. -/
def LosslessWebP {F : Type} (libs : Libs F) : Prop :=
  ∀ (w h : Nat) (argb : List Nat), 0 < w → 0 < h → w ≤ 16383 → h ≤ 16383 → argb.length = w * h →
    ∃ bytes img, libs.webp_write ⟨none, w, h, argb⟩ = .ok (bytes, none, true) ∧ Magic .WebP bytes ∧
      libs.webp_info bytes = true ∧ libs.webp_read bytes = some img ∧ img.width = w ∧ img.height = h ∧
      ∀ i v, argb[i]? = some v →
        img.data.1.getD (i * 4 + 3) 0 = v / 2 ^ 24 ∧
        (v / 2 ^ 24 ≠ 0 → img.data.1.getD (i * 4) 0 = v / 2 ^ 16 % 256 ∧
          img.data.1.getD (i * 4 + 1) 0 = v / 2 ^ 8 % 256 ∧ img.data.1.getD (i * 4 + 2) 0 = v % 256)

end D10.Spec
