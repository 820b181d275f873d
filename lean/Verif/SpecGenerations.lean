import Verif.Model.Files
import Verif.SpecCodecs

/-! # Specification of opening and saving a file again and again (C125) -/

namespace D10.Spec

variable {F : Type} [Scalar F] [FloatBytes F]

/-- The file at `path` is opened and the picture is saved there again as PNG of kind `ct`: the file system afterwards,
`none` if opening or saving fails or panics. -/
def resave (libs : Libs F) (path : String) (ct : PngColorType) (cmp : PngCompression) (flt : PngFilterType) (fs : FS) :
    Option FS :=
  match (decode_file libs fs path).run with
  | .ok (.ok b) => match encode_to_file libs fs path b (some (.Png ct cmp flt)) with
    | (fs', .ok (.ok ())) => some fs'
    | _ => none
  | _ => none

/-- The same `n` times. -/
def generations (libs : Libs F) (path : String) (ct : PngColorType) (cmp : PngCompression) (flt : PngFilterType) :
    Nat → FS → Option FS
  | 0, fs => some fs
  | n + 1, fs => (resave libs path ct cmp flt fs).bind (generations libs path ct cmp flt n)

/-- Sample `k` of a pixel of kind `ct` is its alpha. -/
def isAlpha : PngColorType → Nat → Bool
  | .La8, 1 | .La16, 1 | .Rgba8, 3 | .Rgba16, 3 => true
  | _, _ => false

/-- What became of sample `before` after `n` generations with 8 bits: alpha is what it was, the other samples are at most `n`
lower and not higher. -/
def Faded (n : Nat) (alpha : Bool) (before after : Nat) : Prop :=
  if alpha then after = before else after ≤ before ∧ before ≤ after + n

/-- The same with 16 bits: alpha is what it was, the other samples are at most `2 * n` lower and at most `n` higher. -/
def Drifted (n : Nat) (alpha : Bool) (before after : Nat) : Prop :=
  if alpha then after = before else after ≤ before + n ∧ before ≤ after + 2 * n

/-- The 16-bit sample `k` in a list of bytes, high byte first. -/
def sampleWord (d : List Nat) (k : Nat) : Nat := d.getD (2 * k) 0 * 256 + d.getD (2 * k + 1) 0

end D10.Spec
