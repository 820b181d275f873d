import Verif.SpecFiles

/-! # Specification of the panics of the command line (C106) -/

namespace D10.Spec

/-- The file `path` is read as a JPEG file, because its content begins like one or because nothing
but its name says what it is, and the picture in it has a size that no buffer can have. -/
def HugeJpeg {F : Type} (libs : Libs F) (fs : FS) (path : String) : Prop :=
  ∃ bytes, fs.readErr (fs.node path) = none ∧ fs.content (fs.node path) = some bytes ∧
    (Magic .Jpeg bytes ∨ (∀ f, ¬ Magic f bytes) ∧ Named path .Jpeg) ∧
    ∃ data info, libs.jpeg_read bytes = .ok data ∧ libs.jpeg_info bytes = some info ∧
      ¬ ValidSize info.width info.height

end D10.Spec
