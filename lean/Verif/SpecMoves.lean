import Verif.Model.Geometry
import Verif.Model.Color

/-!
# Exchanging an operation with flips and quarter turns
-/

namespace D10.Spec

variable {F : Type} [Scalar F]

/-- Doing `op` to the mirrored or turned image `b` gives the same as mirroring or turning the result
of `op`: the operation treats all directions alike. -/
def NoDirection (op : PixelBuffer (Col F) → R (PixelBuffer (Col F))) (b : PixelBuffer (Col F)) : Prop :=
  ∀ move ∈ [flip_horizontal Rgb.NONE, flip_vertical Rgb.NONE, rotate90 Rgb.NONE, rotate180 Rgb.NONE,
    rotate270 Rgb.NONE], (move b >>= op) = (op b >>= move)

end D10.Spec
