import Verif.Spec
import Verif.SpecPixel
import Verif.Model.Color

/-!
# Specification of what matters of a palette (C143)
-/

namespace D10.Spec
variable {F : Type} [Scalar F]

/-- How far the pixel `c` is from the palette entry `p` of the colour type `space`. -/
def away (space : Space) (c p : Col F) : F := distance (to_lab .D65 .O2 .rgb c) (to_lab .D65 .O2 space p)

/-- No two different entries are equally far from the pixel `c`, except that an entry may have no distance at all. -/
def NoTies (space : Space) (palette : List (Col F)) (c : Col F) : Prop :=
  ∀ p ∈ palette, ∀ q ∈ palette, p = q ∨ Scalar.isNan (away space c p) = true ∨ Scalar.isNan (away space c q) = true ∨
    (away space c p <. away space c q) = true ∨ (away space c q <. away space c p) = true

end D10.Spec
