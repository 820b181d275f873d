import Verif.Model.Geometry
import Verif.Spec

/-!
# Operations that look only at the neighbourhood of a pixel
-/

namespace D10.Spec
open PixelBuffer

variable {T : Type}

/-- The pixel `(x, y)` of the result depends only on the pixels of the image that are at most `r`
columns and at most `r` rows away from it. -/
def DependsWithin (r : Nat) (op : PixelBuffer T → R (PixelBuffer T)) : Prop :=
  ∀ b₁ b₂ : PixelBuffer T, WellFormed b₁ → WellFormed b₂ → b₁.width = b₂.width → b₁.height = b₂.height →
    ∀ x y, (∀ i j, i ≤ x + r → x ≤ i + r → j ≤ y + r → y ≤ j + r → b₁.get_pixel i j = b₂.get_pixel i j) →
      (op b₁ >>= fun b => b.get_pixel x y) = (op b₂ >>= fun b => b.get_pixel x y)

/-- The work can be split into tiles: for a tile of `tw x th` pixels at `(ox, oy)` inside the image, what
the operation makes of the tile is what it makes of the image, except for a border of `r` pixels at
those sides of the tile that are not sides of the image. -/
def Tiles (r : Nat) (op : PixelBuffer T → R (PixelBuffer T)) : Prop :=
  ∀ (d : T) (b : PixelBuffer T), WellFormed b → ∀ ox oy tw th, ox + tw ≤ b.width → oy + th ≤ b.height →
    ∀ x < tw, ∀ y < th, (ox = 0 ∨ r ≤ x) → (ox + tw = b.width ∨ x + r < tw) →
      (oy = 0 ∨ r ≤ y) → (oy + th = b.height ∨ y + r < th) →
      (crop d b ox oy tw th >>= fun t => op t >>= fun b => b.get_pixel x y) =
        (op b >>= fun b => b.get_pixel (ox + x) (oy + y))

end D10.Spec
