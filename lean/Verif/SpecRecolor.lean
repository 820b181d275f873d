import Verif.Spec
import Verif.Model.Color

/-!
# Exchanging and copying colour channels

Specification for C97 and C98.
-/

namespace D10.Spec

variable {F : Type}

/-- The red, green or blue channel. -/
def component : Fin 3 → Col F → F
  | 0, c => c.c0
  | 1, c => c.c1
  | 2, c => c.c2

/-- The colour whose channel `i` is the channel `p i` of `c`. With a permutation `p` this exchanges
the channels, with a constant `p` it copies one channel to the two others. The alpha channel stays. -/
def shuffle (p : Fin 3 → Fin 3) (c : Col F) : Col F :=
  ⟨component (p 0) c, component (p 1) c, component (p 2) c, c.alpha⟩

/-- Doing `op` to the image recoloured by `f` gives the same as recolouring the result of `op`; if
`op` fails, both fail in the same way. -/
def CommutesWith (f : Col F → Col F) (op : PixelBuffer (Col F) → R (PixelBuffer (Col F))) : Prop :=
  ∀ b, WellFormed b → op (b.map_colors f) = (op b).map (·.map_colors f)

/-- All three colour channels are equal. -/
def Grey (c : Col F) : Prop := c.c0 = c.c1 ∧ c.c1 = c.c2

/-- The result of `op` on an image of grey pixels only has grey pixels only. -/
def KeepsGrey (op : PixelBuffer (Col F) → R (PixelBuffer (Col F))) : Prop :=
  ∀ b b', WellFormed b → (∀ c ∈ b.data, Grey c) → op b = .ok b' → ∀ c ∈ b'.data, Grey c

end D10.Spec
