import Verif.Spec
import Verif.Lemmas.Hsl
import Verif.Model.Blend

/-!
# Specification of the laws of blending (C141)
-/

namespace D10.Spec

/-- An opaque colour in range. -/
def Opaque (c : Col ℝ) : Prop := Spec.Unit c ∧ c.alpha = 1

/-- The modes that treat both pictures alike. -/
def evenModes : List BlendOp := [.Addition, .Darken, .Lighten]

/-- The two colours, black and white, of which some modes take no notice. -/
inductive Neutral : BlendOp → Col ℝ → Prop
  | addition : Neutral .Addition ⟨0, 0, 0, 1⟩
  | subtract : Neutral .Subtract ⟨0, 0, 0, 1⟩
  | lighten : Neutral .Lighten ⟨0, 0, 0, 1⟩
  | darken : Neutral .Darken ⟨1, 1, 1, 1⟩

end D10.Spec
