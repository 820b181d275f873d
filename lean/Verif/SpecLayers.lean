import Verif.SpecTonal

/-!
# Specification of layers of colours (C138)
-/

namespace D10.Spec

/-- The usual rule for laying the colour `o` over `c`, both not premultiplied (Porter and Duff, "over"). -/
noncomputable def over (o c : Col ℝ) : Col ℝ :=
  let a := o.alpha + c.alpha * (1 - o.alpha)
  let mix := fun x y : ℝ => (x * o.alpha + y * c.alpha * (1 - o.alpha)) / a
  ⟨mix o.c0 c.c0, mix o.c1 c.c1, mix o.c2 c.c2, a⟩

/-- How much of what lies below a stack of layers shines through: each layer lets `1 - alpha` of it pass. -/
def through : List (Col ℝ) → ℝ
  | [] => 1
  | o :: rest => (1 - o.alpha) * through rest

/-- What the layers themselves add to the channel `ch`; the first is the lowest. -/
def shine (ch : Col ℝ → ℝ) : List (Col ℝ) → ℝ
  | [] => 0
  | o :: rest => o.alpha * ch o * through rest + shine ch rest

end D10.Spec
