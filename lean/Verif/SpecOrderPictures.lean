import Verif.SpecOrder
import Verif.Spec

/-! # Specification of the order between pictures (C107) -/

namespace D10.Spec

/-- No channel of `c` is above the one of `d`, in exact arithmetic. -/
structure BelowCol (c d : Col ℝ) : Prop where
  c0 : c.c0 ≤ d.c0
  c1 : c.c1 ≤ d.c1
  c2 : c.c2 ≤ d.c2
  alpha : c.alpha ≤ d.alpha

end D10.Spec
