import Verif.SpecAccuracy

/-! # Specification of how far stored bytes are off (C108) -/

namespace D10.Spec

/-- As many bytes in both, and each one less than `k` away from its counterpart. -/
def OffBy (k : ℝ) (l m : List Nat) : Prop := List.Forall₂ (fun a b : Nat => |(a : ℝ) - b| < k) l m

/-- All four channels are in [0, 1]. -/
structure UnitReal (c : Col ℝ) : Prop where
  c0 : 0 ≤ c.c0 ∧ c.c0 ≤ 1
  c1 : 0 ≤ c.c1 ∧ c.c1 ≤ 1
  c2 : 0 ≤ c.c2 ∧ c.c2 ≤ 1
  alpha : 0 ≤ c.alpha ∧ c.alpha ≤ 1

end D10.Spec
