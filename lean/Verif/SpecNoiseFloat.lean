import Verif.SpecChain

/-!
# Specification of noise with the same random numbers (C135)
-/

namespace D10.Spec

/-- The generator of the exact program: it draws the same numbers. -/
noncomputable def exactRng {σ : Type} (g : Rng σ F32) : Rng σ ℝ where
  unit s := (((g.unit s).1.val : ℝ), (g.unit s).2)
  symmetric s := (((g.symmetric s).1.val : ℝ), (g.symmetric s).2)
  normal s := (((g.normal s).1.val : ℝ), (g.normal s).2)
  three := g.three

/-- What the generator promises: finite numbers in [0, 1] and in [-1, 1]; the normally distributed ones
are finite and not above `2 ^ m` in size. -/
structure KeepsRange {σ : Type} (m : ℕ) (g : Rng σ F32) : Prop where
  unit : ∀ s, (g.unit s).1.fin = true ∧ 0 ≤ (g.unit s).1.val ∧ (g.unit s).1.val ≤ 1
  symmetric : ∀ s, (g.symmetric s).1.fin = true ∧ |((g.symmetric s).1.val : ℝ)| ≤ 1
  normal : ∀ s, (g.normal s).1.fin = true ∧ |((g.normal s).1.val : ℝ)| ≤ 2 ^ m

/-- Both programs succeed, draw equally often, and their pictures are at most `η` apart. -/
def BothMake {σ : Type} (η : ℝ) (p : R (Image F32 × σ)) (q : R (Image ℝ × σ)) : Prop :=
  ∃ a' b' s', p = .ok (a', s') ∧ q = .ok (b', s') ∧ Alike η a'.buffer b'.buffer

end D10.Spec
