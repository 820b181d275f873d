import Verif.SpecChain
import Verif.Model.Blend

/-!
# Specification of joining pictures with 32-bit and with exact numbers (C130)
-/

namespace D10.Spec
variable [Libm b32] [Junk]

/-- The modes that compute with the channels as they are. -/
def plainModes : List BlendOp := [.Normal, .Addition, .Subtract, .Darken, .Lighten]

/-- By how much a mode may enlarge differences, at the intensity `i`. -/
noncomputable def modeFactor : BlendOp → ℝ → ℝ
  | .Addition, i => 1 + 2 * i
  | .Subtract, i => 1 + 2 * i
  | _, i => 1 + i

/-- No channel of two exact colours differs by more than `t`. -/
def ApartBy (t : ℝ) (c d : Col ℝ) : Prop :=
  |c.c0 - d.c0| ≤ t ∧ |c.c1 - d.c1| ≤ t ∧ |c.c2 - d.c2| ≤ t ∧ |c.alpha - d.alpha| ≤ t

/-- Both colours are in range and no channel differs by more than `t`. -/
def AlikeColours (t : ℝ) (c : Col F32) (d : Col ℝ) : Prop := UnitCol c ∧ UnitReal d ∧ CloseCol t c d

/-- A function of a position and one colour for each picture does on 32-bit colours what `g` does on exact ones: if all
colours are alike up to `t`, the results are alike up to `L t + η`. -/
def Joins (L η : ℝ) (f : Nat → Nat → List (Col F32) → Col F32) (g : Nat → Nat → List (Col ℝ) → Col ℝ) : Prop :=
  ∀ x y t l m, 0 ≤ t → List.Forall₂ (AlikeColours t) l m → AlikeColours (L * t + η) (f x y l) (g x y m)

end D10.Spec
