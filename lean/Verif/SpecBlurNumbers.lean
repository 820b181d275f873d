import Verif.SpecNumbers

/-!
# Specification of the widths and of the functions of the platform that a blur needs to make numbers

Much less is asked of `exp` and `sqrt` than in C95, which says how exact a blur is.
-/

namespace D10.Spec

/-- `exp` of the platform gives a number between 0 and 1 for every finite number that is not positive,
and 1 for zero. -/
def ExpInUnit [Libm b32] : Prop :=
  ∀ x : F32, x.fin = true → x.val ≤ 0 →
    (Scalar.exp x).fin = true ∧ 0 ≤ (Scalar.exp x).val ∧ (Scalar.exp x).val ≤ 1 ∧ (x.val = 0 → (Scalar.exp x).val = 1)

/-- `sqrt` of the platform gives a number that is not negative for every finite number that is not
negative; it is at most the larger of 1 and the argument, and it is zero for zero. -/
def SqrtMild [Libm b32] : Prop :=
  ∀ x : F32, x.fin = true → 0 ≤ x.val →
    (Scalar.sqrt x).fin = true ∧ 0 ≤ (Scalar.sqrt x).val ∧ (Scalar.sqrt x).val ≤ max 1 x.val ∧
      (x.val = 0 → (Scalar.sqrt x).val = 0)

/-- Widths of the bell that are neither extremely small nor extremely large. The sign does not matter. -/
def ModerateWidth (s : F32) : Prop := s.fin = true ∧ 1 / 2 ^ 30 ≤ |s.val| ∧ |s.val| ≤ 2 ^ 30

/-- The width given for a blur is moderate; if none is given, the radius is at least 1. -/
def BlurWidthOK (radius : Nat) : Option F32 → Prop
  | some s => ModerateWidth s
  | none => 0 < radius

end D10.Spec
