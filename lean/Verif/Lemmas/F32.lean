import Verif.Lemmas.Exact

/-! # Error bounds for `f32` arithmetic on values in [0, 1] -/

namespace D10
open Scalar (isNan)

/-- Rounding error of a value of magnitude at most `2^k`. -/
theorem rn_err_le {f : Fmt} {q : ℚ} {k : Int} (hk : f.emin ≤ k - f.prec) (h : |q| ≤ pow2 k) :
    |rn f q - q| ≤ pow2 (k - f.prec) / 2 := by
  have hp := pow2_pos (k - f.prec)
  by_cases hq : q = 0
  · rw [hq, rn_zero, sub_zero, abs_zero]; linarith
  rcases lt_or_eq_of_le h with h | h
  · have hl := ilog2_lt hq h
    refine le_trans (rn_err f q) ?_
    have : ulpExp f q ≤ k - f.prec := by
      unfold ulpExp; omega
    have := pow2_le this
    linarith
  · have hr : IsRep f q := by
      have hk' : f.emin ≤ k := by have := f.pos; omega
      rcases abs_choice q with e | e
      · rw [← e, h]; exact IsRep.pow2 hk'
      · have : q = -pow2 k := by rw [← h, e, neg_neg]
        rw [this]; exact (IsRep.pow2 hk').neg
    rw [rn_rep hr, sub_self, abs_zero]; linarith

/-- A channel of an `f32` colour is a number in [0, 1]. -/
def Spec.Chan (x : F32) : Prop := x.fin = true ∧ 0 ≤ x.val ∧ x.val ≤ 1

namespace FP

theorem lit32 (z : Int) (hz : |z| ≤ 2 ^ 24) :
    (ofRat b32 false (z : ℚ)).fin = true ∧ (ofRat b32 false (z : ℚ)).val = z := by
  have h := int_finite (f := b32) z hz
  exact ofRat_rep h.1 h.2

theorem lit0 : (ofRat b32 false 0).fin = true ∧ (ofRat b32 false 0).val = 0 := by
  have := lit32 0 (by norm_num); simpa using this
theorem lit1 : (ofRat b32 false 1).fin = true ∧ (ofRat b32 false 1).val = 1 := by
  have := lit32 1 (by norm_num); simpa using this

theorem pow2_b32 : pow2 b32.emax = 340282366920938463463374607431768211456 := by
  rw [show b32.emax = ((128 : Nat) : Int) from rfl, pow2_nat]; norm_num

/-- Rounding of a value of magnitude at most 2^k, k ≤ 127 never overflows. -/
theorem ofRat_small {s : Bool} {q : ℚ} {k : Int} (hk : b32.emin ≤ k) (hk2 : k < b32.emax)
    (h : |q| ≤ pow2 k) :
    (ofRat b32 s q).fin = true ∧ (ofRat b32 s q).val = rn b32 q :=
  ofRat_of_le (IsRep.pow2 hk) (pow2_lt_iff.2 hk2) h

/-- Magnitude at most 1. -/
theorem ofRat_unit {s : Bool} {q : ℚ} (h : |q| ≤ 1) :
    (ofRat b32 s q).fin = true ∧ (ofRat b32 s q).val = rn b32 q ∧
    |rn b32 q - q| ≤ 1 / 33554432 ∧ |rn b32 q| ≤ 1 := by
  have h0 : pow2 0 = 1 := rfl
  have a := ofRat_small (s := s) (q := q) (k := 0) (by decide) (by decide) (by rw [h0]; exact h)
  have b := rn_err_le (f := b32) (q := q) (k := 0) (by decide) (by rw [h0]; exact h)
  refine ⟨a.1, a.2, le_trans b (by norm_num [b32, pow2_eq]), ?_⟩
  have := rn_abs_le (f := b32) (q := q) (r := pow2 0) (IsRep.pow2 (by decide)) (by rw [h0]; exact h)
  rwa [h0] at this

variable [Libm b32]

theorem epsilon : (EPSILON : F32).fin = true ∧ (EPSILON : F32).val = 1 / 32768 := by
  unfold EPSILON
  show (FP.div (FP.ofRat b32 false 1) (FP.ofRat b32 false 32768)).fin = true ∧
    (FP.div (FP.ofRat b32 false 1) (FP.ofRat b32 false 32768)).val = 1 / 32768
  decide +kernel

/-- Two finite channels at most EPSILON apart are not told apart. -/
theorem chan_eq {x y : F32} (hx : x.fin = true) (hy : y.fin = true)
    (h : |x.val - y.val| ≤ 1 / 32768) : ((EPSILON : F32) <. Scalar.abs (x -. y)) = false := by
  have hp : pow2 (-15) = 1 / 32768 := by norm_num [pow2_eq]
  have a := ofRat_small (s := x.isNeg && y.neg.isNeg) (q := x.val - y.val) (k := -15)
    (by decide) (by decide) (by rw [hp]; exact h)
  have b := rn_abs_le (f := b32) (q := x.val - y.val) (r := pow2 (-15)) (IsRep.pow2 (by decide))
    (by rw [hp]; exact h)
  show FP.lt EPSILON (FP.abs (FP.sub x y)) = false
  rw [sub_fin hx hy]
  have c := abs_fin a.1
  rw [lt_fin epsilon.1 c.1, c.2, a.2, epsilon.2]
  rw [hp] at b
  simpa using b

/-- Finite channels that are not told apart are less than EPSILON (1 + 2^-23) apart. -/
theorem chan_eq_conv {x y : F32} (hx : x.fin = true) (hy : y.fin = true)
    (h : ((EPSILON : F32) <. Scalar.abs (x -. y)) = false) :
    |x.val - y.val| < 1 / 32768 * (1 + 1 / 8388608) := by
  by_contra hc
  have hc := not_lt.1 hc
  have hr : IsRep b32 (1 / 32768 * (1 + 1 / 8388608)) :=
    ⟨8388609, -38, by norm_num [b32], by decide, by norm_num [pow2_eq]⟩
  have hlow : 1 / 32768 * (1 + 1 / 8388608) ≤ |rn b32 (x.val - y.val)| := by
    rcases abs_choice (x.val - y.val) with e | e
    · rw [e] at hc
      exact le_trans (rep_le_rn hr hc) (le_abs_self _)
    · rw [e] at hc
      have := rep_le_rn hr hc
      rw [rn_neg] at this
      exact le_trans this (neg_le_abs _)
  have h : FP.lt EPSILON (FP.abs (FP.sub x y)) = false := h
  rw [sub_fin hx hy] at h
  by_cases hov : |rn b32 (x.val - y.val)| < pow2 b32.emax
  · have a := ofRat_val (f := b32) (s := x.isNeg && y.neg.isNeg) hov
    have c := abs_fin a.1
    rw [lt_fin epsilon.1 c.1, c.2, a.2, epsilon.2] at h
    simp only [decide_eq_false_iff_not, not_lt] at h
    norm_num at hlow h
    linarith
  · have hne : rn b32 (x.val - y.val) ≠ 0 := by
      intro h0; rw [h0, abs_zero] at hov; exact hov (pow2_pos _)
    have : ofRat b32 (x.isNeg && y.neg.isNeg) (x.val - y.val) = inf (decide (x.val - y.val < 0)) := by
      unfold ofRat; rw [dif_neg hne, dif_neg hov]
    rw [this] at h
    have : FP.abs (inf (decide (x.val - y.val < 0)) : F32) = inf false := by
      unfold FP.abs isNeg neg; split <;> simp_all
    rw [this, lt_fin_inf epsilon.1] at h
    cases h

end FP
end D10
