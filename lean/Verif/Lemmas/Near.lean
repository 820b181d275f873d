import Verif.SpecAccuracy
import Verif.Lemmas.F32
import Verif.Lemmas.Color

/-! # Binary32 results close to exact ones -/

namespace D10
open Scalar (isNan)
open Spec

theorem Spec.Close.mono {x : F32} {q e d : ℝ} (h : Close x q e) (hd : e ≤ d) : Close x q d :=
  ⟨h.fin, h.err.trans hd⟩

theorem Spec.Close.congr {x : F32} {q r e : ℝ} (h : Close x q e) (hr : q = r) : Close x r e := hr ▸ h

/-- `x` is finite and within `e` of `q`, and `q` is at most `B` in size. -/
structure NearF (x : F32) (q e B : ℝ) : Prop where
  close : Close x q e
  le : |q| ≤ B

namespace NearF
variable {x y z : F32} {q r e d A B : ℝ}

theorem e_nonneg (h : NearF x q e B) : 0 ≤ e := (abs_nonneg _).trans h.close.err
theorem b_nonneg (h : NearF x q e B) : 0 ≤ B := (abs_nonneg _).trans h.le

theorem of_fin (h : x.fin = true) (hB : |(x.val : ℝ)| ≤ B) : NearF x x.val 0 B := ⟨⟨h, by simp⟩, hB⟩

/-- A channel in [0, 1]. -/
theorem unit (h : x.fin = true ∧ 0 ≤ x.val ∧ x.val ≤ 1) : NearF x x.val 0 1 := by
  refine of_fin h.1 ?_
  rw [abs_le]
  have h0 : (0 : ℝ) ≤ x.val := by exact_mod_cast h.2.1
  have h1 : (x.val : ℝ) ≤ 1 := by exact_mod_cast h.2.2
  constructor <;> linarith

theorem mono (h : NearF x q e A) (hd : e ≤ d) (hB : A ≤ B) : NearF x q d B :=
  ⟨⟨h.close.fin, h.close.err.trans hd⟩, h.le.trans hB⟩

theorem congr (h : NearF x q e B) (hr : q = r) : NearF x r e B := hr ▸ h

theorem is (h : NearF x q e B) (hr : q = r) (hd : e ≤ d) : Close x r d :=
  ⟨h.close.fin, hr ▸ h.close.err.trans hd⟩

/-- Rounding a number near `r`. -/
theorem round {b : Bool} {q : ℚ} (k : ℕ) (hk : k ≤ 100) (h : |(q : ℝ) - r| ≤ e) (hB : |r| ≤ B)
    (hb : B + e ≤ 2 ^ k) : NearF (FP.ofRat b32 b q) r (e + 2 ^ k / 33554432) B := by
  refine ⟨?_, hB⟩
  have hq : |q| ≤ pow2 (k : ℤ) := by
    rw [pow2_nat]
    have : |(q : ℝ)| ≤ |r| + |q - r| := by
      have := abs_add_le r (q - r); rwa [add_sub_cancel] at this
    have : ((|q| : ℚ) : ℝ) ≤ ((2 ^ k : ℚ) : ℝ) := by push_cast; linarith
    exact_mod_cast this
  have he : b32.emin = -149 := rfl
  have hM : b32.emax = 128 := rfl
  have hp : (b32.prec : ℤ) = 24 := rfl
  have a := FP.ofRat_small (s := b) (q := q) (k := (k : ℤ)) (by omega) (by omega) hq
  have c := rn_err_le (f := b32) (q := q) (k := (k : ℤ)) (by omega) hq
  refine ⟨a.1, ?_⟩
  rw [a.2]
  have hpow : pow2 ((k : ℤ) - b32.prec) / 2 = 2 ^ k / 33554432 := by
    rw [hp, pow2_eq, zpow_sub₀ (by norm_num), zpow_natCast]; norm_num; ring
  rw [hpow] at c
  have c' : |((rn b32 q : ℚ) : ℝ) - q| ≤ 2 ^ k / 33554432 := by
    have : ((|rn b32 q - q| : ℚ) : ℝ) ≤ ((2 ^ k / 33554432 : ℚ) : ℝ) := by exact_mod_cast c
    push_cast at this; exact this
  calc |((rn b32 q : ℚ) : ℝ) - r| = |(((rn b32 q : ℚ) : ℝ) - q) + (q - r)| := by ring_nf
    _ ≤ _ := abs_add_le _ _
    _ ≤ _ := by linarith

variable [Libm b32]

theorem lit (k : ℕ) (q : ℚ) (hk : k ≤ 100) (hB : |(q : ℝ)| ≤ B) (h : B ≤ 2 ^ k) :
    NearF (Scalar.lit q : F32) q (2 ^ k / 33554432) B := by
  have := round (b := false) (q := q) (r := q) (e := 0) (B := B) k hk (by simp) hB (by simpa using h)
  rwa [zero_add] at this

/-- Numbers on the binary32 grid are exact. -/
theorem lit_rep (q : ℚ) (h : (FP.ofRat b32 false q).fin = true ∧ (FP.ofRat b32 false q).val = q)
    (hB : |(q : ℝ)| ≤ B) : NearF (Scalar.lit q : F32) q 0 B := by
  refine ⟨⟨h.1, ?_⟩, hB⟩
  show |((FP.ofRat b32 false q).val : ℝ) - q| ≤ 0
  rw [h.2]; simp

theorem one : NearF (Scalar.lit 1 : F32) 1 0 1 := by
  have := lit_rep (B := 1) 1 FP.lit1 (by norm_num)
  simpa using this

theorem two : NearF (Scalar.lit 2 : F32) 2 0 2 := by
  have := lit_rep (B := 2) 2 (by decide +kernel) (by norm_num)
  simpa using this

theorem three : NearF (Scalar.lit 3 : F32) 3 0 3 := by
  have := lit_rep (B := 3) 3 (by decide +kernel) (by norm_num)
  simpa using this

theorem half : NearF (Scalar.lit 0.5 : F32) (1 / 2) 0 (1 / 2) := by
  have := lit_rep (B := 1 / 2) 0.5 (by decide +kernel) (by norm_num)
  norm_num at this ⊢
  exact this

theorem add (k : ℕ) (hk : k ≤ 100) (hx : NearF x q e A) (hy : NearF y r d B)
    (hb : A + B + (e + d) ≤ 2 ^ k) : NearF (x +. y) (q + r) (e + d + 2 ^ k / 33554432) (A + B) := by
  show NearF (FP.add x y) _ _ _
  rw [FP.add_fin hx.close.fin hy.close.fin]
  refine round k hk ?_ ((abs_add_le _ _).trans (add_le_add hx.le hy.le)) hb
  push_cast
  calc |(x.val : ℝ) + y.val - (q + r)| = |(x.val - q) + (y.val - r)| := by ring_nf
    _ ≤ _ := abs_add_le _ _
    _ ≤ _ := add_le_add hx.close.err hy.close.err

theorem sub (k : ℕ) (hk : k ≤ 100) (hx : NearF x q e A) (hy : NearF y r d B)
    (hb : A + B + (e + d) ≤ 2 ^ k) : NearF (x -. y) (q - r) (e + d + 2 ^ k / 33554432) (A + B) := by
  show NearF (FP.sub x y) _ _ _
  rw [FP.sub_fin hx.close.fin hy.close.fin]
  refine round k hk ?_ ((abs_sub _ _).trans (add_le_add hx.le hy.le)) hb
  push_cast
  calc |(x.val : ℝ) - y.val - (q - r)| = |(x.val - q) + -(y.val - r)| := by ring_nf
    _ ≤ |(x.val : ℝ) - q| + |-((y.val : ℝ) - r)| := abs_add_le _ _
    _ ≤ _ := by rw [abs_neg]; exact add_le_add hx.close.err hy.close.err

/-- The same with a better bound for the size of the difference. -/
theorem sub' {C : ℝ} (k : ℕ) (hk : k ≤ 100) (hx : NearF x q e A) (hy : NearF y r d B) (hC : |q - r| ≤ C)
    (hb : C + (e + d) ≤ 2 ^ k) : NearF (x -. y) (q - r) (e + d + 2 ^ k / 33554432) C := by
  show NearF (FP.sub x y) _ _ _
  rw [FP.sub_fin hx.close.fin hy.close.fin]
  refine round k hk ?_ hC hb
  push_cast
  calc |(x.val : ℝ) - y.val - (q - r)| = |(x.val - q) + -(y.val - r)| := by ring_nf
    _ ≤ |(x.val : ℝ) - q| + |-((y.val : ℝ) - r)| := abs_add_le _ _
    _ ≤ _ := by rw [abs_neg]; exact add_le_add hx.close.err hy.close.err

theorem mul (k : ℕ) (hk : k ≤ 100) (hx : NearF x q e A) (hy : NearF y r d B)
    (hb : A * B + (A * d + B * e + e * d) ≤ 2 ^ k) :
    NearF (x *. y) (q * r) (A * d + B * e + e * d + 2 ^ k / 33554432) (A * B) := by
  show NearF (FP.mul x y) _ _ _
  rw [FP.mul_fin hx.close.fin hy.close.fin]
  have he := hx.e_nonneg
  have hd := hy.e_nonneg
  have hA0 := hx.b_nonneg
  have hB0 := hy.b_nonneg
  refine round k hk ?_ ?_ hb
  · have h1 : |q * (y.val - r)| ≤ A * d := by
      rw [abs_mul]; exact mul_le_mul hx.le hy.close.err (abs_nonneg _) hA0
    have h2 : |r * (x.val - q)| ≤ B * e := by
      rw [abs_mul]; exact mul_le_mul hy.le hx.close.err (abs_nonneg _) hB0
    have h3 : |((x.val : ℝ) - q) * (y.val - r)| ≤ e * d := by
      rw [abs_mul]; exact mul_le_mul hx.close.err hy.close.err (abs_nonneg _) he
    push_cast
    calc |(x.val : ℝ) * y.val - q * r| =
        |q * (y.val - r) + r * (x.val - q) + (x.val - q) * (y.val - r)| := by ring_nf
      _ ≤ |q * (y.val - r) + r * (x.val - q)| + |((x.val : ℝ) - q) * (y.val - r)| := abs_add_le _ _
      _ ≤ |q * (y.val - r)| + |r * (x.val - q)| + |((x.val : ℝ) - q) * (y.val - r)| :=
          add_le_add (abs_add_le _ _) le_rfl
      _ ≤ _ := by linarith
  · rw [abs_mul]; exact mul_le_mul hx.le hy.le (abs_nonneg _) hA0

/-- Quotient by a number of size at least `m`. -/
theorem div (k : ℕ) (hk : k ≤ 100) {m : ℝ} (hx : NearF x q e A) (hy : NearF y r d B) (hm : m ≤ |r|)
    (hd : d < m) (hb : A / m + (e / (m - d) + A * d / (m * (m - d))) ≤ 2 ^ k) :
    NearF (x /. y) (q / r) (e / (m - d) + A * d / (m * (m - d)) + 2 ^ k / 33554432) (A / m) := by
  have hd0 := hy.e_nonneg
  have hA0 := hx.b_nonneg
  have he0 := hx.e_nonneg
  have hm0 : 0 < m := hd0.trans_lt hd
  have hyv : m - d ≤ |(y.val : ℝ)| := by
    have h1 := hy.close.err
    have : |r| ≤ |(y.val : ℝ)| + |(y.val : ℝ) - r| := by
      have := abs_add_le (y.val : ℝ) (-(y.val - r))
      rw [abs_neg] at this
      have e : (y.val : ℝ) + -(y.val - r) = r := by ring
      rwa [e] at this
    linarith
  have hmd : 0 < m - d := by linarith
  have hy0 : (y.val : ℝ) ≠ 0 := fun h => by rw [h, abs_zero] at hyv; linarith
  have hr0 : r ≠ 0 := fun h => by rw [h, abs_zero] at hm; linarith
  have hy0' : y.val ≠ 0 := by exact_mod_cast hy0
  show NearF (FP.div x y) _ _ _
  rw [FP.div_fin hx.close.fin hy.close.fin hy0']
  refine round k hk ?_ ?_ hb
  · push_cast
    have h1 : |((x.val : ℝ) - q) / y.val| ≤ e / (m - d) := by
      rw [abs_div]; exact div_le_div₀ he0 hx.close.err hmd hyv
    have h2 : |q * (r - y.val) / (r * y.val)| ≤ A * d / (m * (m - d)) := by
      rw [abs_div, abs_mul, abs_mul]
      refine div_le_div₀ (mul_nonneg hA0 hd0) ?_ (mul_pos hm0 hmd) ?_
      · exact mul_le_mul hx.le (by rw [abs_sub_comm]; exact hy.close.err) (abs_nonneg _) hA0
      · exact mul_le_mul hm hyv hmd.le (abs_nonneg _)
    calc |(x.val : ℝ) / y.val - q / r| = |(x.val - q) / y.val + q * (r - y.val) / (r * y.val)| := by
          congr 1; field_simp; ring
      _ ≤ _ := abs_add_le _ _
      _ ≤ _ := add_le_add h1 h2
  · rw [abs_div]; exact div_le_div₀ hA0 hx.le hm0 hm

theorem abs (hx : NearF x q e B) : NearF (Scalar.abs x) |q| e B := by
  show NearF (FP.abs x) _ _ _
  obtain ⟨h1, h2⟩ := FP.abs_fin hx.close.fin
  refine ⟨⟨h1, ?_⟩, by rw [abs_abs]; exact hx.le⟩
  rw [h2]
  push_cast
  exact le_trans (abs_abs_sub_abs_le_abs_sub _ _) hx.close.err

omit [Libm b32] in
theorem min_sub_min (a b c d : ℝ) : |Min.min a b - Min.min c d| ≤ Max.max |a - c| |b - d| :=
  abs_min_sub_min_le_max a b c d
omit [Libm b32] in
theorem max_sub_max (a b c d : ℝ) : |Max.max a b - Max.max c d| ≤ Max.max |a - c| |b - d| :=
  abs_max_sub_max_le_max a b c d

theorem clamp_fin (h : x.fin = true) :
    (clamp01 x : F32).fin = true ∧ (clamp01 x : F32).val = Max.max 0 (Min.min 1 x.val) := by
  unfold clamp01 Scalar.clamp
  have l0 : (Scalar.lit 0 : F32).fin = true ∧ (Scalar.lit 0 : F32).val = 0 := FP.lit0
  have l1 : (Scalar.lit 1 : F32).fin = true ∧ (Scalar.lit 1 : F32).val = 1 := FP.lit1
  have c0 : Scalar.lt x (Scalar.lit 0 : F32) = decide (x.val < 0) := by
    show FP.lt x _ = _; rw [FP.lt_fin h l0.1, l0.2]
  have c1 : Scalar.lt (Scalar.lit 1 : F32) x = decide (1 < x.val) := by
    show FP.lt _ x = _; rw [FP.lt_fin l1.1 h, l1.2]
  rw [c0, c1]
  by_cases h0 : x.val < 0
  · simp only [h0, decide_true, if_true, l0.1, l0.2, true_and]
    rw [max_eq_left ((min_le_right _ _).trans h0.le)]
  · by_cases h1 : 1 < x.val
    · simp only [h0, h1, decide_true, decide_false, if_true, if_false, Bool.false_eq_true, l1.1, l1.2,
        true_and]
      rw [min_eq_left h1.le]; norm_num
    · simp only [h0, h1, decide_false, if_false, Bool.false_eq_true, h, true_and]
      rw [min_eq_right (not_lt.1 h1), max_eq_right (not_lt.1 h0)]

/-- Clamping to [0, 1] does not increase the distance. -/
theorem clamp (hx : NearF x q e B) : NearF (clamp01 x) (Max.max 0 (Min.min 1 q)) e 1 := by
  have h := clamp_fin hx.close.fin
  refine ⟨⟨h.1, ?_⟩, ?_⟩
  · rw [h.2]
    push_cast
    refine (max_sub_max _ _ _ _).trans (max_le (by simpa using hx.e_nonneg) ?_)
    exact (min_sub_min _ _ _ _).trans (max_le (by simpa using hx.e_nonneg) hx.close.err)
  · rw [abs_of_nonneg (le_max_left _ _)]
    exact max_le zero_le_one (min_le_left _ _)

theorem not_nan (h : x.fin = true) : Scalar.isNan x = false := FP.isNan_fin h

theorem min_fin (hx : x.fin = true) (hy : y.fin = true) :
    (Scalar.min x y).fin = true ∧ (Scalar.min x y).val = Min.min x.val y.val := by
  unfold Scalar.min
  rw [not_nan hx, not_nan hy]
  have c : Scalar.lt y x = decide (y.val < x.val) := FP.lt_fin hy hx
  rw [c]
  by_cases h : y.val < x.val
  · simp only [h, decide_true, if_true, if_false, Bool.false_eq_true, hy, true_and]
    rw [min_eq_right h.le]
  · simp only [h, decide_false, if_false, Bool.false_eq_true, hx, true_and]
    rw [min_eq_left (not_lt.1 h)]

theorem max_fin (hx : x.fin = true) (hy : y.fin = true) :
    (Scalar.max x y).fin = true ∧ (Scalar.max x y).val = Max.max x.val y.val := by
  unfold Scalar.max
  rw [not_nan hx, not_nan hy]
  have c : Scalar.lt x y = decide (x.val < y.val) := FP.lt_fin hx hy
  rw [c]
  by_cases h : x.val < y.val
  · simp only [h, decide_true, if_true, if_false, Bool.false_eq_true, hy, true_and]
    rw [max_eq_right h.le]
  · simp only [h, decide_false, if_false, Bool.false_eq_true, hx, true_and]
    rw [max_eq_left (not_lt.1 h)]

theorem min (hx : NearF x q e A) (hy : NearF y r d B) :
    NearF (Scalar.min x y) (Min.min q r) (Max.max e d) (Max.max A B) := by
  obtain ⟨h1, h2⟩ := min_fin hx.close.fin hy.close.fin
  refine ⟨⟨h1, ?_⟩, abs_min_le_max_abs_abs.trans (max_le_max hx.le hy.le)⟩
  rw [h2]; push_cast
  exact (min_sub_min _ _ _ _).trans (max_le_max hx.close.err hy.close.err)

theorem max (hx : NearF x q e A) (hy : NearF y r d B) :
    NearF (Scalar.max x y) (Max.max q r) (Max.max e d) (Max.max A B) := by
  obtain ⟨h1, h2⟩ := max_fin hx.close.fin hy.close.fin
  refine ⟨⟨h1, ?_⟩, abs_max_le_max_abs_abs.trans (max_le_max hx.le hy.le)⟩
  rw [h2]; push_cast
  exact (max_sub_max _ _ _ _).trans (max_le_max hx.close.err hy.close.err)

end NearF

end D10
