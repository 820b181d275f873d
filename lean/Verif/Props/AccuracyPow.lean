import Verif.Props.Accuracy

/-!
# Accuracy of the operations that use `powf` (C86)

`powf` belongs to the platform. The theorems assume that it is within some `δ` of the exact power.
-/

namespace D10
open Spec

/-- Powers of a number in [0, 1] with different exponents. -/
theorem rpow_exponent {x p r : ℝ} (h0 : 0 ≤ x) (h1 : x ≤ 1) (hp : 0 < p) (hr : p ≤ r) :
    |x ^ p - x ^ r| ≤ (r - p) / p := by
  have hd : 0 ≤ (r - p) / p := div_nonneg (by linarith) hp.le
  rcases lt_or_eq_of_le h0 with h | h
  · have hle : x ^ r ≤ x ^ p := Real.rpow_le_rpow_of_exponent_ge h h1 hr
    rw [abs_of_nonneg (by linarith)]
    set t := -Real.log x with ht
    have ht0 : 0 ≤ t := by rw [ht]; linarith [Real.log_nonpos h0 h1]
    have e1 : x ^ p = Real.exp (-(p * t)) := by
      rw [Real.rpow_def_of_pos h]; congr 1; rw [ht]; ring
    have e2 : x ^ r = Real.exp (-(p * t)) * Real.exp (-((r - p) * t)) := by
      rw [Real.rpow_def_of_pos h, ← Real.exp_add]; congr 1; rw [ht]; ring
    rw [e1, e2]
    have a1 : 1 - Real.exp (-((r - p) * t)) ≤ (r - p) * t := by
      have := Real.add_one_le_exp (-((r - p) * t)); linarith
    have a2 : Real.exp (-(p * t)) * (p * t) ≤ 1 := by
      have := Real.add_one_le_exp (p * t)
      rw [Real.exp_neg, inv_mul_le_iff₀ (Real.exp_pos _)]; linarith
    have a3 : Real.exp (-(p * t)) * t ≤ 1 / p := by
      rw [le_div_iff₀ hp]; linarith
    calc Real.exp (-(p * t)) - Real.exp (-(p * t)) * Real.exp (-((r - p) * t))
        = Real.exp (-(p * t)) * (1 - Real.exp (-((r - p) * t))) := by ring
      _ ≤ Real.exp (-(p * t)) * ((r - p) * t) := mul_le_mul_of_nonneg_left a1 (Real.exp_pos _).le
      _ = (r - p) * (Real.exp (-(p * t)) * t) := by ring
      _ ≤ (r - p) * (1 / p) := mul_le_mul_of_nonneg_left a3 (by linarith)
      _ = _ := by ring
  · rw [← h, Real.zero_rpow hp.ne', Real.zero_rpow (by linarith), sub_zero, abs_zero]; exact hd

theorem rpow_exponent' {x p r m d : ℝ} (h0 : 0 ≤ x) (h1 : x ≤ 1) (hm : 0 < m) (hp : m ≤ p) (hr : m ≤ r)
    (hd : |p - r| ≤ d) : |x ^ p - x ^ r| ≤ d / m := by
  have hd0 := (abs_nonneg _).trans hd
  rw [abs_le] at hd
  rcases le_total p r with h | h
  · exact (rpow_exponent h0 h1 (hm.trans_le hp) h).trans (div_le_div₀ hd0 (by linarith) hm hp)
  · rw [abs_sub_comm]
    exact (rpow_exponent h0 h1 (hm.trans_le hr) h).trans (div_le_div₀ hd0 (by linarith) hm hr)

theorem rpow24_abs {a b : ℝ} (ha : 0 ≤ a) (ha1 : a ≤ 1) (hb : 0 ≤ b) (hb1 : b ≤ 1) :
    |a ^ (2.4 : ℝ) - b ^ (2.4 : ℝ)| ≤ 2.4 * |a - b| := by
  rcases le_total b a with h | h
  · rw [abs_of_nonneg (by linarith [Real.rpow_le_rpow hb h (show (0 : ℝ) ≤ 2.4 by norm_num)]),
      abs_of_nonneg (by linarith)]
    exact rpow24_lipschitz hb h ha1
  · rw [abs_sub_comm, abs_sub_comm a b,
      abs_of_nonneg (by linarith [Real.rpow_le_rpow ha h (show (0 : ℝ) ≤ 2.4 by norm_num)]),
      abs_of_nonneg (by linarith)]
    exact rpow24_lipschitz ha h hb1

section
variable [Libm b32] [Junk]

local notation "Chan01 " x => FP.fin x = true ∧ 0 ≤ FP.val x ∧ FP.val x ≤ 1

omit [Libm b32] [Junk] in
theorem unit_real {x : F32} (h : Chan01 x) : (0 : ℝ) ≤ x.val ∧ (x.val : ℝ) ≤ 1 :=
  ⟨by exact_mod_cast h.2.1, by exact_mod_cast h.2.2⟩

omit [Junk] in
/-- The base of the power in `gamma_to_linear` is in [0, 1]. -/
theorem base_unit {v : F32} (h : Chan01 v) : Chan01 ((v +. lit 0.055) /. lit 1.055 : F32) := by
  have L : (FP.ofRat b32 false 0.055).fin = true ∧ 0 ≤ (FP.ofRat b32 false 0.055).val ∧
      (FP.ofRat b32 false 0.055).val ≤ 1 / 2 := by decide +kernel
  have D : (FP.ofRat b32 false 1.055).fin = true ∧ 1 ≤ (FP.ofRat b32 false 1.055).val ∧
      rn b32 (1 + (FP.ofRat b32 false 0.055).val) ≤ (FP.ofRat b32 false 1.055).val := by decide +kernel
  show Chan01 (FP.div (FP.add v (FP.ofRat b32 false 0.055)) (FP.ofRat b32 false 1.055))
  rw [FP.add_fin h.1 L.1]
  generalize FP.ofRat b32 false 0.055 = l at *
  generalize FP.ofRat b32 false 1.055 = d at *
  have hs := FP.ofRat_small (s := (v.isNeg && l.isNeg)) (q := v.val + l.val) (k := 1) (by decide) (by decide)
    (by rw [show pow2 1 = 2 from rfl, abs_le]; constructor <;> linarith [h.2.1, h.2.2, L.2.1, L.2.2])
  have s0 : 0 ≤ rn b32 (v.val + l.val) := by
    have := rn_mono (f := b32) (show 0 ≤ v.val + l.val by linarith [h.2.1, L.2.1])
    rwa [rn_zero] at this
  have s1 : rn b32 (v.val + l.val) ≤ d.val :=
    (rn_mono (f := b32) (show v.val + l.val ≤ 1 + l.val by linarith [h.2.2])).trans D.2.2
  have d0 : 0 < d.val := by linarith [D.2.1]
  rw [FP.div_fin hs.1 D.1 d0.ne', hs.2]
  have q0 : 0 ≤ rn b32 (v.val + l.val) / d.val := div_nonneg s0 d0.le
  have q1 : rn b32 (v.val + l.val) / d.val ≤ 1 := by rw [div_le_one d0]; exact s1
  obtain ⟨a, b, _, c⟩ := FP.ofRat_unit (s := (FP.isNeg (FP.ofRat b32 (v.isNeg && l.isNeg) (v.val + l.val)) ^^ d.isNeg))
    (q := rn b32 (v.val + l.val) / d.val) (by rw [abs_of_nonneg q0]; exact q1)
  refine ⟨a, ?_, ?_⟩
  · rw [b]
    have := rn_mono (f := b32) q0
    rwa [rn_zero] at this
  · rw [b]; exact (le_abs_self _).trans c

omit [Junk] in
/-- `gamma_to_linear` above the break. -/
theorem g2l_high_close {δ : ℝ} (hL : PowWithin δ) {v : F32} (h : Chan01 v) :
    Close (Scalar.powf ((v +. lit 0.055) /. lit 1.055 : F32) (lit 2.4))
      ((((v.val : ℝ) + 0.055) / 1.055) ^ (2.4 : ℝ)) (δ + 6 / 10000000) := by
  have hb := base_unit h
  obtain ⟨v0, v1⟩ := unit_real h
  have n := ((NearF.unit h).add 1 (by norm_num) (NearF.lit 0 0.055 (B := 0.055) (by norm_num) (by norm_num)
    (by norm_num)) (by norm_num)).div 1 (by norm_num) (m := 1.055)
    (NearF.lit 1 1.055 (B := 1.055) (by norm_num) (by norm_num) (by norm_num)) (by norm_num) (by norm_num)
    (by norm_num)
  have n' := n.is (r := ((v.val : ℝ) + 0.055) / 1.055) (d := 21 / 100000000) (by norm_num) (by norm_num)
  have y : (FP.ofRat b32 false 2.4).fin = true ∧ (2 : ℚ) ≤ (FP.ofRat b32 false 2.4).val := by decide +kernel
  have ye := (NearF.lit 2 2.4 (B := 2.4) (by norm_num) (by norm_num) (by norm_num)).close.err
  have y2 : (2 : ℝ) ≤ ((lit 2.4 : F32).val : ℝ) := by exact_mod_cast y.2
  have c := hL _ (lit 2.4) hb.1 y.1 hb.2.1 hb.2.2 (lt_of_lt_of_le (by norm_num) y.2)
  obtain ⟨x0, x1⟩ := unit_real hb
  generalize ((v +. lit 0.055) /. lit 1.055 : F32) = x at *
  have e1 := rpow_exponent' (r := 2.4) x0 x1 (show (0 : ℝ) < 2 by norm_num) y2 (by norm_num)
    (ye.trans' (by norm_num))
  have q0 : (0 : ℝ) ≤ ((v.val : ℝ) + 0.055) / 1.055 := by positivity
  have q1 : ((v.val : ℝ) + 0.055) / 1.055 ≤ 1 := by rw [div_le_one (by norm_num)]; linarith
  have e2 := rpow24_abs x0 x1 q0 q1
  have n2 := n'.err
  refine (close_clamp_exact c (d := 6 / 10000000) ?_)
  calc |(x.val : ℝ) ^ ((lit 2.4 : F32).val : ℝ) - (((v.val : ℝ) + 0.055) / 1.055) ^ (2.4 : ℝ)|
      = |((x.val : ℝ) ^ ((lit 2.4 : F32).val : ℝ) - (x.val : ℝ) ^ (2.4 : ℝ)) +
        ((x.val : ℝ) ^ (2.4 : ℝ) - (((v.val : ℝ) + 0.055) / 1.055) ^ (2.4 : ℝ))| := by ring_nf
    _ ≤ _ := abs_add_le _ _
    _ ≤ 2 ^ 2 / 33554432 / 2 + 2.4 * (21 / 100000000) :=
        add_le_add e1 (e2.trans (mul_le_mul_of_nonneg_left n2 (by norm_num)))
    _ ≤ _ := by norm_num

omit [Libm b32] [Junk] in
/-- The two branches of `gamma_to_linear` are close near the break. -/
theorem g2l_break {v : ℝ} (h : |v - 0.04045| ≤ 1 / 33554432) :
    |((v + 0.055) / 1.055) ^ (2.4 : ℝ) - v / 12.92| ≤ 1 / 10000000 := by
  have u : (0.09545 / 1.055 : ℝ) ^ (2.4 : ℝ) < 0.00313081 :=
    rpow24_lt (by norm_num) (by norm_num) (by norm_num)
  have l := base_bounds.1
  have hv : 0 ≤ (v + 0.055) / 1.055 := div_nonneg (by rw [abs_le] at h; norm_num at h ⊢; linarith) (by norm_num)
  have hv1 : (v + 0.055) / 1.055 ≤ 1 := by
    rw [div_le_one (by norm_num)]; rw [abs_le] at h; norm_num at h ⊢; linarith
  have d := rpow24_abs hv hv1 (show (0 : ℝ) ≤ 0.09545 / 1.055 by norm_num) (by norm_num)
  have e : |(v + 0.055) / 1.055 - 0.09545 / 1.055| ≤ 1 / 33554432 := by
    have : (v + 0.055) / 1.055 - 0.09545 / 1.055 = (v - 0.04045) / 1.055 := by ring
    rw [this, abs_div]
    refine (div_le_self (abs_nonneg _) ?_).trans h
    norm_num
  rw [abs_le] at h d ⊢
  have d1 := d.1
  have d2 := d.2
  norm_num at h d1 d2 u l e ⊢
  constructor <;> linarith

omit [Junk] in
theorem g2l_low_close {v : F32} (h : Chan01 v) :
    Close (v /. lit 12.92 : F32) ((v.val : ℝ) / 12.92) (1 / 10000000) :=
  ((NearF.unit h).div 0 (by norm_num) (m := 12.92)
    (NearF.lit 4 12.92 (B := 12.92) (by norm_num) (by norm_num) (by norm_num)) (by norm_num) (by norm_num)
    (by norm_num)).is (by norm_num) (by norm_num)

omit [Junk] in
theorem PowWithin.nonneg {δ : ℝ} (hL : PowWithin δ) : 0 ≤ δ :=
  (abs_nonneg _).trans (hL (lit 1) (lit 1) FP.lit1.1 FP.lit1.1 (by rw [show (lit 1 : F32).val = 1 from FP.lit1.2]; norm_num)
    (by rw [show (lit 1 : F32).val = 1 from FP.lit1.2]) (by rw [show (lit 1 : F32).val = 1 from FP.lit1.2]; norm_num)).err

/-- C86: the sRGB transfer function, for every channel in [0, 1]. -/
theorem C86_gamma_to_linear (δ : ℝ) (hL : PowWithin δ) (v : F32) (h : Chan01 v) :
    Close (gamma_to_linear v) (gamma_to_linear (v.val : ℝ)) (δ + 8 / 10000000) := by
  have hδ := PowWithin.nonneg hL
  have t := (NearF.lit (B := 1) 0 0.04045 (by norm_num) (by norm_num) (by norm_num)).close
  have te := t.err
  have hc : (lit 0.04045 <. v) = decide ((lit 0.04045 : F32).val < v.val) := FP.lt_fin t.fin h.1
  have hi := g2l_high_close hL h
  have lo := g2l_low_close h
  have near : |(v.val : ℝ) - 0.04045| ≤ 1 / 33554432 →
      |(((v.val : ℝ) + 0.055) / 1.055) ^ (2.4 : ℝ) - (v.val : ℝ) / 12.92| ≤ 1 / 10000000 := g2l_break
  rw [show (gamma_to_linear v : F32) = if (lit 0.04045 <. v) then
    Scalar.powf ((v +. lit 0.055) /. lit 1.055) (lit 2.4) else v /. lit 12.92 from rfl, hc]
  generalize (lit 0.04045 : F32) = w at *
  push_cast at te
  by_cases hw : w.val < v.val
  · have hw' : (w.val : ℝ) < v.val := by exact_mod_cast hw
    simp only [hw, decide_true, if_true]
    by_cases hx : (v.val : ℝ) ≤ 0.04045
    · rw [Exact.g2l_low hx]
      refine (close_clamp_exact hi (near ?_)).mono (by linarith)
      rw [abs_le] at te ⊢
      norm_num at te hx ⊢
      constructor <;> linarith
    · rw [Exact.g2l_high (not_le.1 hx)]
      exact hi.mono (by linarith)
  · have hw' : (v.val : ℝ) ≤ w.val := by exact_mod_cast not_lt.1 hw
    simp only [hw, decide_false, if_false, Bool.false_eq_true]
    by_cases hx : (v.val : ℝ) ≤ 0.04045
    · rw [Exact.g2l_low hx]
      exact lo.mono (by linarith)
    · have hx := not_le.1 hx
      rw [Exact.g2l_high hx]
      refine (close_clamp_exact lo (d := 1 / 10000000) ?_).mono (by linarith)
      rw [abs_sub_comm]
      apply near
      rw [abs_le] at te ⊢
      norm_num at te hx ⊢
      constructor <;> linarith

omit [Junk] in
/-- `linear_to_gamma` above the break. -/
theorem l2g_high_close {δ : ℝ} (hL : PowWithin δ) (hδ1 : δ ≤ 1 / 1024) {v : F32} (h : Chan01 v) :
    Close (lit 1.055 *. Scalar.powf v (lit 1 /. lit 2.4) -. lit 0.055 : F32)
      (1.055 * (v.val : ℝ) ^ ((1 : ℝ) / 2.4) - 0.055) (1.06 * δ + 6 / 10000000) := by
  have hδ := PowWithin.nonneg hL
  obtain ⟨v0, v1⟩ := unit_real h
  have y : (FP.div (FP.ofRat b32 false 1) (FP.ofRat b32 false 2.4)).fin = true ∧
    (2 / 5 : ℚ) ≤ (FP.div (FP.ofRat b32 false 1) (FP.ofRat b32 false 2.4)).val := by decide +kernel
  have ye := (NearF.one.div 0 (by norm_num) (m := 2.4)
    (NearF.lit 2 2.4 (B := 2.4) (by norm_num) (by norm_num) (by norm_num)) (by norm_num) (by norm_num)
    (by norm_num)).is (r := 1 / 2.4) (d := 6 / 100000000) (by norm_num) (by norm_num)
  have y2 : (2 / 5 : ℝ) ≤ ((lit 1 /. lit 2.4 : F32).val : ℝ) := by
    have : ((2 / 5 : ℚ) : ℝ) ≤ ((lit 1 /. lit 2.4 : F32).val : ℝ) := Rat.cast_le.2 y.2
    push_cast at this; exact this
  have c := hL v (lit 1 /. lit 2.4) h.1 y.1 h.2.1 h.2.2 (lt_of_lt_of_le (by norm_num) y.2)
  have e1 := rpow_exponent' (r := 1 / 2.4) v0 v1 (show (0 : ℝ) < 2 / 5 by norm_num) y2 (by norm_num) ye.err
  have c' := (close_clamp_exact c e1).mono (show _ ≤ δ + 15 / 100000000 by norm_num)
  have r1 : |(v.val : ℝ) ^ ((1 : ℝ) / 2.4)| ≤ 1 := by
    rw [abs_of_nonneg (Real.rpow_nonneg v0 _)]; exact Real.rpow_le_one v0 v1 (by norm_num)
  have n : NearF (Scalar.powf v (lit 1 /. lit 2.4) : F32) ((v.val : ℝ) ^ ((1 : ℝ) / 2.4)) _ 1 := ⟨c', r1⟩
  have m := ((NearF.lit 1 1.055 (B := 1.055) (by norm_num) (by norm_num) (by norm_num)).mul 1 (by norm_num) n
    (by norm_num; linarith)).sub 1 (by norm_num)
    (NearF.lit 0 0.055 (B := 0.055) (by norm_num) (by norm_num) (by norm_num)) (by norm_num; linarith)
  refine m.is (by norm_num) ?_
  norm_num
  linarith

omit [Libm b32] [Junk] in
theorem root_le {a b : ℝ} (ha : 0 ≤ a) (hb : 0 ≤ b) (h : a ^ 5 ≤ b ^ 12) : a ^ ((1 : ℝ) / 2.4) ≤ b := by
  have : a ≤ b ^ (2.4 : ℝ) := by
    rw [← rpow24_pow5 hb] at h
    exact le_of_pow_le_pow_left₀ (by norm_num) (Real.rpow_nonneg hb _) h
  have := Real.rpow_le_rpow ha this (show (0 : ℝ) ≤ 1 / 2.4 by norm_num)
  rwa [rpow24_inv hb] at this

omit [Libm b32] [Junk] in
theorem le_root {a b : ℝ} (ha : 0 ≤ a) (hb : 0 ≤ b) (h : b ^ 12 ≤ a ^ 5) : b ≤ a ^ ((1 : ℝ) / 2.4) := by
  have : b ^ (2.4 : ℝ) ≤ a := by
    rw [← rpow24_pow5 hb] at h
    exact le_of_pow_le_pow_left₀ (by norm_num) ha h
  have := Real.rpow_le_rpow (Real.rpow_nonneg hb _) this (show (0 : ℝ) ≤ 1 / 2.4 by norm_num)
  rwa [rpow24_inv hb] at this

omit [Libm b32] [Junk] in
/-- The two branches of `linear_to_gamma` are close near the break. -/
theorem l2g_break {v : ℝ} (h : |v - 0.003130805| ≤ 1 / 33554432) :
    |1.055 * v ^ ((1 : ℝ) / 2.4) - 0.055 - 12.92 * v| ≤ 2 / 1000000 := by
  rw [abs_le] at h
  have h1 : (0.00313077 : ℝ) ≤ v := by norm_num at h ⊢; linarith
  have h2 : v ≤ (0.00313084 : ℝ) := by norm_num at h ⊢; linarith
  have h0 : 0 ≤ v := by linarith
  have u : v ^ ((1 : ℝ) / 2.4) ≤ (0.0904745 : ℝ) :=
    root_le h0 (by norm_num) ((pow_le_pow_left₀ h0 h2 5).trans (by norm_num))
  have l : (0.0904732 : ℝ) ≤ v ^ ((1 : ℝ) / 2.4) :=
    le_root h0 (by norm_num) (le_trans (by norm_num) (pow_le_pow_left₀ (by norm_num) h1 5))
  rw [abs_le]
  norm_num at h h1 h2 u l ⊢
  constructor <;> linarith

omit [Junk] in
theorem l2g_low_close {v : F32} (h : Chan01 v) (hv : v.val ≤ 1 / 16) :
    Close (lit 12.92 *. v : F32) (12.92 * (v.val : ℝ)) (1 / 10000000) := by
  have hv' : |(v.val : ℝ)| ≤ 1 / 16 := by
    rw [abs_of_nonneg (unit_real h).1]
    have : (v.val : ℝ) ≤ ((1 / 16 : ℚ) : ℝ) := Rat.cast_le.2 hv
    push_cast at this; exact this
  exact ((NearF.lit 4 12.92 (B := 12.92) (by norm_num) (by norm_num) (by norm_num)).mul 0 (by norm_num)
    (NearF.of_fin h.1 hv') (by norm_num)).is (by norm_num) (by norm_num)

/-- C86: the inverse of the transfer function, for every channel in [0, 1]. -/
theorem C86_linear_to_gamma (δ : ℝ) (hL : PowWithin δ) (hδ : δ ≤ 1 / 1024) (v : F32) (h : Chan01 v) :
    Close (linear_to_gamma v) (linear_to_gamma (v.val : ℝ)) (1.06 * δ + 27 / 10000000) := by
  have hδ0 := PowWithin.nonneg hL
  have t := (NearF.lit (B := 1) 0 0.003130805 (by norm_num) (by norm_num) (by norm_num)).close
  have te := t.err
  have tb : (FP.ofRat b32 false 0.003130805).val ≤ 1 / 16 := by decide +kernel
  have hc : (lit 0.003130805 <. v) = decide ((lit 0.003130805 : F32).val < v.val) := FP.lt_fin t.fin h.1
  have hi := l2g_high_close hL hδ h
  have lo := l2g_low_close h
  have near : |(v.val : ℝ) - 0.003130805| ≤ 1 / 33554432 →
      |1.055 * (v.val : ℝ) ^ ((1 : ℝ) / 2.4) - 0.055 - 12.92 * v.val| ≤ 2 / 1000000 := l2g_break
  have tb : (lit 0.003130805 : F32).val ≤ 1 / 16 := tb
  rw [show (linear_to_gamma v : F32) = if (lit 0.003130805 <. v) then
    lit 1.055 *. Scalar.powf v (lit 1 /. lit 2.4) -. lit 0.055 else lit 12.92 *. v from rfl, hc]
  generalize (lit 0.003130805 : F32) = w at *
  push_cast at te
  by_cases hw : w.val < v.val
  · have hw' : (w.val : ℝ) < v.val := by exact_mod_cast hw
    simp only [hw, decide_true, if_true]
    by_cases hx : (v.val : ℝ) ≤ 0.003130805
    · rw [Exact.l2g_low hx]
      refine (close_clamp_exact hi (near ?_)).mono (by linarith)
      rw [abs_le] at te ⊢
      norm_num at te hx ⊢
      constructor <;> linarith
    · rw [Exact.l2g_high (not_le.1 hx)]
      exact hi.mono (by linarith)
  · have hw' : (v.val : ℝ) ≤ w.val := by exact_mod_cast not_lt.1 hw
    have lo := lo ((not_lt.1 hw).trans tb)
    simp only [hw, decide_false, if_false, Bool.false_eq_true]
    by_cases hx : (v.val : ℝ) ≤ 0.003130805
    · rw [Exact.l2g_low hx]
      exact lo.mono (by linarith)
    · have hx := not_le.1 hx
      rw [Exact.l2g_high hx]
      refine (close_clamp_exact lo (d := 2 / 1000000) ?_).mono (by linarith)
      rw [abs_sub_comm]
      apply near
      rw [abs_le] at te ⊢
      norm_num at te hx ⊢
      constructor <;> linarith

omit [Libm b32] [Junk] in
/-- The slope of `linear_to_gamma` above the break. -/
theorem l2g_slope {a b : ℝ} (ha : 0.003130805 ≤ a) (hab : a ≤ b) :
    1.055 * b ^ ((1 : ℝ) / 2.4) - 1.055 * a ^ ((1 : ℝ) / 2.4) ≤ 13 * (b - a) := by
  have ha0 : 0 ≤ a := le_trans (by norm_num) ha
  have hb0 : 0 ≤ b := ha0.trans hab
  set s := a ^ ((1 : ℝ) / 2.4) with hs
  set r := b ^ ((1 : ℝ) / 2.4) with hr
  have s0 : (0.0904 : ℝ) ≤ s :=
    le_root ha0 (by norm_num) (le_trans (by norm_num) (pow_le_pow_left₀ (by norm_num) ha 5))
  have sp : 0 < s := lt_of_lt_of_le (by norm_num) s0
  have rs : s ≤ r := Real.rpow_le_rpow ha0 hab (by norm_num)
  have ea : s ^ (2.4 : ℝ) = a := rpow24_inv' ha0
  have eb : r ^ (2.4 : ℝ) = b := rpow24_inv' hb0
  have rp : 0 ≤ r := sp.le.trans rs
  have bern := one_add_mul_self_le_rpow_one_add (s := r / s - 1) (p := 2.4)
    (by have := div_nonneg rp sp.le; linarith) (by norm_num)
  rw [show 1 + (r / s - 1) = r / s by ring, Real.div_rpow rp sp.le, ea, eb] at bern
  have ap : 0 < a := lt_of_lt_of_le (by norm_num) ha
  rw [le_div_iff₀ ap] at bern
  -- a / s is at least 0.034
  have q : 0.034 ≤ a / s := by
    have : a / s = s ^ (1.4 : ℝ) := by
      rw [show (1.4 : ℝ) = 2.4 - 1 by norm_num, Real.rpow_sub sp, Real.rpow_one, ea]
    rw [this]
    have h5 : (s ^ (1.4 : ℝ)) ^ 5 = s ^ 7 := by
      rw [← Real.rpow_natCast, ← Real.rpow_mul sp.le, ← Real.rpow_natCast]; norm_num
    have : (0.034 : ℝ) ^ 5 ≤ (s ^ (1.4 : ℝ)) ^ 5 := by
      rw [h5]; exact le_trans (by norm_num) (pow_le_pow_left₀ (by norm_num) s0 7)
    exact le_of_pow_le_pow_left₀ (by norm_num) (Real.rpow_nonneg sp.le _) this
  have e : (r / s - 1) * a = (r - s) * (a / s) := by field_simp
  have k := mul_le_mul_of_nonneg_left q (show 0 ≤ r - s by linarith)
  norm_num at *
  nlinarith

omit [Libm b32] in
/-- `linear_to_gamma` stretches distances at most 13 times, up to the jump at the break. -/
theorem l2g_near {a b : ℝ} (ha : 0 ≤ a) (hb : 0 ≤ b) :
    |(linear_to_gamma a : ℝ) - linear_to_gamma b| ≤ 13 * |a - b| + 2 / 1000000 := by
  have main : ∀ {a b : ℝ}, 0 ≤ a → a ≤ b →
      |(linear_to_gamma b : ℝ) - linear_to_gamma a| ≤ 13 * (b - a) + 2 / 1000000 := by
    intro a b ha hab
    by_cases h1 : a ≤ 0.003130805
    · by_cases h2 : b ≤ 0.003130805
      · rw [Exact.l2g_low h1, Exact.l2g_low h2, abs_le]; norm_num; constructor <;> linarith
      · have h2 := not_le.1 h2
        rw [Exact.l2g_low h1, Exact.l2g_high h2]
        have j := l2g_break (v := 0.003130805) (by norm_num)
        have sl := l2g_slope le_rfl h2.le
        have m : (0.003130805 : ℝ) ^ ((1 : ℝ) / 2.4) ≤ b ^ ((1 : ℝ) / 2.4) :=
          Real.rpow_le_rpow (by norm_num) h2.le (by norm_num)
        rw [abs_le] at j ⊢
        norm_num at *
        constructor <;> linarith
    · have h1 := not_le.1 h1
      rw [Exact.l2g_high h1, Exact.l2g_high (h1.trans_le hab)]
      have sl := l2g_slope h1.le hab
      have m : a ^ ((1 : ℝ) / 2.4) ≤ b ^ ((1 : ℝ) / 2.4) := Real.rpow_le_rpow ha hab (by norm_num)
      rw [abs_le]
      norm_num at *
      constructor <;> linarith
  rcases le_total a b with h | h
  · rw [abs_sub_comm, abs_sub_comm a b, abs_of_nonneg (show 0 ≤ b - a by linarith)]; exact main ha h
  · rw [abs_of_nonneg (show 0 ≤ a - b by linarith)]; exact main hb h

theorem close_clamp {x : F32} {q e : ℝ} (h : Close x q e) : Close (clamp01 x) (clamp01 q) e :=
  near_clamp ⟨h, le_rfl⟩

/-- C86: sRGB to RGB and RGB to sRGB. -/
theorem C86_srgb (δ : ℝ) (hL : PowWithin δ) (hδ : δ ≤ 1 / 1024) (c : Col F32) (h : UnitCol c) :
    CloseCol (δ + 8 / 10000000) (to_rgb .srgb c) (to_rgb .srgb (exact c)) ∧
    CloseCol (1.06 * δ + 27 / 10000000) (to_srgb .rgb c) (to_srgb .rgb (exact c)) := by
  have hδ0 := PowWithin.nonneg hL
  exact ⟨⟨close_clamp (C86_gamma_to_linear δ hL _ h.c0), close_clamp (C86_gamma_to_linear δ hL _ h.c1),
    close_clamp (C86_gamma_to_linear δ hL _ h.c2), (clamp_unit h.alpha).mono (by linarith)⟩,
    ⟨close_clamp (C86_linear_to_gamma δ hL hδ _ h.c0), close_clamp (C86_linear_to_gamma δ hL hδ _ h.c1),
    close_clamp (C86_linear_to_gamma δ hL hδ _ h.c2), (clamp_unit h.alpha).mono (by linarith)⟩⟩

omit [Junk] in
theorem clamp_chan {x : F32} (h : x.fin = true) : Chan01 (clamp01 x : F32) := by
  obtain ⟨a, b⟩ := NearF.clamp_fin h
  exact ⟨a, by rw [b]; exact le_max_left _ _, by rw [b]; exact max_le zero_le_one (min_le_left _ _)⟩

omit [Libm b32] in
theorem clamp01_unit (q : ℝ) : 0 ≤ (clamp01 q : ℝ) ∧ (clamp01 q : ℝ) ≤ 1 := by
  rw [Exact.clamp01]; exact ⟨le_max_left _ _, max_le zero_le_one (min_le_left _ _)⟩

/-- C86: sRGB to RGB and back is equal (`==`) in binary32, when `powf` is within 2^-20. -/
theorem C86_srgb_round_trip (hL : PowWithin (1 / 1048576)) (c : Col F32) (h : UnitCol c) :
    Col.eq (to_srgb .rgb (to_rgb .srgb c)) c = true := by
  have key : ∀ {v : F32}, (Chan01 v) →
      Close (clamp01 (linear_to_gamma (clamp01 (gamma_to_linear v)))) (v.val : ℝ) (1 / 32768) := by
    intro v hv
    obtain ⟨v0, v1⟩ := unit_real hv
    have g := close_clamp (C86_gamma_to_linear _ hL v hv)
    have hw : Chan01 (clamp01 (gamma_to_linear v) : F32) := clamp_chan (C86_gamma_to_linear _ hL v hv).fin
    rw [Exact.clamp01_id (C30_range _ v0 v1).1 (C30_range _ v0 v1).2] at g
    generalize (clamp01 (gamma_to_linear v) : F32) = w at *
    have l := close_clamp (C86_linear_to_gamma _ hL (by norm_num) w hw)
    have n := l2g_near (a := (w.val : ℝ)) (b := gamma_to_linear (v.val : ℝ)) (unit_real hw).1 (C30_range _ v0 v1).1
    rw [C30_round_trip] at n
    refine (close_clamp_exact l (clamp01_near v0 v1 n)).mono ?_
    have := g.err
    norm_num at this ⊢
    linarith
  refine eq_of_close (e := exact c) (b := 0) (a := 1 / 32768) ?_ ⟨h.c0.1, h.c1.1, h.c2.1, h.alpha.1⟩ ?_ ?_ ?_ ?_
    (by norm_num)
  · refine ⟨key h.c0, key h.c1, key h.c2, ?_⟩
    show Close (clamp01 (clamp01 c.alpha)) (c.alpha.val : ℝ) _
    have := close_clamp (clamp_unit h.alpha)
    rw [Exact.clamp01_id (clamp01_unit _).1 (clamp01_unit _).2,
      Exact.clamp01_id (unit_real h.alpha).1 (unit_real h.alpha).2] at this
    exact this.mono (by norm_num)
  all_goals simp [exact]

omit [Libm b32] in
/-- `gamma_to_linear` stretches distances at most 2.3 times, up to the jump at the break. -/
theorem g2l_stretch {a b : ℝ} (ha : 0 ≤ a) (ha1 : a ≤ 1) (hb : 0 ≤ b) (hb1 : b ≤ 1) :
    |(gamma_to_linear a : ℝ) - gamma_to_linear b| ≤ 2.3 * |a - b| + 1 / 10000000 := by
  have base : ∀ {x : ℝ}, 0 ≤ x → x ≤ 1 → 0 ≤ (x + 0.055) / 1.055 ∧ (x + 0.055) / 1.055 ≤ 1 := by
    intro x h0 h1
    exact ⟨div_nonneg (by norm_num; linarith) (by norm_num), by rw [div_le_one (by norm_num)]; norm_num; linarith⟩
  have sl : ∀ {x y : ℝ}, 0 ≤ x → y ≤ 1 → x ≤ y →
      |((y + 0.055) / 1.055) ^ (2.4 : ℝ) - ((x + 0.055) / 1.055) ^ (2.4 : ℝ)| ≤ 2.3 * (y - x) := by
    intro x y h0 h1 hxy
    have by' := base (h0.trans hxy) h1
    have bx := base h0 (hxy.trans h1)
    refine (rpow24_abs by'.1 by'.2 bx.1 bx.2).trans ?_
    rw [abs_of_nonneg]
    · norm_num; linarith
    · norm_num; linarith
  have main : ∀ {a b : ℝ}, 0 ≤ a → b ≤ 1 → a ≤ b →
      |(gamma_to_linear b : ℝ) - gamma_to_linear a| ≤ 2.3 * (b - a) + 1 / 10000000 := by
    intro a b ha hb hab
    by_cases h1 : a ≤ 0.04045
    · by_cases h2 : b ≤ 0.04045
      · rw [Exact.g2l_low h1, Exact.g2l_low h2, abs_le]; norm_num; constructor <;> linarith
      · have h2 := not_le.1 h2
        rw [Exact.g2l_low h1, Exact.g2l_high h2]
        have j := g2l_break (v := 0.04045) (by norm_num)
        have s := sl (x := 0.04045) (by norm_num) hb h2.le
        rw [abs_le] at j s ⊢
        norm_num at *
        constructor <;> linarith
    · have h1 := not_le.1 h1
      rw [Exact.g2l_high h1, Exact.g2l_high (h1.trans_le hab)]
      exact (sl ha hb hab).trans (by norm_num)
  rcases le_total a b with h | h
  · rw [abs_sub_comm, abs_sub_comm a b, abs_of_nonneg (show 0 ≤ b - a by linarith)]; exact main ha hb1 h
  · rw [abs_of_nonneg (show 0 ≤ a - b by linarith)]; exact main hb ha1 h

/-- RGB to sRGB and back is within EPSILON in binary32, when `powf` is within 2^-20. -/
theorem srgb_round_trip_close (hL : PowWithin (1 / 1048576)) (c : Col F32) (h : UnitCol c) :
    CloseCol (1 / 32768) (to_rgb .srgb (to_srgb .rgb c)) (exact c) := by
  have key : ∀ {v : F32}, (Chan01 v) →
      Close (clamp01 (gamma_to_linear (clamp01 (linear_to_gamma v)))) (v.val : ℝ) (1 / 32768) := by
    intro v hv
    obtain ⟨v0, v1⟩ := unit_real hv
    have g := close_clamp (C86_linear_to_gamma _ hL (by norm_num) v hv)
    have hw : Chan01 (clamp01 (linear_to_gamma v) : F32) :=
      clamp_chan (C86_linear_to_gamma _ hL (by norm_num) v hv).fin
    have back : |(gamma_to_linear (clamp01 (linear_to_gamma (v.val : ℝ))) : ℝ) - v.val| ≤ 1 / 65536 := by
      have l0 : 0 ≤ (linear_to_gamma (v.val : ℝ) : ℝ) := by
        by_cases hx : (v.val : ℝ) ≤ 0.003130805
        · rw [Exact.l2g_low hx]; positivity
        · have hx := not_le.1 hx
          rw [Exact.l2g_high hx]
          have : (0.0904 : ℝ) ≤ (v.val : ℝ) ^ ((1 : ℝ) / 2.4) :=
            le_root v0 (by norm_num) (le_trans (by norm_num) (pow_le_pow_left₀ (by norm_num) hx.le 5))
          norm_num at this ⊢; linarith
      have l1 : (linear_to_gamma (v.val : ℝ) : ℝ) ≤ 1 := by
        by_cases hx : (v.val : ℝ) ≤ 0.003130805
        · rw [Exact.l2g_low hx]; norm_num at hx ⊢; linarith
        · have hx := not_le.1 hx
          rw [Exact.l2g_high hx]
          have : (v.val : ℝ) ^ ((1 : ℝ) / 2.4) ≤ 1 := Real.rpow_le_one v0 v1 (by norm_num)
          norm_num at this ⊢; linarith
      rw [Exact.clamp01_id l0 l1]
      exact (C30_round_trip_linear _ v0).1
    generalize (clamp01 (linear_to_gamma v) : F32) = w at *
    obtain ⟨w0, w1⟩ := unit_real hw
    have hq := clamp01_unit (linear_to_gamma (v.val : ℝ))
    generalize (clamp01 (linear_to_gamma (v.val : ℝ)) : ℝ) = q at *
    have l := C86_gamma_to_linear _ hL w hw
    have n := g2l_stretch w0 w1 hq.1 hq.2
    have a := close_clamp_exact (close_clamp_exact l n) back
    have r := close_clamp a
    rw [Exact.clamp01_id v0 v1] at r
    refine r.mono ?_
    have := g.err
    norm_num at this ⊢
    linarith
  refine ⟨key h.c0, key h.c1, key h.c2, ?_⟩
  show Close (clamp01 (clamp01 c.alpha)) (c.alpha.val : ℝ) _
  have := close_clamp (clamp_unit h.alpha)
  rw [Exact.clamp01_id (clamp01_unit _).1 (clamp01_unit _).2,
    Exact.clamp01_id (unit_real h.alpha).1 (unit_real h.alpha).2] at this
  exact this.mono (by norm_num)

/-- C86: RGB to sRGB and back is equal (`==`) in binary32, when `powf` is within 2^-20. -/
theorem C86_srgb_round_trip_rgb (hL : PowWithin (1 / 1048576)) (c : Col F32) (h : UnitCol c) :
    Col.eq (to_rgb .srgb (to_srgb .rgb c)) c = true := by
  refine eq_of_close (e := exact c) (b := 0) (srgb_round_trip_close hL c h) ⟨h.c0.1, h.c1.1, h.c2.1, h.alpha.1⟩
    ?_ ?_ ?_ ?_ (by norm_num)
  all_goals simp [exact]

omit [Libm b32] [Junk] in
/-- Relative error of rounding. -/
theorem rn_rel32 {q : ℚ} (h : pow2 (-126) ≤ |q|) : |rn b32 q - q| ≤ |q| / 16777216 := by
  have hq : q ≠ 0 := fun h0 => by rw [h0, abs_zero] at h; exact absurd (pow2_pos (-126)) (not_lt.2 h)
  have hl := le_ilog2 hq h
  refine (rn_err b32 q).trans ?_
  have e : ulpExp b32 q = ilog2 q - 23 := by
    unfold ulpExp
    have h1 : ((b32.prec - 1 : ℕ) : ℤ) = 23 := rfl
    have h2 : b32.emin = -149 := rfl
    rw [h1, h2]; omega
  have s := (ilog2_spec hq).1
  rw [e]
  have : pow2 (ilog2 q - 23) = pow2 (ilog2 q) / 8388608 := by
    rw [pow2_eq, pow2_eq, zpow_sub₀ (by norm_num)]; norm_num
  rw [this]
  linarith

/-- C86: gamma correction, for gammas from 2^-100 to 2^100. -/
theorem C86_gamma (δ : ℝ) (hL : PowWithin δ) (c : Col F32) (g : F32) (h : UnitCol c) (hg : g.fin = true)
    (g0 : 1 / 2 ^ 100 ≤ g.val) (g1 : g.val ≤ 2 ^ 100) :
    CloseCol (δ + 1 / 8388608) (Rgb.with_gamma c g) (Rgb.with_gamma (exact c) g.val) := by
  have hδ0 := PowWithin.nonneg hL
  have gp : 0 < g.val := lt_of_lt_of_le (by positivity) g0
  have gp' : (0 : ℝ) < g.val := by exact_mod_cast gp
  have low : 1 / 2 ^ 100 ≤ 1 / g.val := one_div_le_one_div_of_le gp g1
  have ip : 0 < 1 / g.val := by positivity
  have hy : (lit 1 /. g : F32) = FP.ofRat b32 ((FP.ofRat b32 false 1).isNeg ^^ g.isNeg) (1 / g.val) := by
    show FP.div (FP.ofRat b32 false 1) g = _
    rw [FP.div_fin FP.lit1.1 hg gp.ne', FP.lit1.2]
  have up : 1 / g.val ≤ 2 ^ 100 := by
    rw [div_le_iff₀ gp]
    calc (1 : ℚ) = 2 ^ 100 * (1 / 2 ^ 100) := by norm_num
      _ ≤ _ := mul_le_mul_of_nonneg_left g0 (by positivity)
  have sm := FP.ofRat_small (s := ((FP.ofRat b32 false 1).isNeg ^^ g.isNeg)) (q := 1 / g.val) (k := 100)
    (by decide) (by decide) (by rw [abs_of_pos ip, show pow2 100 = 2 ^ 100 by rw [pow2_eq]; norm_num]; exact up)
  rw [← hy] at sm
  have rel := rn_rel32 (q := 1 / g.val) (by
    rw [abs_of_pos ip]
    refine le_trans ?_ low
    rw [pow2_eq]; norm_num)
  rw [← sm.2, abs_of_pos ip] at rel
  have relR : |((lit 1 /. g : F32).val : ℝ) - 1 / g.val| ≤ 1 / (g.val : ℝ) / 16777216 := by
    have := (Rat.cast_le (K := ℝ)).2 rel
    push_cast at this; exact this
  have ipR : (0 : ℝ) < 1 / g.val := by positivity
  have yl : (1 / (g.val : ℝ)) / (1 + 1 / 8388608) ≤ ((lit 1 /. g : F32).val : ℝ) := by
    rw [abs_le] at relR
    rw [div_le_iff₀ (by norm_num)]
    nlinarith
  have ch : ∀ {v : F32}, (Chan01 v) → Close (clamp01 (Scalar.powf (clamp01 v) (lit 1 /. g)))
      (clamp01 (Scalar.powf (clamp01 (v.val : ℝ)) (lit 1 /. (g.val : ℝ)))) (δ + 1 / 8388608) := by
    intro v hv
    apply close_clamp
    obtain ⟨v0, v1⟩ := unit_real hv
    have hc := clamp_chan (x := v) hv.1
    have hcv : (clamp01 v : F32).val = v.val := by
      rw [(NearF.clamp_fin hv.1).2, min_eq_right hv.2.2, max_eq_right hv.2.1]
    have mp : (0 : ℝ) < (1 / (g.val : ℝ)) / (1 + 1 / 8388608) := by positivity
    have p := hL _ (lit 1 /. g) hc.1 sm.1 hc.2.1 hc.2.2 (by
      have : (0 : ℝ) < ((lit 1 /. g : F32).val : ℝ) := lt_of_lt_of_le mp yl
      exact_mod_cast this)
    rw [hcv] at p
    have e := rpow_exponent' v0 v1 mp yl (div_le_self ipR.le (by norm_num)) relR
    have b : 1 / (g.val : ℝ) / 16777216 / ((1 / (g.val : ℝ)) / (1 + 1 / 8388608)) ≤ 1 / 8388608 := by
      have : 1 / (g.val : ℝ) / 16777216 / ((1 / (g.val : ℝ)) / (1 + 1 / 8388608)) =
          (1 + 1 / 8388608) / 16777216 := by field_simp
      rw [this]; norm_num
    refine ((close_clamp_exact p e).mono (by linarith)).congr ?_
    rw [Exact.clamp01_id v0 v1, Exact.div gp'.ne', Exact.lit]
    push_cast
    rcases lt_or_eq_of_le v0 with hp | hp
    · rw [Exact.powf_pos _ hp]
    · rw [← hp, Exact.powf_zero (by positivity), Real.zero_rpow (by positivity)]
  exact ⟨ch h.c0, ch h.c1, ch h.c2, close_self h.alpha.1 (by linarith)⟩

end

/-! ## The hypotheses can be met -/

/-- A `powf` that picks a binary32 number next to the exact power. -/
@[instance_reducible] noncomputable def nearestPow : Libm b32 :=
  { Libm.trivial b32 with
    powf := fun x y => FP.ofRat b32 false
      (Classical.choose (exists_rat_near ((x.val : ℝ) ^ (y.val : ℝ)) (show (0 : ℝ) < 1 / 33554432 by norm_num))) }

/-- A sufficiently accurate `powf` exists. -/
theorem nearestPow_within : @PowWithin nearestPow (1 / 1048576) := by
  intro x y hx hy h0 h1 hp
  let := nearestPow
  have e := Classical.choose_spec
    (exists_rat_near ((x.val : ℝ) ^ (y.val : ℝ)) (show (0 : ℝ) < 1 / 33554432 by norm_num))
  have x0 : (0 : ℝ) ≤ x.val := by exact_mod_cast h0
  have x1 : (x.val : ℝ) ≤ 1 := by exact_mod_cast h1
  have yp : (0 : ℝ) < y.val := by exact_mod_cast hp
  have p0 := Real.rpow_nonneg x0 (y.val : ℝ)
  have p1 := Real.rpow_le_one x0 x1 yp.le
  rw [abs_sub_comm] at e
  exact (NearF.round (b := false) (B := 1) 1 (by norm_num) e.le (by rw [abs_of_nonneg p0]; exact p1)
    (by norm_num)).close.mono (by norm_num)

/-- Non-vacuity: a colour and a `powf` meeting all hypotheses. -/
example : UnitCol (⟨FP.ofRat b32 false (1 / 3), FP.ofRat b32 false 1, FP.ofRat b32 false 0.001,
    FP.ofRat b32 false (1 / 2)⟩ : Col F32) :=
  ⟨by decide +kernel, by decide +kernel, by decide +kernel, by decide +kernel⟩

end D10
