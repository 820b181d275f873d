import Verif.Lemmas.Hsl
import Mathlib.Analysis.Convex.SpecificFunctions.Basic

/-!
# The sRGB transfer functions and the XYZ and YUV conversions (C30, C31), in exact arithmetic
-/

namespace D10
open Scalar (isNan)

/-! ## The power function of the transfer curve -/

theorem rpow24_pow5 {a : ℝ} (h : 0 ≤ a) : (a ^ (2.4 : ℝ)) ^ 5 = a ^ 12 := by
  rw [← Real.rpow_natCast, ← Real.rpow_mul h, ← Real.rpow_natCast]
  norm_num

theorem lt_rpow24 {a b : ℝ} (ha : 0 ≤ a) (h : b ^ 5 < a ^ 12) : b < a ^ (2.4 : ℝ) := by
  rw [← rpow24_pow5 ha] at h
  exact lt_of_pow_lt_pow_left₀ 5 (Real.rpow_nonneg ha _) h

theorem rpow24_lt {a b : ℝ} (ha : 0 ≤ a) (hb : 0 ≤ b) (h : a ^ 12 < b ^ 5) : a ^ (2.4 : ℝ) < b := by
  rw [← rpow24_pow5 ha] at h
  exact lt_of_pow_lt_pow_left₀ 5 hb h

theorem rpow24_inv {a : ℝ} (h : 0 ≤ a) : (a ^ (2.4 : ℝ)) ^ ((1 : ℝ) / 2.4) = a := by
  rw [← Real.rpow_mul h]; norm_num

theorem rpow24_inv' {a : ℝ} (h : 0 ≤ a) : (a ^ ((1 : ℝ) / 2.4)) ^ (2.4 : ℝ) = a := by
  rw [← Real.rpow_mul h]; norm_num

/-- The curve is not steeper than 2.4 on [0, 1]. -/
theorem rpow24_lipschitz {a b : ℝ} (hb : 0 ≤ b) (hab : b ≤ a) (ha : a ≤ 1) :
    a ^ (2.4 : ℝ) - b ^ (2.4 : ℝ) ≤ 2.4 * (a - b) := by
  rcases lt_or_eq_of_le (le_trans hb hab) with h0 | h0
  · have bern := one_add_mul_self_le_rpow_one_add (s := b / a - 1) (p := 2.4)
      (by have := div_nonneg hb h0.le; linarith) (by norm_num)
    rw [show 1 + (b / a - 1) = b / a by ring, Real.div_rpow hb h0.le] at bern
    have hp : 0 < a ^ (2.4 : ℝ) := Real.rpow_pos_of_pos h0 _
    rw [le_div_iff₀ hp] at bern
    have hle : a ^ (2.4 : ℝ) ≤ a := by
      have := Real.rpow_le_rpow_of_exponent_ge h0 ha (show (1 : ℝ) ≤ 2.4 by norm_num)
      rwa [Real.rpow_one] at this
    have e : (1 - b / a) * a = a - b := by field_simp
    have nn : 0 ≤ 1 - b / a := by rw [sub_nonneg, div_le_one h0]; exact hab
    nlinarith [mul_le_mul_of_nonneg_left hle nn]
  · have : a = 0 := h0.symm
    have : b = 0 := by linarith
    subst this; subst h0; simp

section
variable [Junk]

/-! ## The two functions, as plain formulas -/

theorem Exact.g2l_low {v : ℝ} (h : v ≤ 0.04045) : gamma_to_linear v = v / 12.92 := by
  unfold gamma_to_linear; ex_simp; rw [if_neg (not_lt.2 h)]

theorem Exact.g2l_high {v : ℝ} (h : 0.04045 < v) :
    gamma_to_linear v = ((v + 0.055) / 1.055) ^ (2.4 : ℝ) := by
  have h' := h
  norm_num at h'
  unfold gamma_to_linear; ex_simp
  rw [if_pos h, Exact.powf_pos _ (div_pos (by linarith) (by norm_num))]

theorem Exact.l2g_low {v : ℝ} (h : v ≤ 0.003130805) : linear_to_gamma v = 12.92 * v := by
  unfold linear_to_gamma; ex_simp; rw [if_neg (not_lt.2 h)]

theorem Exact.l2g_high {v : ℝ} (h : 0.003130805 < v) :
    linear_to_gamma v = 1.055 * v ^ ((1 : ℝ) / 2.4) - 0.055 := by
  have h' := h
  norm_num at h'
  unfold linear_to_gamma; ex_simp
  rw [if_pos h, Exact.powf_pos _ (by linarith)]

omit [Junk] in
theorem base_bounds : (0.003130805 : ℝ) < (0.09545 / 1.055 : ℝ) ^ (2.4 : ℝ) ∧
    (0.09545 / 1.055 : ℝ) ^ (2.4 : ℝ) < 0.003131 :=
  ⟨lt_rpow24 (by norm_num) (by norm_num),
    rpow24_lt (by norm_num) (by norm_num) (by norm_num)⟩

/-! ## C30 -/

/-- C30: both transfer functions fix 0 and 1. -/
theorem C30_end_points : gamma_to_linear (0 : ℝ) = 0 ∧ gamma_to_linear (1 : ℝ) = 1 ∧
    linear_to_gamma (0 : ℝ) = 0 ∧ linear_to_gamma (1 : ℝ) = 1 := by
  refine ⟨?_, ?_, ?_, ?_⟩
  · rw [Exact.g2l_low (by norm_num)]; norm_num
  · rw [Exact.g2l_high (by norm_num)]
    rw [show ((1 : ℝ) + 0.055) / 1.055 = 1 by norm_num, Real.one_rpow]
  · rw [Exact.l2g_low (by norm_num)]; norm_num
  · rw [Exact.l2g_high (by norm_num), Real.one_rpow]; norm_num

/-- C30: `gamma_to_linear` is strictly increasing, also across its break. -/
theorem C30_strictly_monotone (v w : ℝ) (h : v < w) : gamma_to_linear v < gamma_to_linear w := by
  obtain ⟨b1, b2⟩ := base_bounds
  by_cases hv : v ≤ 0.04045
  · rw [Exact.g2l_low hv]
    by_cases hw : w ≤ 0.04045
    · rw [Exact.g2l_low hw]
      exact div_lt_div_of_pos_right h (by norm_num)
    · have hw := not_le.1 hw
      rw [Exact.g2l_high hw]
      have m : (0.09545 / 1.055 : ℝ) ^ (2.4 : ℝ) ≤ ((w + 0.055) / 1.055) ^ (2.4 : ℝ) := by
        apply Real.rpow_le_rpow (by norm_num) _ (by norm_num)
        apply div_le_div_of_nonneg_right _ (by norm_num)
        norm_num at hw ⊢; linarith
      have : v / 12.92 ≤ 0.04045 / 12.92 := div_le_div_of_nonneg_right hv (by norm_num)
      have : (0.04045 / 12.92 : ℝ) < 0.003130805 := by norm_num
      linarith
  · have hv := not_le.1 hv
    rw [Exact.g2l_high hv, Exact.g2l_high (lt_trans hv h)]
    norm_num at hv
    apply Real.rpow_lt_rpow (div_nonneg (by linarith) (by norm_num)) _ (by norm_num)
    exact div_lt_div_of_pos_right (by linarith) (by norm_num)

/-- C30: `gamma_to_linear` maps [0, 1] into [0, 1]. -/
theorem C30_range (v : ℝ) (h0 : 0 ≤ v) (h1 : v ≤ 1) :
    0 ≤ gamma_to_linear v ∧ gamma_to_linear v ≤ 1 := by
  obtain ⟨e0, e1, _⟩ := C30_end_points
  constructor
  · rcases lt_or_eq_of_le h0 with h | h
    · have := C30_strictly_monotone 0 v h; linarith
    · rw [← h, e0]
  · rcases lt_or_eq_of_le h1 with h | h
    · have := C30_strictly_monotone v 1 h; linarith
    · rw [h, e1]

/-- C30: converting to linear light and back is the identity, for every value (also outside
[0, 1]). -/
theorem C30_round_trip (v : ℝ) : linear_to_gamma (gamma_to_linear v) = v := by
  obtain ⟨b1, b2⟩ := base_bounds
  by_cases hv : v ≤ 0.04045
  · rw [Exact.g2l_low hv, Exact.l2g_low]
    · ring
    · have : v / 12.92 ≤ 0.04045 / 12.92 := div_le_div_of_nonneg_right hv (by norm_num)
      refine le_trans this (by norm_num)
  · have hv := not_le.1 hv
    have hv' := hv
    norm_num at hv'
    rw [Exact.g2l_high hv, Exact.l2g_high, rpow24_inv (div_nonneg (by linarith) (by norm_num))]
    · ring
    · refine lt_of_lt_of_le b1 (Real.rpow_le_rpow (by norm_num) ?_ (by norm_num))
      apply div_le_div_of_nonneg_right _ (by norm_num)
      norm_num; linarith

/-- C30: the other order is within EPSILON / 2 for every non-negative value, and exact outside a
tiny interval around the break. -/
theorem C30_round_trip_linear (x : ℝ) (h0 : 0 ≤ x) :
    |gamma_to_linear (linear_to_gamma x) - x| ≤ 1 / 65536 ∧
    (x ≤ 0.00313 ∨ 0.003131 ≤ x → gamma_to_linear (linear_to_gamma x) = x) := by
  obtain ⟨b1, b2⟩ := base_bounds
  by_cases hx : x ≤ 0.003130805
  · rw [Exact.l2g_low hx]
    by_cases hy : 12.92 * x ≤ 0.04045
    · rw [Exact.g2l_low hy, show (12.92 : ℝ) * x / 12.92 = x by ring, sub_self, abs_zero]
      exact ⟨by norm_num, fun _ => rfl⟩
    · have hy := not_le.1 hy
      rw [Exact.g2l_high hy]
      have hlow : (0.09545 / 1.055 : ℝ) ^ (2.4 : ℝ) ≤ ((12.92 * x + 0.055) / 1.055) ^ (2.4 : ℝ) := by
        apply Real.rpow_le_rpow (by norm_num) _ (by norm_num)
        apply div_le_div_of_nonneg_right _ (by norm_num)
        norm_num at hy ⊢; linarith
      have hup : ((12.92 * x + 0.055) / 1.055) ^ (2.4 : ℝ) ≤ (0.09546 / 1.055 : ℝ) ^ (2.4 : ℝ) := by
        apply Real.rpow_le_rpow (div_nonneg (by linarith) (by norm_num)) _ (by norm_num)
        apply div_le_div_of_nonneg_right _ (by norm_num)
        norm_num at hx ⊢; linarith
      have hup2 : (0.09546 / 1.055 : ℝ) ^ (2.4 : ℝ) < 0.003132 :=
        rpow24_lt (by norm_num) (by norm_num) (by norm_num)
      norm_num at hx hy hlow hup hup2 b1 b2 ⊢
      refine ⟨by rw [abs_le]; constructor <;> linarith, fun h => ?_⟩
      rcases h with h | h <;> linarith
  · have hx := not_le.1 hx
    rw [Exact.l2g_high hx]
    have ht : (0.0904 : ℝ) < x ^ ((1 : ℝ) / 2.4) := by
      by_contra hc
      have hc := not_lt.1 hc
      have := Real.rpow_le_rpow (Real.rpow_nonneg h0 _) hc (show (0 : ℝ) ≤ 2.4 by norm_num)
      rw [rpow24_inv' h0] at this
      have h2 : (0.0904 : ℝ) ^ (2.4 : ℝ) < 0.003130805 :=
        rpow24_lt (by norm_num) (by norm_num) (by norm_num)
      linarith
    by_cases hy : 1.055 * x ^ ((1 : ℝ) / 2.4) - 0.055 ≤ 0.04045
    · rw [Exact.g2l_low hy]
      have hle : x ^ ((1 : ℝ) / 2.4) ≤ 0.09545 / 1.055 := by
        rw [le_div_iff₀ (by norm_num)]; norm_num at hy ⊢; linarith
      have hxu : x ≤ (0.09545 / 1.055 : ℝ) ^ (2.4 : ℝ) := by
        have := Real.rpow_le_rpow (Real.rpow_nonneg h0 _) hle (show (0 : ℝ) ≤ 2.4 by norm_num)
        rwa [rpow24_inv' h0] at this
      norm_num at hx hy hle hxu b1 b2 ht ⊢
      refine ⟨by rw [abs_le]; constructor <;> linarith, fun h => ?_⟩
      rcases h with h | h <;> linarith
    · have hy := not_le.1 hy
      rw [Exact.g2l_high hy, sub_add_cancel, mul_div_cancel_left₀ _ (by norm_num), rpow24_inv' h0,
        sub_self, abs_zero]
      exact ⟨by norm_num, fun _ => rfl⟩

/-- C30, colours: an in-range sRGB colour comes back from linear RGB exactly; an in-range RGB colour
comes back from sRGB as an equal (`==`) colour. -/
theorem C30_colours (c : Col ℝ) (h : Spec.Unit c) :
    to_srgb .rgb (to_rgb .srgb c) = c ∧ Col.eq (to_rgb .srgb (to_srgb .rgb c)) c = true := by
  have l2g_range : ∀ x : ℝ, 0 ≤ x → x ≤ 1 → 0 ≤ linear_to_gamma x ∧ linear_to_gamma x ≤ 1 := by
    intro x h0 h1
    by_cases hx : x ≤ 0.003130805
    · rw [Exact.l2g_low hx]; norm_num at hx ⊢; constructor <;> linarith
    · have hx := not_le.1 hx
      rw [Exact.l2g_high hx]
      have hu : x ^ ((1 : ℝ) / 2.4) ≤ 1 := Real.rpow_le_one h0 h1 (by norm_num)
      have hl : (0.0904 : ℝ) < x ^ ((1 : ℝ) / 2.4) := by
        by_contra hc
        have hc := not_lt.1 hc
        have := Real.rpow_le_rpow (Real.rpow_nonneg h0 _) hc (show (0 : ℝ) ≤ 2.4 by norm_num)
        rw [rpow24_inv' h0] at this
        have h2 : (0.0904 : ℝ) ^ (2.4 : ℝ) < 0.003130805 :=
          rpow24_lt (by norm_num) (by norm_num) (by norm_num)
        linarith
      norm_num at hu hl ⊢
      constructor <;> linarith
  constructor
  · show Rgb.to_srgb (Srgb.to_rgb c) = c
    have id1 : ∀ v : ℝ, 0 ≤ v → v ≤ 1 → clamp01 (gamma_to_linear v) = gamma_to_linear v :=
      fun v h0 h1 => Exact.clamp01_id (C30_range v h0 h1).1 (C30_range v h0 h1).2
    unfold Rgb.to_srgb Srgb.to_rgb Srgb.new_with_alpha Rgb.new_with_alpha
    simp only
    rw [id1 _ h.r0 h.r1, id1 _ h.g0 h.g1, id1 _ h.b0 h.b1, C30_round_trip, C30_round_trip,
      C30_round_trip, Exact.clamp01_id h.r0 h.r1, Exact.clamp01_id h.g0 h.g1,
      Exact.clamp01_id h.b0 h.b1, Exact.clamp01_id h.a0 h.a1, Exact.clamp01_id h.a0 h.a1]
  · show Col.eq (Srgb.to_rgb (Rgb.to_srgb c)) c = true
    have key : ∀ x : ℝ, 0 ≤ x → x ≤ 1 →
        |clamp01 (gamma_to_linear (clamp01 (linear_to_gamma x))) - x| ≤ 1 / 32768 := by
      intro x h0 h1
      obtain ⟨l0, l1⟩ := l2g_range x h0 h1
      obtain ⟨g0, g1⟩ := C30_range _ l0 l1
      rw [Exact.clamp01_id l0 l1, Exact.clamp01_id g0 g1]
      exact le_trans (C30_round_trip_linear x h0).1 (by norm_num)
    rw [Exact.col_eq]
    refine ⟨key _ h.r0 h.r1, key _ h.g0 h.g1, key _ h.b0 h.b1, ?_⟩
    show |clamp01 (clamp01 c.alpha) - c.alpha| ≤ _
    rw [Exact.clamp01_id h.a0 h.a1, Exact.clamp01_id h.a0 h.a1, sub_self, abs_zero]; norm_num

/-! ## C31 -/

theorem clamp01_near {x y e : ℝ} (h0 : 0 ≤ y) (h1 : y ≤ 1) (h : |x - y| ≤ e) :
    |clamp01 x - y| ≤ e := by
  rw [Exact.clamp01]
  rw [abs_le] at *
  rcases le_total 1 x with c | c
  · rw [min_eq_left c, max_eq_right zero_le_one]; constructor <;> linarith
  · rw [min_eq_right c]
    rcases le_total 0 x with d | d
    · rw [max_eq_right d]; exact h
    · rw [max_eq_left d]; constructor <;> linarith

/-- C31: RGB to XYZ and back gives an equal colour, with every channel within 2 * 10^-6 and the same
alpha. -/
theorem C31_xyz_round_trip (c : Col ℝ) (h : Spec.Unit c) :
    Col.eq (to_rgb .xyz (to_xyz .rgb c)) c = true ∧
    |(to_rgb .xyz (to_xyz .rgb c)).c0 - c.c0| ≤ 2 / 1000000 ∧
    |(to_rgb .xyz (to_xyz .rgb c)).c1 - c.c1| ≤ 2 / 1000000 ∧
    |(to_rgb .xyz (to_xyz .rgb c)).c2 - c.c2| ≤ 2 / 1000000 ∧
    (to_rgb .xyz (to_xyz .rgb c)).alpha = c.alpha := by
  obtain ⟨r0, r1, g0, g1, b0, b1, a0, a1⟩ := h
  have e0 : |(to_rgb .xyz (to_xyz .rgb c)).c0 - c.c0| ≤ 2 / 1000000 := by
    show |clamp01 _ - c.c0| ≤ _
    apply clamp01_near r0 r1
    simp only [to_xyz, to_rgb, Rgb.to_xyz, apply_matrix]
    ex_simp
    norm_num
    rw [abs_le]; constructor <;> linarith
  have e1 : |(to_rgb .xyz (to_xyz .rgb c)).c1 - c.c1| ≤ 2 / 1000000 := by
    show |clamp01 _ - c.c1| ≤ _
    apply clamp01_near g0 g1
    simp only [to_xyz, to_rgb, Rgb.to_xyz, apply_matrix]
    ex_simp
    norm_num
    rw [abs_le]; constructor <;> linarith
  have e2 : |(to_rgb .xyz (to_xyz .rgb c)).c2 - c.c2| ≤ 2 / 1000000 := by
    show |clamp01 _ - c.c2| ≤ _
    apply clamp01_near b0 b1
    simp only [to_xyz, to_rgb, Rgb.to_xyz, apply_matrix]
    ex_simp
    norm_num
    rw [abs_le]; constructor <;> linarith
  have e3 : (to_rgb .xyz (to_xyz .rgb c)).alpha = c.alpha := rfl
  refine ⟨?_, e0, e1, e2, e3⟩
  rw [Exact.col_eq, e3, sub_self, abs_zero]
  exact ⟨le_trans e0 (by norm_num), le_trans e1 (by norm_num), le_trans e2 (by norm_num),
    by norm_num⟩

/-- The YUV matrices are inverse to each other up to 10^-7. -/
theorem yuv_matrix (c : Col ℝ) (h : Spec.Unit c) :
    ∃ r g b, Yuv.to_rgb (Srgb.to_yuv c) = Srgb.to_rgb ⟨r, g, b, c.alpha⟩ ∧
      |r - c.c0| ≤ 1 / 10000000 ∧ |g - c.c1| ≤ 1 / 10000000 ∧ |b - c.c2| ≤ 1 / 10000000 := by
  obtain ⟨r0, r1, g0, g1, b0, b1, a0, a1⟩ := h
  refine ⟨_, _, _, rfl, ?_, ?_, ?_⟩
  all_goals
    simp only [Srgb.to_yuv, apply_matrix]
    ex_simp
    norm_num
    rw [abs_le]; constructor <;> linarith

/-- Converting to linear light, clamping and back, is clamping. -/
theorem g2l_clamp_l2g (x : ℝ) :
    linear_to_gamma (clamp01 (gamma_to_linear x)) = clamp01 x := by
  obtain ⟨e0, e1, f0, f1⟩ := C30_end_points
  rw [Exact.clamp01, Exact.clamp01]
  rcases le_total x 0 with h | h
  · have : gamma_to_linear x ≤ 0 := by
      rcases lt_or_eq_of_le h with h | h
      · have := C30_strictly_monotone x 0 h; linarith
      · rw [h, e0]
    rw [min_eq_right (by linarith), max_eq_left this, min_eq_right (by linarith), max_eq_left h, f0]
  · rcases le_total x 1 with h' | h'
    · obtain ⟨a, b⟩ := C30_range x h h'
      rw [min_eq_right b, max_eq_right a, min_eq_right h', max_eq_right h, C30_round_trip]
    · have : 1 ≤ gamma_to_linear x := by
        rcases lt_or_eq_of_le h' with h | h
        · have := C30_strictly_monotone 1 x h; linarith
        · rw [← h, e1]
      rw [min_eq_left this, max_eq_right zero_le_one, min_eq_left h', max_eq_right zero_le_one, f1]

/-- C31: sRGB to YUV and back gives an equal colour, with every channel within 10^-7 and the same
alpha. -/
theorem C31_yuv_round_trip (c : Col ℝ) (h : Spec.Unit c) :
    Col.eq (to_srgb .yuv (to_yuv .srgb c)) c = true ∧
    |(to_srgb .yuv (to_yuv .srgb c)).c0 - c.c0| ≤ 1 / 10000000 ∧
    |(to_srgb .yuv (to_yuv .srgb c)).c1 - c.c1| ≤ 1 / 10000000 ∧
    |(to_srgb .yuv (to_yuv .srgb c)).c2 - c.c2| ≤ 1 / 10000000 ∧
    (to_srgb .yuv (to_yuv .srgb c)).alpha = c.alpha := by
  obtain ⟨r, g, b, e, hr, hg, hb⟩ := yuv_matrix c h
  have hcl : ∀ x : ℝ, clamp01 (clamp01 x) = clamp01 x := by
    intro x
    exact Exact.clamp01_id (by rw [Exact.clamp01]; exact le_max_left _ _)
      (by rw [Exact.clamp01]; exact max_le zero_le_one (min_le_left _ _))
  have e' : to_srgb .yuv (to_yuv .srgb c) = ⟨clamp01 r, clamp01 g, clamp01 b, c.alpha⟩ := by
    show Rgb.to_srgb (Yuv.to_rgb (Srgb.to_yuv c)) = _
    rw [e]
    simp only [Rgb.to_srgb, Srgb.to_rgb, Srgb.new_with_alpha, Rgb.new_with_alpha, g2l_clamp_l2g, hcl,
      Exact.clamp01_id h.a0 h.a1]
  rw [e']
  have n0 := clamp01_near h.r0 h.r1 hr
  have n1 := clamp01_near h.g0 h.g1 hg
  have n2 := clamp01_near h.b0 h.b1 hb
  refine ⟨?_, n0, n1, n2, rfl⟩
  rw [Exact.col_eq, sub_self, abs_zero]
  exact ⟨le_trans n0 (by norm_num), le_trans n1 (by norm_num), le_trans n2 (by norm_num), by norm_num⟩

theorem g2l_near {s x : ℝ} (hs : 0 ≤ s) (hx1 : x ≤ 1) (hsx : s ≤ x) (hd : x - s ≤ 1 / 10000000) :
    gamma_to_linear x - gamma_to_linear s ≤ 2 / 1000000 := by
  by_cases hx : x ≤ 0.04045
  · rw [Exact.g2l_low hx, Exact.g2l_low (le_trans hsx hx)]; norm_num; linarith
  · have hx := not_le.1 hx
    rw [Exact.g2l_high hx]
    by_cases hs' : s ≤ 0.04045
    · rw [Exact.g2l_low hs']
      have hup : ((x + 0.055) / 1.055) ^ (2.4 : ℝ) ≤ (0.09546 / 1.055 : ℝ) ^ (2.4 : ℝ) := by
        apply Real.rpow_le_rpow (div_nonneg (by linarith) (by norm_num)) _ (by norm_num)
        apply div_le_div_of_nonneg_right _ (by norm_num)
        norm_num at hs' ⊢; linarith
      have hup2 : (0.09546 / 1.055 : ℝ) ^ (2.4 : ℝ) < 0.0031318 :=
        rpow24_lt (by norm_num) (by norm_num) (by norm_num)
      norm_num at hx hs' hup hup2 ⊢
      linarith
    · have hs' := not_le.1 hs'
      rw [Exact.g2l_high hs']
      have := rpow24_lipschitz (a := (x + 0.055) / 1.055) (b := (s + 0.055) / 1.055)
        (div_nonneg (by linarith) (by norm_num))
        (div_le_div_of_nonneg_right (by linarith) (by norm_num))
        (by rw [div_le_one (by norm_num)]; linarith)
      norm_num at this ⊢
      linarith

/-- C31: a linear RGB colour converted to YUV and back is equal too. -/
theorem C31_yuv_round_trip_rgb (c : Col ℝ) (h : Spec.Unit c) :
    Col.eq (to_rgb .yuv (to_yuv .rgb c)) c = true := by
  obtain ⟨e0, e1, f0, f1⟩ := C30_end_points
  have hu : Spec.Unit (Rgb.to_srgb c) := by
    have r : ∀ x : ℝ, 0 ≤ clamp01 x ∧ clamp01 x ≤ 1 := fun x => by
      rw [Exact.clamp01]; exact ⟨le_max_left _ _, max_le zero_le_one (min_le_left _ _)⟩
    exact ⟨(r _).1, (r _).2, (r _).1, (r _).2, (r _).1, (r _).2, (r _).1, (r _).2⟩
  obtain ⟨r, g, b, e, hr, hg, hb⟩ := yuv_matrix _ hu
  have back := (C30_colours c h).2
  rw [Exact.col_eq] at back
  have key : ∀ x s v : ℝ, 0 ≤ s → s ≤ 1 → |x - s| ≤ 1 / 10000000 → 0 ≤ v → v ≤ 1 →
      s = clamp01 (linear_to_gamma v) → |clamp01 (gamma_to_linear x) - v| ≤ 1 / 32768 := by
    intro x s v hs0 hs1 hxs hv0 hv1 hsv
    have hc : clamp01 (gamma_to_linear x) = gamma_to_linear (clamp01 x) := by
      rw [Exact.clamp01, Exact.clamp01]
      rcases le_total x 0 with h | h
      · have : gamma_to_linear x ≤ 0 := by
          rcases lt_or_eq_of_le h with h | h
          · have := C30_strictly_monotone x 0 h; linarith
          · rw [h, e0]
        rw [min_eq_right (by linarith), max_eq_left this, min_eq_right (by linarith), max_eq_left h,
          e0]
      · rcases le_total x 1 with h' | h'
        · obtain ⟨a, b⟩ := C30_range x h h'
          rw [min_eq_right b, max_eq_right a, min_eq_right h', max_eq_right h]
        · have : 1 ≤ gamma_to_linear x := by
            rcases lt_or_eq_of_le h' with h | h
            · have := C30_strictly_monotone 1 x h; linarith
            · rw [← h, e1]
          rw [min_eq_left this, max_eq_right zero_le_one, min_eq_left h', max_eq_right zero_le_one,
            e1]
    rw [hc]
    have hn := clamp01_near hs0 hs1 hxs
    have c0 : 0 ≤ clamp01 x := by rw [Exact.clamp01]; exact le_max_left _ _
    have c1 : clamp01 x ≤ 1 := by rw [Exact.clamp01]; exact max_le zero_le_one (min_le_left _ _)
    have hl : |gamma_to_linear s - v| ≤ 1 / 65536 := by
      have a := (C30_round_trip_linear v hv0).1
      have : gamma_to_linear s = clamp01 (gamma_to_linear (linear_to_gamma v)) := by
        by_cases h1 : linear_to_gamma v ≤ 1
        · by_cases h0 : 0 ≤ linear_to_gamma v
          · rw [hsv, Exact.clamp01_id h0 h1,
              Exact.clamp01_id (C30_range _ h0 h1).1 (C30_range _ h0 h1).2]
          · have h0 := not_le.1 h0
            have := C30_strictly_monotone _ 0 h0
            rw [hsv, Exact.clamp01, Exact.clamp01, min_eq_right h1, max_eq_left h0.le, e0,
              min_eq_right (by linarith), max_eq_left (by linarith)]
        · have h1 := not_le.1 h1
          have := C30_strictly_monotone 1 _ h1
          rw [hsv, Exact.clamp01, Exact.clamp01, min_eq_left h1.le, max_eq_right zero_le_one, e1,
            min_eq_left (by linarith), max_eq_right zero_le_one]
      rw [this]
      exact clamp01_near hv0 hv1 a
    have hd : |gamma_to_linear (clamp01 x) - gamma_to_linear s| ≤ 2 / 1000000 := by
      rw [abs_le] at hn
      rcases le_total s (clamp01 x) with hle | hle
      · have a := g2l_near hs0 c1 hle (by linarith)
        have m : gamma_to_linear s ≤ gamma_to_linear (clamp01 x) := by
          rcases lt_or_eq_of_le hle with h | h
          · exact (C30_strictly_monotone _ _ h).le
          · rw [← h]
        rw [abs_le]; constructor <;> linarith
      · have a := g2l_near c0 hs1 hle (by linarith)
        have m : gamma_to_linear (clamp01 x) ≤ gamma_to_linear s := by
          rcases lt_or_eq_of_le hle with h | h
          · exact (C30_strictly_monotone _ _ h).le
          · rw [h]
        rw [abs_le]; constructor <;> linarith
    rw [abs_le] at *
    constructor <;> linarith
  show Col.eq (Yuv.to_rgb (Srgb.to_yuv (Rgb.to_srgb c))) c = true
  rw [e, Exact.col_eq]
  refine ⟨key r _ _ hu.r0 hu.r1 hr h.r0 h.r1 rfl, key g _ _ hu.g0 hu.g1 hg h.g0 h.g1 rfl,
    key b _ _ hu.b0 hu.b1 hb h.b0 h.b1 rfl, ?_⟩
  show |clamp01 (clamp01 c.alpha) - c.alpha| ≤ _
  rw [Exact.clamp01_id h.a0 h.a1, Exact.clamp01_id h.a0 h.a1, sub_self, abs_zero]; norm_num

/-- Non-vacuity. -/
example : Spec.Unit (⟨1, 1 / 2, 1 / 10, 1 / 2⟩ : Col ℝ) := by constructor <;> norm_num

end
end D10
