import Verif.SpecLab
import Verif.Props.Srgb

/-!
# Lab and LCh (C72), in exact arithmetic
-/

namespace D10
open Spec

variable [Junk]

theorem labFunc_eq (t : ℝ) : labFunc t = cieCurve t := by
  unfold labFunc cieCurve
  have e : ((t <. lit 0.008856) = true) ↔ t < 0.008856 := by rw [Exact.lt]; ex_simp
  by_cases h : t < 0.008856
  · rw [if_pos h, if_pos (e.2 h)]; ex_simp
  · rw [if_neg h, if_neg (mt e.1 h), Exact.powf_pos _ (by linarith)]
    ex_simp

theorem labInvFunc_eq (u : ℝ) : labInvFunc u = cieCurveInv u := by
  unfold labInvFunc cieCurveInv
  have e : ((lit 0.20689303 <. u) = true) ↔ 0.20689303 < u := by rw [Exact.lt]; ex_simp
  by_cases h : 0.20689303 < u
  · rw [if_pos h, if_pos (e.2 h), Exact.powf_pos _ (by linarith)]
    ex_simp
    exact_mod_cast Real.rpow_natCast u 3
  · rw [if_neg h, if_neg (mt e.1 h)]; ex_simp

theorem get_refs_eq (i : Illuminant) (o : Observer) : get_refs i o = whitePoint i o := by
  cases i <;> cases o <;> (unfold get_refs whitePoint; ex_simp)

omit [Junk] in
theorem whitePoint_pos (i : Illuminant) (o : Observer) :
    (0.8 ≤ (whitePoint i o).1 ∧ (whitePoint i o).1 ≤ 1.1) ∧ (whitePoint i o).2.1 = 1 ∧
    (0.8 ≤ (whitePoint i o).2.2 ∧ (whitePoint i o).2.2 ≤ 1.1) := by
  cases i <;> cases o <;> (unfold whitePoint; norm_num)

/-- C72: the conversion from XYZ is the CIE formula with the white point of the colour type. -/
theorem C72_xyz_to_lab (i : Illuminant) (o : Observer) (c : Col ℝ) :
    to_lab i o .xyz c = cieLab (whitePoint i o) c := by
  obtain ⟨⟨h1, -⟩, h2, h3, -⟩ := whitePoint_pos i o
  show Xyz.to_lab i o c = _
  unfold Xyz.to_lab cieLab
  simp only [labFunc_eq, get_refs_eq]
  have d1 := Exact.div (a := c.c0) (b := (whitePoint i o).1) (by linarith)
  have d2 := Exact.div (a := c.c1) (b := (whitePoint i o).2.1) (by linarith)
  have d3 := Exact.div (a := c.c2) (b := (whitePoint i o).2.2) (by linarith)
  rw [d1, d2, d3]
  ex_simp

/-- C72: and back. -/
theorem C72_lab_to_xyz (i : Illuminant) (o : Observer) (c : Col ℝ) :
    to_xyz (.lab i o) c = cieXyz (whitePoint i o) c := by
  show Lab.to_xyz i o c = _
  unfold Lab.to_xyz cieXyz
  simp only [labInvFunc_eq, get_refs_eq]
  ex_simp
  congr 1 <;> rw [mul_comm] <;> congr 2 <;> ring

/-- C72: every other colour type is converted by way of XYZ. -/
theorem C72_lab_by_xyz (i : Illuminant) (o : Observer) (s : Space) (c : Col ℝ) :
    to_lab i o s c = cieLab (whitePoint i o) (to_xyz s c) ∧
    to_rgb (.lab i o) c = to_rgb .xyz (cieXyz (whitePoint i o) c) :=
  ⟨C72_xyz_to_lab i o (to_xyz s c), congrArg Xyz.to_rgb (C72_lab_to_xyz i o c)⟩

/-- C72: the white point has lightness 1 and no colour, black has lightness 0. -/
theorem C72_white (i : Illuminant) (o : Observer) (a : ℝ) :
    to_lab i o .xyz ⟨(whitePoint i o).1, (whitePoint i o).2.1, (whitePoint i o).2.2, a⟩
      = ⟨1, 0, 0, a⟩ ∧
    to_lab i o .xyz ⟨0, 0, 0, a⟩ = ⟨0, 0, 0, a⟩ := by
  obtain ⟨⟨h1, -⟩, h2, h3, -⟩ := whitePoint_pos i o
  have c1 : cieCurve 1 = 1 := by
    unfold cieCurve; rw [if_neg (by norm_num), Real.one_rpow]
  have c0 : cieCurve 0 = 16 / 116 := by
    unfold cieCurve; rw [if_pos (by norm_num)]; norm_num
  rw [C72_xyz_to_lab, C72_xyz_to_lab]
  unfold cieLab
  simp only [zero_div]
  rw [div_self (by linarith), div_self (by linarith), div_self (by linarith), c1, c0]
  norm_num

omit [Junk] in
/-- The curve and its inverse, for numbers that are not negative. -/
theorem curve_round_trip {t : ℝ} (h : 0 ≤ t) :
    0 ≤ cieCurveInv (cieCurve t) ∧ |cieCurveInv (cieCurve t) - t| ≤ 1 / 10000000 := by
  unfold cieCurveInv cieCurve
  by_cases h1 : t < 0.008856
  · rw [if_pos h1]
    by_cases h2 : 0.20689303 < (903.3 * t + 16) / 116
    · rw [if_pos h2]
      have l : 0.008855963 < t := by
        rw [lt_div_iff₀ (by norm_num)] at h2; linarith
      have l' : (903.3 * t + 16) / 116 ≤ 0.20689332 := by
        rw [div_le_iff₀ (by norm_num)]; linarith
      have u1 : ((903.3 * t + 16) / 116) ^ 3 ≤ 0.20689332 ^ 3 :=
        pow_le_pow_left₀ (by linarith) l' 3
      have u2 : (0.20689303 : ℝ) ^ 3 ≤ ((903.3 * t + 16) / 116) ^ 3 :=
        pow_le_pow_left₀ (by norm_num) h2.le 3
      refine ⟨by positivity, ?_⟩
      norm_num at u1 u2
      rw [abs_le]; constructor <;> linarith
    · rw [if_neg h2]
      refine ⟨?_, ?_⟩
      · rw [le_div_iff₀ (by norm_num)]; linarith
      · rw [abs_le]
        constructor
        · rw [le_sub_iff_add_le, le_div_iff₀ (by norm_num)]; linarith
        · rw [sub_le_iff_le_add, div_le_iff₀ (by norm_num)]; linarith
  · rw [if_neg h1]
    rw [_root_.not_lt] at h1
    have h3 : (t ^ (1 / 3 : ℝ)) ^ 3 = t := by
      rw [← Real.rpow_natCast, ← Real.rpow_mul h]; norm_num
    have hp : 0 ≤ t ^ (1 / 3 : ℝ) := Real.rpow_nonneg h _
    by_cases h2 : 0.20689303 < t ^ (1 / 3 : ℝ)
    · rw [if_pos h2, h3]; simp [h]
    · rw [if_neg h2]
      rw [_root_.not_lt] at h2
      have u1 : t ≤ 0.20689303 ^ 3 := by
        rw [← h3]; exact pow_le_pow_left₀ hp h2 3
      norm_num at u1 h1
      linarith

/-- C72: XYZ colours without negative channels converted to Lab and back: no channel is negative
and the difference is at most 1.1 · 10^-7. -/
theorem C72_xyz_round_trip (i : Illuminant) (o : Observer) (c : Col ℝ)
    (h0 : 0 ≤ c.c0) (h1 : 0 ≤ c.c1) (h2 : 0 ≤ c.c2) :
    let d := to_xyz (.lab i o) (to_lab i o .xyz c)
    (0 ≤ d.c0 ∧ 0 ≤ d.c1 ∧ 0 ≤ d.c2 ∧ d.alpha = c.alpha) ∧
    |d.c0 - c.c0| ≤ 1.1 / 10000000 ∧ |d.c1 - c.c1| ≤ 1.1 / 10000000 ∧
    |d.c2 - c.c2| ≤ 1.1 / 10000000 := by
  obtain ⟨⟨w1, w2⟩, w3, w4, w5⟩ := whitePoint_pos i o
  intro d
  have e : d = cieXyz (whitePoint i o) (cieLab (whitePoint i o) c) := by
    show to_xyz _ _ = _
    rw [C72_lab_to_xyz, C72_xyz_to_lab]
  set wp := whitePoint i o with hwp
  have key : ∀ (w v : ℝ), 0.8 ≤ w → w ≤ 1.1 → 0 ≤ v →
      0 ≤ w * cieCurveInv (cieCurve (v / w)) ∧
      |w * cieCurveInv (cieCurve (v / w)) - v| ≤ 1.1 / 10000000 := by
    intro w v hw hw' hv
    obtain ⟨p, q⟩ := curve_round_trip (t := v / w) (div_nonneg hv (by linarith))
    refine ⟨mul_nonneg (by linarith) p, ?_⟩
    have : w * cieCurveInv (cieCurve (v / w)) - v = w * (cieCurveInv (cieCurve (v / w)) - v / w) := by
      rw [mul_sub, mul_div_cancel₀ _ (by linarith)]
    rw [this, abs_mul, abs_of_nonneg (by linarith : (0 : ℝ) ≤ w)]
    calc w * |cieCurveInv (cieCurve (v / w)) - v / w| ≤ 1.1 * (1 / 10000000) :=
          mul_le_mul hw' q (abs_nonneg _) (by norm_num)
      _ = _ := by norm_num
  have d0 : d.c0 = wp.1 * cieCurveInv (cieCurve (c.c0 / wp.1)) := by
    rw [e]; unfold cieXyz cieLab; simp only []; congr 2; ring
  have d1 : d.c1 = wp.2.1 * cieCurveInv (cieCurve (c.c1 / wp.2.1)) := by
    rw [e]; unfold cieXyz cieLab; simp only []; congr 2; ring
  have d2 : d.c2 = wp.2.2 * cieCurveInv (cieCurve (c.c2 / wp.2.2)) := by
    rw [e]; unfold cieXyz cieLab; simp only []; congr 2; ring
  have da : d.alpha = c.alpha := by rw [e]; rfl
  rw [d0, d1, d2, da]
  have k0 := key wp.1 c.c0 w1 w2 h0
  have k1 := key wp.2.1 c.c1 (by rw [w3]; norm_num) (by rw [w3]; norm_num) h1
  have k2 := key wp.2.2 c.c2 w4 w5 h2
  exact ⟨⟨k0.1, k1.1, k2.1, rfl⟩, k0.2, k1.2, k2.2⟩

/-- XYZ values near those of an RGB colour give an RGB colour near it. -/
theorem rgb_of_near_xyz (c d : Col ℝ) (h : Spec.Unit c)
    (e0 : |d.c0 - (to_xyz .rgb c).c0| ≤ 2.2 / 10000000)
    (e1 : |d.c1 - (to_xyz .rgb c).c1| ≤ 2.2 / 10000000)
    (e2 : |d.c2 - (to_xyz .rgb c).c2| ≤ 2.2 / 10000000) :
    |(to_rgb .xyz d).c0 - c.c0| ≤ 4 / 1000000 ∧ |(to_rgb .xyz d).c1 - c.c1| ≤ 4 / 1000000 ∧
    |(to_rgb .xyz d).c2 - c.c2| ≤ 4 / 1000000 := by
  obtain ⟨r0, r1, g0, g1, b0, b1, a0, a1⟩ := h
  simp only [to_xyz, to_rgb, Rgb.to_xyz, apply_matrix] at e0 e1 e2
  ex_simp at e0 e1 e2
  norm_num at e0 e1 e2
  rw [abs_le] at e0 e1 e2
  obtain ⟨p0, q0⟩ := e0
  obtain ⟨p1, q1⟩ := e1
  obtain ⟨p2, q2⟩ := e2
  refine ⟨?_, ?_, ?_⟩
  · show |clamp01 _ - c.c0| ≤ _
    apply clamp01_near r0 r1
    ex_simp; norm_num
    rw [abs_le]; constructor <;> linarith
  · show |clamp01 _ - c.c1| ≤ _
    apply clamp01_near g0 g1
    ex_simp; norm_num
    rw [abs_le]; constructor <;> linarith
  · show |clamp01 _ - c.c2| ≤ _
    apply clamp01_near b0 b1
    ex_simp; norm_num
    rw [abs_le]; constructor <;> linarith

theorem xyz_nonneg (c : Col ℝ) (h : Spec.Unit c) :
    (0 ≤ (to_xyz .rgb c).c0 ∧ (to_xyz .rgb c).c0 ≤ 1.1) ∧
    (0 ≤ (to_xyz .rgb c).c1 ∧ (to_xyz .rgb c).c1 ≤ 1.1) ∧
    (0 ≤ (to_xyz .rgb c).c2 ∧ (to_xyz .rgb c).c2 ≤ 1.1) := by
  obtain ⟨r0, r1, g0, g1, b0, b1, a0, a1⟩ := h
  simp only [to_xyz, to_rgb, Rgb.to_xyz, apply_matrix]
  ex_simp; norm_num
  refine ⟨⟨?_, ?_⟩, ⟨?_, ?_⟩, ?_, ?_⟩ <;> linarith

/-- C72: RGB to Lab (any white point) and back gives an equal colour, with every channel within
4 · 10^-6 and the same alpha. -/
theorem C72_lab_round_trip (i : Illuminant) (o : Observer) (c : Col ℝ) (h : Spec.Unit c) :
    let d := to_rgb (.lab i o) (to_lab i o .rgb c)
    Col.eq d c = true ∧ |d.c0 - c.c0| ≤ 4 / 1000000 ∧ |d.c1 - c.c1| ≤ 4 / 1000000 ∧
    |d.c2 - c.c2| ≤ 4 / 1000000 ∧ d.alpha = c.alpha := by
  obtain ⟨⟨x0, -⟩, ⟨x1, -⟩, ⟨x2, -⟩⟩ := xyz_nonneg c h
  obtain ⟨⟨-, -, -, ea⟩, e0, e1, e2⟩ := C72_xyz_round_trip i o (to_xyz .rgb c) x0 x1 x2
  obtain ⟨k0, k1, k2⟩ := rgb_of_near_xyz c _ h (le_trans e0 (by norm_num))
    (le_trans e1 (by norm_num)) (le_trans e2 (by norm_num))
  intro d
  have hd : d = to_rgb .xyz (to_xyz (.lab i o) (to_lab i o .xyz (to_xyz .rgb c))) := rfl
  have ha : d.alpha = c.alpha := by rw [hd]; exact ea
  rw [hd] at *
  refine ⟨?_, k0, k1, k2, ha⟩
  rw [Exact.col_eq, ha, sub_self, abs_zero]
  exact ⟨le_trans k0 (by norm_num), le_trans k1 (by norm_num), le_trans k2 (by norm_num),
    by norm_num⟩

/-- C72: LCh holds the lightness of Lab, the length of (a, b) and its angle in (-π, π]. -/
theorem C72_lch (i : Illuminant) (o : Observer) (s : Space) (c : Col ℝ) :
    let lab := to_lab i o s c
    let lch := to_lch i o s c
    lch.c0 = lab.c0 ∧ lch.c1 = Real.sqrt (lab.c1 ^ 2 + lab.c2 ^ 2) ∧
    lch.c1 * Real.cos lch.c2 = lab.c1 ∧ lch.c1 * Real.sin lch.c2 = lab.c2 ∧
    -Real.pi < lch.c2 ∧ lch.c2 ≤ Real.pi ∧ lch.alpha = lab.alpha := by
  intro lab lch
  have e1 : lch.c1 = Real.sqrt (lab.c1 ^ 2 + lab.c2 ^ 2) := by
    show Scalar.sqrt (lab.c1 *. lab.c1 +. lab.c2 *. lab.c2) = _
    rw [Exact.sqrt (by ex_simp; nlinarith [mul_self_nonneg lab.c1, mul_self_nonneg lab.c2])]
    ex_simp; rw [pow_two, pow_two]
  have e2 : lch.c2 = Complex.arg ⟨lab.c1, lab.c2⟩ := rfl
  have e3 : lch.c1 = ‖(⟨lab.c1, lab.c2⟩ : ℂ)‖ := by
    rw [e1, Complex.norm_def, Complex.normSq_mk]; congr 1; ring
  refine ⟨rfl, e1, ?_, ?_, ?_, ?_, rfl⟩
  · rw [e3, e2, Complex.norm_mul_cos_arg]
  · rw [e3, e2, Complex.norm_mul_sin_arg]
  · rw [e2]; exact Complex.neg_pi_lt_arg _
  · rw [e2]; exact Complex.arg_le_pi _

/-- C72: LCh to XYZ is Lab to XYZ with a = C·cos h, b = C·sin h; Lab to LCh and back to XYZ is
therefore the same as Lab to XYZ. -/
theorem C72_lch_to_xyz (i : Illuminant) (o : Observer) (c : Col ℝ) :
    to_xyz (.lch i o) c =
      cieXyz (whitePoint i o) ⟨c.c0, c.c1 * Real.cos c.c2, c.c1 * Real.sin c.c2, c.alpha⟩ := by
  rw [← C72_lab_to_xyz]
  show Lab.to_xyz i o ⟨_, c.c1 *. Scalar.cos c.c2, c.c1 *. Scalar.sin c.c2, _⟩ = _
  ex_simp
  rfl

/-- C72: RGB to LCh (any white point) and back gives an equal colour, with every channel within
4 · 10^-6 and the same alpha. -/
theorem C72_lch_round_trip (i : Illuminant) (o : Observer) (c : Col ℝ) (h : Spec.Unit c) :
    let d := to_rgb (.lch i o) (to_lch i o .rgb c)
    Col.eq d c = true ∧ |d.c0 - c.c0| ≤ 4 / 1000000 ∧ |d.c1 - c.c1| ≤ 4 / 1000000 ∧
    |d.c2 - c.c2| ≤ 4 / 1000000 ∧ d.alpha = c.alpha := by
  intro d
  obtain ⟨⟨x0, -⟩, ⟨x1, -⟩, ⟨x2, -⟩⟩ := xyz_nonneg c h
  obtain ⟨⟨y0, y1, y2, ea⟩, e0, e1, e2⟩ := C72_xyz_round_trip i o (to_xyz .rgb c) x0 x1 x2
  obtain ⟨⟨-, -, -, ea'⟩, f0, f1, f2⟩ := C72_xyz_round_trip i o _ y0 y1 y2
  have hback : to_xyz (.lch i o) (to_lch i o .rgb c) =
      to_xyz (.lab i o) (to_lab i o .xyz (to_xyz .rgb c)) := by
    obtain ⟨l0, -, l1, l2, -, -, l3⟩ := C72_lch i o .rgb c
    rw [C72_lch_to_xyz, l0, l1, l2, l3, C72_lab_to_xyz]
    rfl
  have hd : d = to_rgb .xyz (to_xyz (.lab i o) (to_lab i o .xyz
      (to_xyz (.lab i o) (to_lab i o .xyz (to_xyz .rgb c))))) := by
    rw [← hback]; rfl
  have tri : ∀ a b c : ℝ, |a - b| ≤ 1.1 / 10000000 → |b - c| ≤ 1.1 / 10000000 →
      |a - c| ≤ 2.2 / 10000000 := by
    intro a b c h1 h2
    have := abs_sub_le a b c
    linarith
  obtain ⟨k0, k1, k2⟩ := rgb_of_near_xyz c _ h (tri _ _ _ f0 e0) (tri _ _ _ f1 e1) (tri _ _ _ f2 e2)
  have ha : d.alpha = c.alpha := by rw [hd]; exact ea'.trans ea
  rw [hd] at *
  refine ⟨?_, k0, k1, k2, ha⟩
  rw [Exact.col_eq, ha, sub_self, abs_zero]
  exact ⟨le_trans k0 (by norm_num), le_trans k1 (by norm_num), le_trans k2 (by norm_num),
    by norm_num⟩

/-- A colour that meets the hypotheses. -/
example : Spec.Unit (⟨1, 1 / 2, 0, 1⟩ : Col ℝ) := by constructor <;> norm_num

end D10
