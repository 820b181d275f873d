import Verif.SpecTonal
import Verif.Props.ColorOps
import Verif.Props.ColorRange

/-!
# The formulas of the tonal operations (C83)
-/

namespace D10
open Spec
variable [Junk]

theorem Exact.clamp01_limit (v : ℝ) : clamp01 v = limit v := Exact.clamp01 v

omit [Junk] in
theorem limit_nonneg (v : ℝ) : 0 ≤ limit v := le_max_left _ _
omit [Junk] in
theorem limit_le_one (v : ℝ) : limit v ≤ 1 := max_le zero_le_one (min_le_left _ _)
omit [Junk] in
theorem limit_id {v : ℝ} (h0 : 0 ≤ v) (h1 : v ≤ 1) : limit v = v := by
  unfold limit; rw [min_eq_right h1, max_eq_right h0]

theorem Exact.powf_rpow {x p : ℝ} (hx : 0 ≤ x) (hp : 0 < p) : Scalar.powf x p = x ^ p := by
  rcases lt_or_eq_of_le hx with h | h
  · rw [Exact.powf_pos _ h]
  · rw [← h, Exact.powf_zero hp, Real.zero_rpow hp.ne']

omit [Junk] in
theorem rpow_unit {x p : ℝ} (h0 : 0 ≤ x) (h1 : x ≤ 1) (hp : 0 < p) : 0 ≤ x ^ p ∧ x ^ p ≤ 1 :=
  ⟨Real.rpow_nonneg h0 _, Real.rpow_le_one h0 h1 hp.le⟩

theorem map_channels_eq {c : Col ℝ} {f g : ℝ → ℝ} (h : ∀ v, limit (f v) = g v) :
    Rgb.map_channels c f = eachChannel g c := by
  unfold Rgb.map_channels eachChannel
  simp only [Exact.clamp01_limit, h]

theorem to_hsl_of_alpha (c : Col ℝ) (a : ℝ) :
    Rgb.to_hsl { c with alpha := a } = { Rgb.to_hsl c with alpha := a } := by
  unfold Rgb.to_hsl
  simp only [show Rgb.max { c with alpha := a } = Rgb.max c from rfl,
    show Rgb.min { c with alpha := a } = Rgb.min c from rfl]
  by_cases h : (Rgb.max c -. Rgb.min c <. EPSILON) = true
  · simp only [if_pos h]
  · simp only [if_neg h]

/-- C83: brightness adds, contrast stretches around one half, both at once add first. -/
theorem C83_brightness_contrast (c : Col ℝ) (b k : ℝ) :
    Rgb.with_brightness c b = eachChannel (fun v => limit (v + b)) c ∧
    Rgb.with_contrast c k = eachChannel (fun v => limit ((v - 1 / 2) * k + 1 / 2)) c ∧
    Rgb.with_brightness_contrast c b k = eachChannel (fun v => limit ((v + b - 1 / 2) * k + 1 / 2)) c := by
  refine ⟨map_channels_eq fun v => ?_, map_channels_eq fun v => ?_, map_channels_eq fun v => ?_⟩
  · ex_simp
  · ex_simp; norm_num
  · ex_simp; norm_num

/-- C83: gamma curves, for every gamma greater than 0. -/
theorem C83_gamma (c : Col ℝ) (g : ℝ) (hg : 0 < g) :
    Rgb.with_gamma c g = eachChannel (gammaCurve g) c ∧
    Rgb.with_gamma_opt c g = eachChannel (splitGamma g) c := by
  have hg' : 0 < 1 / g := one_div_pos.2 hg
  have gd : (1 : ℝ) /. g = 1 / g := Exact.div hg.ne'
  refine ⟨map_channels_eq fun v => ?_, map_channels_eq fun v => ?_⟩
  · simp only [Exact.lit, Rat.cast_one, gd, Exact.clamp01_limit]
    rw [Exact.powf_rpow (limit_nonneg v) hg']
    obtain ⟨h0, h1⟩ := rpow_unit (limit_nonneg v) (limit_le_one v) hg'
    rw [limit_id h0 h1]; rfl
  · have e1 : (v - (0.5 : ℝ)) * 2 = 2 * (v - 1 / 2) := by norm_num; ring
    have e2 : v * 2 = 2 * v := mul_comm _ _
    simp only [Exact.lit, Rat.cast_one, gd, Exact.clamp01_limit]
    unfold splitGamma
    by_cases h : 1 / 2 < v
    · rw [if_pos h]
      have hlt : ((0.5 : ℚ) : ℝ) <. v := by rw [Exact.lt]; norm_num; linarith
      rw [if_pos hlt]
      ex_simp
      rw [e1, Exact.powf_rpow (limit_nonneg _) hg']
      obtain ⟨h0, h1⟩ := rpow_unit (limit_nonneg (2 * (v - 1 / 2))) (limit_le_one _) hg'
      rw [show ((0.5 : ℝ)) = 1 / 2 by norm_num, limit_id (by linarith) (by linarith)]
    · rw [if_neg h]
      have hlt : ¬ ((0.5 : ℚ) : ℝ) <. v := by rw [Exact.lt]; norm_num; linarith
      rw [if_neg hlt]
      ex_simp
      rw [e2, one_mul, Exact.powf_rpow (limit_nonneg _) hg]
      obtain ⟨h0, h1⟩ := rpow_unit (limit_nonneg (2 * v)) (limit_le_one _) hg
      rw [limit_id (by linarith) (by linarith)]

/-- C83: level. If black and white are closer than `f32::EPSILON` the slope is 32768 (upwards). -/
theorem C83_level (c : Col ℝ) (bp wp g : ℝ) (hg : 0 < g) :
    (1 / 8388608 ≤ |wp - bp| → Rgb.with_level c bp wp g = eachChannel (levelCurve bp wp g) c) ∧
    (|wp - bp| < 1 / 8388608 → Rgb.with_level c bp wp g =
      eachChannel (fun v => limit (32768 * (v - bp)) ^ (1 / g)) c) := by
  have hg' : 0 < 1 / g := one_div_pos.2 hg
  have gd : (1 : ℝ) /. g = 1 / g := Exact.div hg.ne'
  refine ⟨fun hw => map_channels_eq fun v => ?_, fun hw => map_channels_eq fun v => ?_⟩
  · have hne : wp - bp ≠ 0 := by
      intro h; rw [h] at hw; norm_num at hw
    unfold Rgb.level levelCurve
    rw [Exact.f32_EPSILON, Exact.EPSILON]
    ex_simp
    rw [if_neg (not_lt.2 hw), gd, Exact.clamp01_limit, mul_one_div,
      Exact.powf_rpow (limit_nonneg _) hg']
    obtain ⟨h0, h1⟩ := rpow_unit (limit_nonneg ((v - bp) / (wp - bp))) (limit_le_one _) hg'
    rw [limit_id h0 h1]
  · unfold Rgb.level
    rw [Exact.f32_EPSILON, Exact.EPSILON]
    ex_simp
    rw [if_pos hw, gd, Exact.clamp01_limit, Exact.powf_rpow (limit_nonneg _) hg']
    have e : (v - bp) * (1 / (1 / 32768)) = 32768 * (v - bp) := by ring
    rw [e]
    obtain ⟨h0, h1⟩ := rpow_unit (limit_nonneg (32768 * (v - bp))) (limit_le_one _) hg'
    rw [limit_id h0 h1]

/-- C83: the difference is the absolute difference of each channel (opaque, whatever the alphas);
sepia is a fixed mixture of the channels. -/
theorem C83_mix (c d : Col ℝ) :
    Rgb.difference c d = ⟨limit |c.c0 - d.c0|, limit |c.c1 - d.c1|, limit |c.c2 - d.c2|, 1⟩ ∧
    Rgb.with_sepia c = ⟨limit (0.393 * c.c0 + 0.769 * c.c1 + 0.189 * c.c2),
      limit (0.349 * c.c0 + 0.686 * c.c1 + 0.168 * c.c2),
      limit (0.272 * c.c0 + 0.534 * c.c1 + 0.131 * c.c2), limit c.alpha⟩ := by
  constructor
  · unfold Rgb.difference Rgb.new
    simp only [Exact.clamp01_limit]
    ex_simp
  · unfold Rgb.with_sepia Rgb.new_with_alpha
    simp only [Exact.clamp01_limit]
    ex_simp
    simp only [mul_comm]

/-- C83: the operations on saturation and lightness. -/
theorem C83_hsl (c : Col ℝ) (k g : ℝ) (hg : 0 < g) :
    Rgb.with_saturation c k = viaHsl (fun h s l => (h, limit (k * s), l)) c ∧
    Rgb.stretch_saturation c k = viaHsl (fun h s l => (h, limit ((s - 1 / 2) * k + 1 / 2), l)) c ∧
    Rgb.with_gamma_saturation c g = viaHsl (fun h s l => (h, limit s ^ (1 / g), l)) c ∧
    Rgb.with_lightness c k = viaHsl (fun h s l => (h, s, limit (k * l))) c := by
  have hg' : 0 < 1 / g := one_div_pos.2 hg
  refine ⟨?_, ?_, ?_, ?_⟩
  · unfold Rgb.with_saturation viaHsl
    simp only [Exact.clamp01_limit]
    ex_simp
    rw [mul_comm k]; rfl
  · unfold Rgb.stretch_saturation viaHsl
    simp only [Exact.clamp01_limit]
    ex_simp
    norm_num; rfl
  · unfold Rgb.with_gamma_saturation viaHsl
    simp only [Exact.clamp01_limit, Exact.lit, Rat.cast_one, Exact.div hg.ne']
    rw [Exact.powf_rpow (limit_nonneg _) hg']; rfl
  · unfold Rgb.with_lightness viaHsl
    simp only [Exact.clamp01_limit]
    ex_simp
    rw [mul_comm k]; rfl

/-- C83: hue rotation, modulation (all three scaled) and vibrance (saturation moved by a sine, opaque
result). -/
theorem C83_hue (c : Col ℝ) (a p q r k : ℝ) :
    Rgb.with_hue_rotate c a = viaHsl (fun h s l =>
      (if 1 ≤ h + a / 360 then h + a / 360 - 1 else if h + a / 360 < 0 then h + a / 360 + 1
        else h + a / 360, s, l)) c ∧
    Rgb.modulate c p q r = viaHsl (fun h s l => (limit (p * h), limit (q * s), limit (r * l))) c ∧
    Rgb.with_vibrance c k = viaHsl (fun h s l =>
      (h, limit (s + Real.sin (s * piConst) * (k * min (Real.sin (h * piConst) * 1.5) 1)), l))
        { c with alpha := 1 } := by
  refine ⟨?_, ?_, ?_⟩
  · unfold Rgb.with_hue_rotate viaHsl Rgb.rotated_hue
    ex_simp
    rfl
  · unfold Rgb.modulate viaHsl
    simp only [Exact.clamp01_limit]
    ex_simp
    rw [mul_comm p, mul_comm q, mul_comm r, to_hsl_alpha]
    rfl
  · unfold Rgb.with_vibrance viaHsl PI Col.opaque
    rw [show to_hsl .rgb { c with alpha := 1 } = { Rgb.to_hsl c with alpha := 1 } from to_hsl_of_alpha c 1]
    ex_simp
    have e : ∀ x : ℝ, max (min x 1) 0 = limit x := fun x => by
      unfold limit; rw [max_comm, min_comm]
    rw [e]
    rfl

/-- The hypotheses can be met; a colour with different channels and values of both branches. -/
example := C83_gamma ⟨1 / 4, 3 / 4, 1, 1 / 2⟩ 2.2 (by norm_num)
example := (C83_level ⟨1 / 4, 3 / 4, 1, 1 / 2⟩ 0.1 0.9 1 one_pos).1 (by rw [abs_of_pos] <;> norm_num)
example := (C83_level ⟨1 / 4, 3 / 4, 1, 1 / 2⟩ 0.5 0.5 1 one_pos).2 (by norm_num)

end D10
