import Verif.Props.Tonal
import Verif.Props.Blend

/-!
# Combining colour operations (C96)

How two colour operations in a row combine, in exact arithmetic.
-/

namespace D10
open Spec

variable [Junk]

omit [Junk] in
theorem eachChannel_comp (f g : ℝ → ℝ) (c : Col ℝ) :
    eachChannel f (eachChannel g c) = eachChannel (fun v => f (g v)) c := rfl

omit [Junk] in
theorem eachChannel_congr {f g : ℝ → ℝ} {c : Col ℝ} (h0 : f c.c0 = g c.c0) (h1 : f c.c1 = g c.c1)
    (h2 : f c.c2 = g c.c2) : eachChannel f c = eachChannel g c := by
  unfold eachChannel; rw [h0, h1, h2]

theorem invert_each (c : Col ℝ) : Rgb.invert c = eachChannel (fun v => 1 - v) c := by
  unfold Rgb.invert eachChannel; ex_simp

theorem bright_each (c : Col ℝ) (b : ℝ) : Rgb.with_brightness c b = eachChannel (fun v => limit (v + b)) c :=
  (C83_brightness_contrast c b 0).1

theorem contrast_each (c : Col ℝ) (k : ℝ) :
    Rgb.with_contrast c k = eachChannel (fun v => limit ((v - 1 / 2) * k + 1 / 2)) c :=
  (C83_brightness_contrast c 0 k).2.1

omit [Junk] in
theorem limit_zero {v : ℝ} (h : v ≤ 0) : limit v = 0 := by
  unfold limit; rw [min_eq_right (h.trans zero_le_one), max_eq_left h]
omit [Junk] in
theorem limit_one {v : ℝ} (h : 1 ≤ v) : limit v = 1 := by
  unfold limit; rw [min_eq_left h, max_eq_right zero_le_one]

omit [Junk] in
theorem one_sub_limit (v : ℝ) : 1 - limit v = limit (1 - v) := by
  unfold limit
  grind

/-- Two brightness changes in the same direction add up, also when channels saturate. -/
theorem C96_brightness_adds (c : Col ℝ) (a b : ℝ) (h : 0 ≤ a ∧ 0 ≤ b ∨ a ≤ 0 ∧ b ≤ 0) (hc : Spec.Unit c) :
    Rgb.with_brightness (Rgb.with_brightness c a) b = Rgb.with_brightness c (a + b) := by
  simp only [bright_each, contrast_each, eachChannel_comp]
  have k : ∀ v : ℝ, 0 ≤ v → v ≤ 1 → limit (limit (v + a) + b) = limit (v + (a + b)) := by
    intro v h0 h1
    unfold limit
    rcases h with ⟨ha, hb⟩ | ⟨ha, hb⟩ <;>
      rcases min_cases 1 (v + a) with ⟨e, _⟩ | ⟨e, _⟩ <;> rw [e] <;>
      first
        | (rcases max_cases 0 (v + a) with ⟨e, _⟩ | ⟨e, _⟩ <;> rw [e] <;>
            rcases min_cases 1 (v + (a + b)) with ⟨e, _⟩ | ⟨e, _⟩ <;> rw [e] <;> grind)
        | grind
  exact eachChannel_congr (k _ hc.r0 hc.r1) (k _ hc.g0 hc.g1) (k _ hc.b0 hc.b1)

/-- A brightness change of at most 1 is undone by the opposite one exactly if nothing saturated. -/
theorem C96_brightness_undo (c : Col ℝ) (b : ℝ) (hb : |b| ≤ 1) (hc : Spec.Unit c) :
    Rgb.with_brightness (Rgb.with_brightness c b) (-b) = c ↔
      (0 ≤ c.c0 + b ∧ c.c0 + b ≤ 1) ∧ (0 ≤ c.c1 + b ∧ c.c1 + b ≤ 1) ∧ (0 ≤ c.c2 + b ∧ c.c2 + b ≤ 1) := by
  simp only [bright_each, contrast_each, eachChannel_comp]
  have k : ∀ v : ℝ, 0 ≤ v → v ≤ 1 → (limit (limit (v + b) + -b) = v ↔ 0 ≤ v + b ∧ v + b ≤ 1) := by
    intro v h0 h1
    unfold limit
    constructor
    · intro h
      rw [abs_le] at hb
      grind
    · rintro ⟨a, b⟩
      rw [min_eq_right b, max_eq_right a]
      grind
  rw [← k _ hc.r0 hc.r1, ← k _ hc.g0 hc.g1, ← k _ hc.b0 hc.b1]
  obtain ⟨r, g, b, a⟩ := c
  simp [eachChannel]

/-- Contrast factors multiply if the second one does not reduce the contrast. -/
theorem C96_contrast_multiplies (c : Col ℝ) (k m : ℝ) (hm : 1 ≤ |m|) :
    Rgb.with_contrast (Rgb.with_contrast c k) m = Rgb.with_contrast c (k * m) := by
  simp only [bright_each, contrast_each, eachChannel_comp]
  have key : ∀ v : ℝ, limit ((limit ((v - 1 / 2) * k + 1 / 2) - 1 / 2) * m + 1 / 2) =
      limit ((v - 1 / 2) * (k * m) + 1 / 2) := by
    intro v
    rw [← mul_assoc]
    generalize (v - 1 / 2) * k = u
    have mid : 0 ≤ u + 1 / 2 → u + 1 / 2 ≤ 1 →
        limit ((limit (u + 1 / 2) - 1 / 2) * m + 1 / 2) = limit (u * m + 1 / 2) := by
      intro h h'
      rw [limit_id h h', add_sub_cancel_right]
    rcases le_total (u + 1 / 2) 0 with h | h
    · rw [limit_zero h]
      rcases le_abs.1 hm with hm | hm
      · rw [limit_zero (by nlinarith), limit_zero (by nlinarith)]
      · rw [limit_one (by nlinarith), limit_one (by nlinarith)]
    · rcases le_total (u + 1 / 2) 1 with h' | h'
      · exact mid h h'
      · rw [limit_one h']
        rcases le_abs.1 hm with hm | hm
        · rw [limit_one (by nlinarith), limit_one (by nlinarith)]
        · rw [limit_zero (by nlinarith), limit_zero (by nlinarith)]
  exact eachChannel_congr (key _) (key _) (key _)

/-- Reducing the contrast loses nothing: raising it again by the inverse factor gives the colour back. -/
theorem C96_contrast_undo (c : Col ℝ) (k : ℝ) (hk : 0 < k) (hk1 : k ≤ 1) (hc : Spec.Unit c) :
    Rgb.with_contrast (Rgb.with_contrast c k) (1 / k) = c := by
  rw [C96_contrast_multiplies c k (1 / k) (by rw [abs_of_pos (by positivity)]; rw [le_div_iff₀ hk]; linarith),
    mul_one_div_cancel hk.ne']
  rw [contrast_each]
  have key : ∀ v : ℝ, 0 ≤ v → v ≤ 1 → limit ((v - 1 / 2) * 1 + 1 / 2) = v := by
    intro v h0 h1
    rw [show (v - 1 / 2) * 1 + 1 / 2 = v by ring]
    exact limit_id h0 h1
  obtain ⟨r, g, b, a⟩ := c
  simp only [eachChannel, key _ hc.r0 hc.r1, key _ hc.g0 hc.g1, key _ hc.b0 hc.b1]

omit [Junk] in
theorem gammaCurve_unit (g v : ℝ) (hg : 0 < g) : 0 ≤ gammaCurve g v ∧ gammaCurve g v ≤ 1 :=
  rpow_unit (limit_nonneg v) (limit_le_one v) (one_div_pos.2 hg)

omit [Junk] in
theorem gammaCurve_comp (g h v : ℝ) (hg : 0 < g) : gammaCurve h (gammaCurve g v) = gammaCurve (g * h) v := by
  obtain ⟨a, b⟩ := gammaCurve_unit g v hg
  unfold gammaCurve at *
  rw [limit_id a b, ← Real.rpow_mul (limit_nonneg v), one_div_mul_one_div]

/-- Gamma corrections multiply. -/
theorem C96_gamma_multiplies (c : Col ℝ) (g h : ℝ) (hg : 0 < g) (hh : 0 < h) :
    Rgb.with_gamma (Rgb.with_gamma c g) h = Rgb.with_gamma c (g * h) := by
  rw [(C83_gamma _ h hh).1, (C83_gamma _ g hg).1, (C83_gamma _ (g * h) (mul_pos hg hh)).1, eachChannel_comp]
  exact eachChannel_congr (gammaCurve_comp _ _ _ hg) (gammaCurve_comp _ _ _ hg) (gammaCurve_comp _ _ _ hg)

/-- A gamma correction is undone by the inverse one. -/
theorem C96_gamma_undo (c : Col ℝ) (g : ℝ) (hg : 0 < g) (hc : Spec.Unit c) :
    Rgb.with_gamma (Rgb.with_gamma c g) (1 / g) = c := by
  rw [C96_gamma_multiplies c g (1 / g) hg (by positivity), mul_one_div_cancel hg.ne',
    (C83_gamma c 1 zero_lt_one).1]
  have key : ∀ v : ℝ, 0 ≤ v → v ≤ 1 → gammaCurve 1 v = v := by
    intro v h0 h1
    unfold gammaCurve
    rw [limit_id h0 h1, one_div_one, Real.rpow_one]
  obtain ⟨r, g, b, a⟩ := c
  simp only [eachChannel, key _ hc.r0 hc.r1, key _ hc.g0 hc.g1, key _ hc.b0 hc.b1]

/-- Setting levels with a gamma is setting the levels, then the gamma. -/
theorem C96_level_splits (c : Col ℝ) (bp wp g : ℝ) (hg : 0 < g) :
    Rgb.with_level c bp wp g = Rgb.with_gamma (Rgb.with_level c bp wp 1) g := by
  rw [(C83_gamma _ g hg).1]
  have key : ∀ v : ℝ, limit v ^ (1 / g) = gammaCurve g (limit v ^ ((1 : ℝ) / 1)) := by
    intro v
    unfold gammaCurve
    rw [one_div_one, Real.rpow_one, limit_id (limit_nonneg v) (limit_le_one v)]
  rcases le_or_gt (1 / 8388608) |wp - bp| with h | h
  · rw [(C83_level c bp wp g hg).1 h, (C83_level c bp wp 1 zero_lt_one).1 h, eachChannel_comp]
    exact eachChannel_congr (key _) (key _) (key _)
  · rw [(C83_level c bp wp g hg).2 h, (C83_level c bp wp 1 zero_lt_one).2 h, eachChannel_comp]
    exact eachChannel_congr (key _) (key _) (key _)

/-- Levels 0 to 1 are just the gamma. -/
theorem C96_level_full (c : Col ℝ) (g : ℝ) (hg : 0 < g) : Rgb.with_level c 0 1 g = Rgb.with_gamma c g := by
  rw [(C83_gamma _ g hg).1, (C83_level c 0 1 g hg).1 (by norm_num)]
  have key : ∀ v : ℝ, levelCurve 0 1 g v = gammaCurve g v := by
    intro v; unfold levelCurve gammaCurve; rw [sub_zero, sub_zero, div_one]
  exact eachChannel_congr (key _) (key _) (key _)

/-- Two changes of the levels in a row are one, if the second one does not widen the range: its black
point is at least 0 and its white point at most 1. -/
theorem C96_level_twice (c : Col ℝ) (b w b' w' : ℝ) (hw : b + 1 / 8388608 ≤ w) (hw' : b' + 1 / 8388608 ≤ w')
    (h0 : 0 ≤ b') (h1 : w' ≤ 1) (hd : 1 / 8388608 ≤ (w - b) * (w' - b')) :
    Rgb.with_level (Rgb.with_level c b w 1) b' w' 1 =
      Rgb.with_level c (b + b' * (w - b)) (b + w' * (w - b)) 1 := by
  have p : 0 < w - b := by linarith
  have p' : 0 < w' - b' := by linarith
  rw [(C83_level _ b' w' 1 zero_lt_one).1 (by rw [abs_of_pos p']; linarith),
    (C83_level c b w 1 zero_lt_one).1 (by rw [abs_of_pos p]; linarith),
    (C83_level c _ _ 1 zero_lt_one).1 (by
      rw [show b + w' * (w - b) - (b + b' * (w - b)) = (w - b) * (w' - b') by ring, abs_of_pos (by positivity)]
      exact hd), eachChannel_comp]
  have key : ∀ v : ℝ, levelCurve b' w' 1 (levelCurve b w 1 v) =
      levelCurve (b + b' * (w - b)) (b + w' * (w - b)) 1 v := by
    intro v
    unfold levelCurve
    simp only [one_div_one, Real.rpow_one]
    have e : (v - (b + b' * (w - b))) / (b + w' * (w - b) - (b + b' * (w - b))) =
        ((v - b) / (w - b) - b') / (w' - b') := by
      rw [show b + w' * (w - b) - (b + b' * (w - b)) = (w - b) * (w' - b') by ring]
      field_simp
      ring
    rw [e]
    generalize (v - b) / (w - b) = u
    unfold limit
    rcases le_total u 0 with h | h
    · rw [min_eq_right (h.trans zero_le_one), max_eq_left h]
      have a1 : (0 - b') / (w' - b') ≤ 0 := div_nonpos_of_nonpos_of_nonneg (by linarith) p'.le
      have a2 : (u - b') / (w' - b') ≤ 0 := div_nonpos_of_nonpos_of_nonneg (by linarith) p'.le
      rw [min_eq_right (by linarith), max_eq_left a1, min_eq_right (by linarith), max_eq_left a2]
    · rcases le_total u 1 with h' | h'
      · rw [min_eq_right h', max_eq_right h]
      · have a1 : 1 ≤ (1 - b') / (w' - b') := by rw [le_div_iff₀ p']; linarith
        have a2 : 1 ≤ (u - b') / (w' - b') := by rw [le_div_iff₀ p']; linarith
        rw [min_eq_left h', max_eq_right zero_le_one, min_eq_left a1, min_eq_left a2]
  exact eachChannel_congr (key _) (key _) (key _)

/-! ## Negatives -/

/-- The contrast of a negative is the negative of the contrast; a negative contrast factor is the
negative of the positive one. -/
theorem C96_negative_contrast (c : Col ℝ) (k : ℝ) :
    Rgb.with_contrast (Rgb.invert c) k = Rgb.invert (Rgb.with_contrast c k) ∧
    Rgb.with_contrast c (-k) = Rgb.invert (Rgb.with_contrast c k) := by
  simp only [invert_each, contrast_each, eachChannel_comp, one_sub_limit]
  constructor
  · exact eachChannel_congr (by ring_nf) (by ring_nf) (by ring_nf)
  · exact eachChannel_congr (by ring_nf) (by ring_nf) (by ring_nf)

/-- Brightening a negative is the negative of darkening. -/
theorem C96_negative_brightness (c : Col ℝ) (b : ℝ) :
    Rgb.with_brightness (Rgb.invert c) b = Rgb.invert (Rgb.with_brightness c (-b)) := by
  simp only [invert_each, bright_each, eachChannel_comp, one_sub_limit]
  exact eachChannel_congr (by ring_nf) (by ring_nf) (by ring_nf)

/-- The levels of a negative, with the black and white points exchanged and mirrored. -/
theorem C96_negative_level (c : Col ℝ) (bp wp : ℝ) (h : 1 / 8388608 ≤ |wp - bp|) :
    Rgb.with_level (Rgb.invert c) bp wp 1 = Rgb.invert (Rgb.with_level c (1 - wp) (1 - bp) 1) := by
  rw [(C83_level _ bp wp 1 zero_lt_one).1 h, (C83_level c (1 - wp) (1 - bp) 1 zero_lt_one).1 (by
    rw [show 1 - bp - (1 - wp) = wp - bp by ring]; exact h)]
  simp only [invert_each, eachChannel_comp]
  have hne : wp - bp ≠ 0 := by
    intro e; rw [e] at h; norm_num at h
  have key : ∀ v : ℝ, levelCurve bp wp 1 (1 - v) = 1 - levelCurve (1 - wp) (1 - bp) 1 v := by
    intro v
    unfold levelCurve
    simp only [one_div_one, Real.rpow_one, one_sub_limit]
    congr 1
    rw [show 1 - bp - (1 - wp) = wp - bp by ring, eq_comm, sub_eq_iff_eq_add, ← add_div, eq_comm]
    rw [show 1 - v - bp + (v - (1 - wp)) = wp - bp by ring, div_self hne]
  exact eachChannel_congr (key _) (key _) (key _)

/-- The difference of two colours does not see their order or whether both are negatives; a colour
does not differ from itself. -/
theorem C96_difference (c d : Col ℝ) :
    Rgb.difference c d = Rgb.difference d c ∧
    Rgb.difference (Rgb.invert c) (Rgb.invert d) = Rgb.difference c d ∧
    Rgb.difference c c = ⟨0, 0, 0, 1⟩ := by
  have z : limit 0 = 0 := limit_id le_rfl zero_le_one
  refine ⟨?_, ?_, ?_⟩
  · rw [(C83_mix c d).1, (C83_mix d c).1, abs_sub_comm, abs_sub_comm d.c1, abs_sub_comm d.c2]
  · rw [(C83_mix _ _).1, (C83_mix c d).1, invert_each, invert_each]
    have k : ∀ u v : ℝ, |1 - u - (1 - v)| = |u - v| := by
      intro u v
      rw [show 1 - u - (1 - v) = v - u by ring, abs_sub_comm]
    simp only [eachChannel, k]
  · rw [(C83_mix c c).1]
    simp only [sub_self, abs_zero, z]

/-! ## Blending -/

/-- Addition, darken and lighten of two opaque colours do not depend on their order. -/
theorem C96_blend_symmetric (c d : Col ℝ) (hc : Spec.Unit c) (hd : Spec.Unit d) (ac : c.alpha = 1)
    (ad : d.alpha = 1) :
    blend_addition c d 1 = blend_addition d c 1 ∧
    blend_darken c d 1 = blend_darken d c 1 ∧
    blend_lighten c d 1 = blend_lighten d c 1 := by
  obtain ⟨a1, -, a3, a4⟩ := C37_intensity_one c d hc hd ad
  obtain ⟨b1, -, b3, b4⟩ := C37_intensity_one d c hd hc ac
  simp only [modeFunction] at *
  rw [a1, a3, a4, b1, b3, b4]
  refine ⟨?_, ?_, ?_⟩
  · simp only [add_comm]
  · simp only [min_comm]
  · simp only [max_comm]

/-- Darkening negatives is the negative of lightening, and subtracting is the negative of adding to
the negative. -/
theorem C96_blend_negative (c d : Col ℝ) (hc : Spec.Unit c) (hd : Spec.Unit d) (ad : d.alpha = 1) :
    blend_darken (Rgb.invert c) (Rgb.invert d) 1 = Rgb.invert (blend_lighten c d 1) ∧
    blend_addition (Rgb.invert c) d 1 = Rgb.invert (blend_subtract c d 1) := by
  have ui : ∀ {c : Col ℝ}, Spec.Unit c → Spec.Unit (Rgb.invert c) := by
    intro c h
    rw [invert_each]
    obtain ⟨r0, r1, g0, g1, b0, b1, a0, a1⟩ := h
    constructor <;> simp only [eachChannel] <;> linarith
  obtain ⟨-, a2, -, a4⟩ := C37_intensity_one c d hc hd ad
  obtain ⟨-, -, b3, -⟩ := C37_intensity_one _ _ (ui hc) (ui hd) (by rw [invert_each]; exact ad)
  obtain ⟨d1, -, -, -⟩ := C37_intensity_one _ d (ui hc) hd ad
  simp only [modeFunction] at *
  rw [b3, a4, d1, a2]
  have m : ∀ u v : ℝ, min (1 - u) (1 - v) = 1 - max u v := by intro u v; grind
  have n : ∀ u v : ℝ, min 1 (1 - u + v) = 1 - max 0 (u - v) := by intro u v; grind
  simp only [invert_each, eachChannel, m, n, and_self]

/-! ## The hypotheses can be met -/

/-- A colour in range with three different channels, half transparent. -/
example : Spec.Unit (⟨1 / 4, 1 / 2, 1, 1 / 2⟩ : Col ℝ) := by constructor <;> norm_num
/-- Brightness that saturates and is therefore not undone. -/
example : ¬ Rgb.with_brightness (Rgb.with_brightness (⟨1 / 4, 1 / 2, 1, 1⟩ : Col ℝ) (1 / 2)) (-(1 / 2)) =
    ⟨1 / 4, 1 / 2, 1, 1⟩ := by
  rw [C96_brightness_undo _ _ (by rw [abs_le]; constructor <;> norm_num) (by constructor <;> norm_num)]
  norm_num
example : (1 / 8 : ℝ) + 1 / 8388608 ≤ 7 / 8 ∧ (1 / 4 : ℝ) + 1 / 8388608 ≤ 3 / 4 ∧
    (1 : ℝ) / 8388608 ≤ (7 / 8 - 1 / 8) * (3 / 4 - 1 / 4) := by norm_num

end D10
