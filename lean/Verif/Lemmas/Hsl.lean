import Verif.Lemmas.Exact

/-! # The HSL conversions in exact arithmetic -/

namespace D10

/-- All channels (alpha included) of an exact colour are in [0, 1]. -/
structure Spec.Unit (c : Col ℝ) : Prop where
  r0 : 0 ≤ c.c0
  r1 : c.c0 ≤ 1
  g0 : 0 ≤ c.c1
  g1 : c.c1 ≤ 1
  b0 : 0 ≤ c.c2
  b1 : c.c2 ≤ 1
  a0 : 0 ≤ c.alpha
  a1 : c.alpha ≤ 1

variable [Junk]

theorem Exact.rgb_max {c : Col ℝ} (h : Spec.Unit c) : Rgb.max c = max c.c0 (max c.c1 c.c2) := by
  unfold Rgb.max
  simp only [List.foldl]
  ex_simp
  rw [max_eq_right h.r0, max_assoc]

theorem Exact.rgb_min {c : Col ℝ} (h : Spec.Unit c) : Rgb.min c = min c.c0 (min c.c1 c.c2) := by
  unfold Rgb.min
  simp only [List.foldl]
  ex_simp
  rw [min_eq_right h.r1, min_assoc]

/-- The hue sector position computed by `to_hsl`, before the division by 6. -/
noncomputable def hslSector (M d r g b : ℝ) : ℝ :=
  if |M - r| < 1 / 32768 then (g - b) / d + (if g < b then 6 else 0)
  else if |M - g| < 1 / 32768 then (b - r) / d + 2
  else (r - g) / d + 4

theorem Exact.to_hsl_gray {c : Col ℝ} (h : Spec.Unit c)
    (hd : max c.c0 (max c.c1 c.c2) - min c.c0 (min c.c1 c.c2) < 1 / 32768) :
    Rgb.to_hsl c =
      ⟨0, 0, (max c.c0 (max c.c1 c.c2) + min c.c0 (min c.c1 c.c2)) / 2, c.alpha⟩ := by
  unfold Rgb.to_hsl
  simp only [Exact.rgb_max h, Exact.rgb_min h, Exact.EPSILON]
  ex_simp
  rw [if_pos hd]

theorem Exact.to_hsl_color {c : Col ℝ} (h : Spec.Unit c) {M m : ℝ}
    (hM : M = max c.c0 (max c.c1 c.c2)) (hm : m = min c.c0 (min c.c1 c.c2))
    (hd : 1 / 32768 ≤ M - m) :
    Rgb.to_hsl c = ⟨hslSector M (M - m) c.c0 c.c1 c.c2 / 6,
      (if 1 / 2 < (M + m) / 2 then (M - m) / (2 - M - m) else (M - m) / (M + m)),
      (M + m) / 2, c.alpha⟩ := by
  have hm0 : 0 ≤ m := by rw [hm]; exact le_min h.r0 (le_min h.g0 h.b0)
  have hM1 : M ≤ 1 := by rw [hM]; exact max_le h.r1 (max_le h.g1 h.b1)
  have hd0 : 0 < M - m := by linarith
  unfold Rgb.to_hsl hslSector
  simp only [Exact.rgb_max h, Exact.rgb_min h, Exact.EPSILON, ← hM, ← hm]
  have n1 : M - m ≠ 0 := hd0.ne'
  have n2 : M + m ≠ 0 := by intro h; linarith
  have n3 : 2 - M - m ≠ 0 := by intro h; linarith
  ex_simp
  rw [if_neg (by linarith)]
  congr 1
  norm_num

/-- `hue2rgb` after the wrap-around. -/
noncomputable def hueRamp (p q t : ℝ) : ℝ :=
  if t < 1 / 6 then p + (q - p) * 6 * t
  else if t < 1 / 2 then q
  else if t < 2 / 3 then p + (q - p) * (2 / 3 - t) * 6
  else p

theorem Exact.hue2rgb_mid {p q t : ℝ} (h0 : 0 ≤ t) (h1 : t ≤ 1) :
    Hsl.hue2rgb p q t = hueRamp p q t := by
  unfold Hsl.hue2rgb hueRamp
  ex_simp
  simp only [if_neg (not_lt.2 h0), if_neg (not_lt.2 h1)]

theorem Exact.hue2rgb_low {p q t : ℝ} (h0 : t < 0) :
    Hsl.hue2rgb p q t = hueRamp p q (t + 1) := by
  unfold Hsl.hue2rgb hueRamp
  ex_simp
  simp only [if_pos h0, if_neg (show ¬ 1 < t + 1 by linarith)]

theorem Exact.hue2rgb_high {p q t : ℝ} (h0 : 1 < t) :
    Hsl.hue2rgb p q t = hueRamp p q (t - 1) := by
  unfold Hsl.hue2rgb hueRamp
  ex_simp
  simp only [if_neg (show ¬ t < 0 by linarith), if_pos h0]

/-- The lightness and saturation of a colour determine its least and greatest channel. -/
theorem Exact.hsl_pq {M m : ℝ} (hm0 : 0 ≤ m) (hM1 : M ≤ 1) (hd0 : m < M) (hue a : ℝ) :
    Hsl.to_rgb ⟨hue,
      (if 1 / 2 < (M + m) / 2 then (M - m) / (2 - M - m) else (M - m) / (M + m)),
      (M + m) / 2, a⟩ =
    Rgb.new_with_alpha (Hsl.hue2rgb m M (hue + 1 / 3)) (Hsl.hue2rgb m M hue)
      (Hsl.hue2rgb m M (hue - 1 / 3)) a := by
  have n2 : 0 < M + m := by linarith
  have n3 : 0 < 2 - M - m := by linarith
  unfold Hsl.to_rgb
  ex_simp
  have hs : ¬ ((if 1 / 2 < (M + m) / 2 then (M - m) / (2 - M - m) else (M - m) / (M + m)) = 0) := by
    split
    · exact (div_pos (by linarith) n3).ne'
    · exact (div_pos (by linarith) n2).ne'
  rw [if_neg hs]
  have hq : (if (M + m) / 2 < 0.5 then
      (M + m) / 2 * (1 + if 1 / 2 < (M + m) / 2 then (M - m) / (2 - M - m) else (M - m) / (M + m))
      else (M + m) / 2 +
        (if 1 / 2 < (M + m) / 2 then (M - m) / (2 - M - m) else (M - m) / (M + m)) -
        (M + m) / 2 *
        (if 1 / 2 < (M + m) / 2 then (M - m) / (2 - M - m) else (M - m) / (M + m))) = M := by
    split
    · rename_i hl
      rw [if_neg (by norm_num at hl ⊢; linarith)]
      field_simp; ring
    · rename_i hl
      split
      · field_simp; ring
      · rename_i hl2
        have h1 : M + m = 1 := by norm_num at hl hl2; linarith
        rw [h1]; linarith
  rw [hq]
  have hp : 2 * ((M + m) / 2) - M = m := by ring
  rw [hp]

theorem Exact.ramp0 {M m t : ℝ} (h0 : -1 / 3 ≤ t) (h1 : t ≤ 0) : Hsl.hue2rgb m M t =
    if t < 0 then m else m + (M - m) * 6 * t := by
  by_cases c : t < 0
  · rw [if_pos c, Exact.hue2rgb_low c]; unfold hueRamp
    rw [if_neg (by linarith), if_neg (by linarith), if_neg (by linarith)]
  · rw [if_neg c, Exact.hue2rgb_mid (not_lt.1 c) (by linarith)]; unfold hueRamp
    rw [if_pos (by linarith)]

theorem Exact.ramp_neg {M m t : ℝ} (h0 : -1 / 3 ≤ t) (h1 : t ≤ 0) : Hsl.hue2rgb m M t = m := by
  rw [Exact.ramp0 h0 h1]
  split
  · rfl
  · have : t = 0 := by linarith
    rw [this]; ring

theorem Exact.ramp_up {M m t : ℝ} (h0 : 0 ≤ t) (h1 : t ≤ 1 / 6) :
    Hsl.hue2rgb m M t = m + (M - m) * (6 * t) := by
  rw [Exact.hue2rgb_mid h0 (by linarith)]; unfold hueRamp
  by_cases c : t < 1 / 6
  · rw [if_pos c]; ring
  · rw [if_neg c, if_pos (by linarith)]
    have : t = 1 / 6 := by linarith
    rw [this]; ring

theorem Exact.ramp_top {M m t : ℝ} (h0 : 1 / 6 ≤ t) (h1 : t ≤ 1 / 2) : Hsl.hue2rgb m M t = M := by
  rw [Exact.hue2rgb_mid (by linarith) (by linarith)]; unfold hueRamp
  rw [if_neg (by linarith)]
  by_cases c : t < 1 / 2
  · rw [if_pos c]
  · rw [if_neg c, if_pos (by linarith)]
    have : t = 1 / 2 := by linarith
    rw [this]; ring

theorem Exact.ramp_down {M m t : ℝ} (h0 : 1 / 2 ≤ t) (h1 : t ≤ 2 / 3) :
    Hsl.hue2rgb m M t = m + (M - m) * (4 - 6 * t) := by
  rw [Exact.hue2rgb_mid (by linarith) (by linarith)]; unfold hueRamp
  rw [if_neg (by linarith), if_neg (by linarith)]
  by_cases c : t < 2 / 3
  · rw [if_pos c]; ring
  · rw [if_neg c]
    have : t = 2 / 3 := by linarith
    rw [this]; ring

theorem Exact.ramp_low {M m t : ℝ} (h0 : 2 / 3 ≤ t) (h1 : t ≤ 1) : Hsl.hue2rgb m M t = m := by
  rw [Exact.hue2rgb_mid (by linarith) (by linarith)]; unfold hueRamp
  rw [if_neg (by linarith), if_neg (by linarith), if_neg (by linarith)]

theorem Exact.ramp_up' {M m t : ℝ} (h0 : 1 ≤ t) (h1 : t ≤ 7 / 6) :
    Hsl.hue2rgb m M t = m + (M - m) * (6 * (t - 1)) := by
  by_cases c : 1 < t
  · rw [Exact.hue2rgb_high c, ← Exact.hue2rgb_mid (by linarith) (by linarith),
      Exact.ramp_up (by linarith) (by linarith)]
  · have : t = 1 := by linarith
    rw [Exact.ramp_low (by linarith) (by linarith), this]; ring

theorem Exact.ramp_top' {M m t : ℝ} (h0 : 7 / 6 ≤ t) (h1 : t ≤ 4 / 3) : Hsl.hue2rgb m M t = M := by
  rw [Exact.hue2rgb_high (by linarith), ← Exact.hue2rgb_mid (by linarith) (by linarith),
      Exact.ramp_top (by linarith) (by linarith)]

/-- The six sectors of the hue circle: what the three calls of `hue2rgb` return. -/
theorem Exact.sectors {M m H : ℝ} :
    (0 ≤ H → H ≤ 1 → Hsl.hue2rgb m M (H / 6 + 1 / 3) = M ∧
      Hsl.hue2rgb m M (H / 6) = m + (M - m) * H ∧ Hsl.hue2rgb m M (H / 6 - 1 / 3) = m) ∧
    (1 ≤ H → H ≤ 2 → Hsl.hue2rgb m M (H / 6 + 1 / 3) = m + (M - m) * (2 - H) ∧
      Hsl.hue2rgb m M (H / 6) = M ∧ Hsl.hue2rgb m M (H / 6 - 1 / 3) = m) ∧
    (2 ≤ H → H ≤ 3 → Hsl.hue2rgb m M (H / 6 + 1 / 3) = m ∧
      Hsl.hue2rgb m M (H / 6) = M ∧ Hsl.hue2rgb m M (H / 6 - 1 / 3) = m + (M - m) * (H - 2)) ∧
    (3 ≤ H → H ≤ 4 → Hsl.hue2rgb m M (H / 6 + 1 / 3) = m ∧
      Hsl.hue2rgb m M (H / 6) = m + (M - m) * (4 - H) ∧ Hsl.hue2rgb m M (H / 6 - 1 / 3) = M) ∧
    (4 ≤ H → H ≤ 5 → Hsl.hue2rgb m M (H / 6 + 1 / 3) = m + (M - m) * (H - 4) ∧
      Hsl.hue2rgb m M (H / 6) = m ∧ Hsl.hue2rgb m M (H / 6 - 1 / 3) = M) ∧
    (5 ≤ H → H ≤ 6 → Hsl.hue2rgb m M (H / 6 + 1 / 3) = M ∧
      Hsl.hue2rgb m M (H / 6) = m ∧ Hsl.hue2rgb m M (H / 6 - 1 / 3) = m + (M - m) * (6 - H)) := by
  refine ⟨?_, ?_, ?_, ?_, ?_, ?_⟩ <;> intro h0 h1 <;> refine ⟨?_, ?_, ?_⟩
  · exact Exact.ramp_top (by linarith) (by linarith)
  · rw [Exact.ramp_up (by linarith) (by linarith)]; ring
  · exact Exact.ramp_neg (by linarith) (by linarith)
  · rw [Exact.ramp_down (by linarith) (by linarith)]; ring
  · exact Exact.ramp_top (by linarith) (by linarith)
  · exact Exact.ramp_neg (by linarith) (by linarith)
  · exact Exact.ramp_low (by linarith) (by linarith)
  · exact Exact.ramp_top (by linarith) (by linarith)
  · rw [Exact.ramp_up (by linarith) (by linarith)]; ring
  · exact Exact.ramp_low (by linarith) (by linarith)
  · rw [Exact.ramp_down (by linarith) (by linarith)]; ring
  · exact Exact.ramp_top (by linarith) (by linarith)
  · rw [Exact.ramp_up' (by linarith) (by linarith)]; ring
  · exact Exact.ramp_low (by linarith) (by linarith)
  · exact Exact.ramp_top (by linarith) (by linarith)
  · exact Exact.ramp_top' (by linarith) (by linarith)
  · exact Exact.ramp_low (by linarith) (by linarith)
  · rw [Exact.ramp_down (by linarith) (by linarith)]; ring

/-- The heart of the HSL round trip: the three channels come back, except that one within EPSILON
of the greatest may be replaced by it. -/
theorem Exact.hsl_core {c : Col ℝ} {M m : ℝ}
    (hM : M = max c.c0 (max c.c1 c.c2)) (hm : m = min c.c0 (min c.c1 c.c2))
    (hd : 1 / 32768 ≤ M - m) :
    ∃ H, hslSector M (M - m) c.c0 c.c1 c.c2 = H ∧ 0 ≤ H ∧ H < 6 ∧
      (Hsl.hue2rgb m M (H / 6 + 1 / 3) = c.c0 ∨
        (Hsl.hue2rgb m M (H / 6 + 1 / 3) = M ∧ |M - c.c0| < 1 / 32768)) ∧
      (Hsl.hue2rgb m M (H / 6) = c.c1 ∨
        (Hsl.hue2rgb m M (H / 6) = M ∧ |M - c.c1| < 1 / 32768)) ∧
      Hsl.hue2rgb m M (H / 6 - 1 / 3) = c.c2 := by
  obtain ⟨r, g, b, a⟩ := c
  simp only at *
  have hr : r ≤ M := by rw [hM]; exact le_max_left _ _
  have hg : g ≤ M := by rw [hM]; exact le_trans (le_max_left _ _) (le_max_right _ _)
  have hb : b ≤ M := by rw [hM]; exact le_trans (le_max_right _ _) (le_max_right _ _)
  have hr' : m ≤ r := by rw [hm]; exact min_le_left _ _
  have hg' : m ≤ g := by rw [hm]; exact le_trans (min_le_right _ _) (min_le_left _ _)
  have hb' : m ≤ b := by rw [hm]; exact le_trans (min_le_right _ _) (min_le_right _ _)
  have hMx : M = r ∨ M = g ∨ M = b := by
    rcases max_choice r (max g b) with h | h
    · left; rw [hM, h]
    · rcases max_choice g b with h' | h'
      · right; left; rw [hM, h, h']
      · right; right; rw [hM, h, h']
  have hmx : m = r ∨ m = g ∨ m = b := by
    rcases min_choice r (min g b) with h | h
    · left; rw [hm, h]
    · rcases min_choice g b with h' | h'
      · right; left; rw [hm, h, h']
      · right; right; rw [hm, h, h']
  clear hM hm
  have hd0 : 0 < M - m := by linarith
  have key : ∀ x : ℝ, (M - m) * (x / (M - m)) = x := fun x => by field_simp
  have le1 : ∀ x : ℝ, x ≤ M - m → x / (M - m) ≤ 1 := fun x h => (div_le_one hd0).2 h
  have ge0 : ∀ x : ℝ, 0 ≤ x → 0 ≤ x / (M - m) := fun x h => div_nonneg h hd0.le
  obtain ⟨s1, s2, s3, s4, s5, s6⟩ := @Exact.sectors _ M m (hslSector M (M - m) r g b)
  refine ⟨_, rfl, ?_⟩
  have hneg : ∀ x y : ℝ, (x - y) / (M - m) = -((y - x) / (M - m)) := fun x y => by
    rw [← neg_div, neg_sub]
  by_cases cr : |M - r| < 1 / 32768
  · have cr' : M - r < 1 / 32768 := lt_of_le_of_lt (le_abs_self _) cr
    by_cases cg : g < b
    · have hmg : m = g := by rcases hmx with h | h | h <;> linarith
      have hH : hslSector M (M - m) r g b = 6 - (b - g) / (M - m) := by
        unfold hslSector; rw [if_pos cr, if_pos cg, hneg]; ring
      have x1 := le1 (b - g) (by linarith)
      have x0 : 0 < (b - g) / (M - m) := div_pos (by linarith) hd0
      have := s6 (by rw [hH]; linarith) (by rw [hH]; linarith)
      rw [this.1, this.2.1, this.2.2]
      refine ⟨by rw [hH]; linarith, by rw [hH]; linarith, .inr ⟨rfl, cr⟩, .inl hmg, ?_⟩
      rw [hH, sub_sub_cancel, key, hmg]; ring
    · have hmb : m = b := by rcases hmx with h | h | h <;> linarith
      have hH : hslSector M (M - m) r g b = (g - b) / (M - m) := by
        unfold hslSector; rw [if_pos cr, if_neg cg]; ring
      have x1 := le1 (g - b) (by linarith)
      have x0 := ge0 (g - b) (by linarith)
      have := s1 (by rw [hH]; linarith) (by rw [hH]; linarith)
      rw [this.1, this.2.1, this.2.2]
      refine ⟨by rw [hH]; linarith, by rw [hH]; linarith, .inr ⟨rfl, cr⟩, .inl ?_, hmb⟩
      rw [hH, key, hmb]; ring
  · have cr' : 1 / 32768 ≤ M - r := by rw [← abs_of_nonneg (sub_nonneg.2 hr)]; exact not_lt.1 cr
    by_cases cg : |M - g| < 1 / 32768
    · have cg' : M - g < 1 / 32768 := lt_of_le_of_lt (le_abs_self _) cg
      by_cases cb : b < r
      · have hmb : m = b := by rcases hmx with h | h | h <;> linarith
        have hH : hslSector M (M - m) r g b = 2 - (r - b) / (M - m) := by
          unfold hslSector; rw [if_neg cr, if_pos cg, hneg]; ring
        have x1 := le1 (r - b) (by linarith)
        have x0 := ge0 (r - b) (by linarith)
        have := s2 (by rw [hH]; linarith) (by rw [hH]; linarith)
        rw [this.1, this.2.1, this.2.2]
        refine ⟨by rw [hH]; linarith, by rw [hH]; linarith, .inl ?_, .inr ⟨rfl, cg⟩, hmb⟩
        rw [hH, sub_sub_cancel, key, hmb]; ring
      · have hmr : m = r := by rcases hmx with h | h | h <;> linarith
        have hH : hslSector M (M - m) r g b = (b - r) / (M - m) + 2 := by
          unfold hslSector; rw [if_neg cr, if_pos cg]
        have x1 := le1 (b - r) (by linarith)
        have x0 := ge0 (b - r) (by linarith)
        have := s3 (by rw [hH]; linarith) (by rw [hH]; linarith)
        rw [this.1, this.2.1, this.2.2]
        refine ⟨by rw [hH]; linarith, by rw [hH]; linarith, .inl hmr, .inr ⟨rfl, cg⟩, ?_⟩
        rw [hH, add_sub_cancel_right, key, hmr]; ring
    · have cg' : 1 / 32768 ≤ M - g := by rw [← abs_of_nonneg (sub_nonneg.2 hg)]; exact not_lt.1 cg
      have hMb : M = b := by rcases hMx with h | h | h <;> linarith
      by_cases cb : r < g
      · have hmr : m = r := by rcases hmx with h | h | h <;> linarith
        have hH : hslSector M (M - m) r g b = 4 - (g - r) / (M - m) := by
          unfold hslSector; rw [if_neg cr, if_neg cg, hneg]; ring
        have x1 := le1 (g - r) (by linarith)
        have x0 := ge0 (g - r) (by linarith)
        have := s4 (by rw [hH]; linarith) (by rw [hH]; linarith)
        rw [this.1, this.2.1, this.2.2]
        refine ⟨by rw [hH]; linarith, by rw [hH]; linarith, .inl hmr, .inl ?_, hMb⟩
        rw [hH, sub_sub_cancel, key, hmr]; ring
      · have hmg : m = g := by rcases hmx with h | h | h <;> linarith
        have hH : hslSector M (M - m) r g b = (r - g) / (M - m) + 4 := by
          unfold hslSector; rw [if_neg cr, if_neg cg]
        have x1 := le1 (r - g) (by linarith)
        have x0 := ge0 (r - g) (by linarith)
        have := s5 (by rw [hH]; linarith) (by rw [hH]; linarith)
        rw [this.1, this.2.1, this.2.2]
        refine ⟨by rw [hH]; linarith, by rw [hH]; linarith, .inl ?_, .inl hmg, hMb⟩
        rw [hH, add_sub_cancel_right, key, hmg]; ring

end D10
