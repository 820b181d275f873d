import Verif.Props.Hsl
import Verif.Props.ColorEq

/-!
# Gray, compositing and tonal operations (C27, C35, C70, C71)
-/

namespace D10
open Scalar (isNan)

/-! ## C27: grayscale -/

/-- C27: with every intensity the three colour channels of the result are the same and alpha is left
alone (floats and exact numbers alike). -/
theorem C27_gray_channels {F : Type} [Scalar F] (c : Col F) (i : Intensity) :
    (Rgb.to_gray_with_intensity c i).c0 = (Rgb.to_gray_with_intensity c i).c1 ∧
    (Rgb.to_gray_with_intensity c i).c1 = (Rgb.to_gray_with_intensity c i).c2 ∧
    (Rgb.to_gray_with_intensity c i).alpha = c.alpha := ⟨rfl, rfl, rfl⟩

/-- C27: in the program's arithmetic, the result is reported as grayscale exactly when its value is
a finite number. -/
theorem C27_reported_gray [Libm b32] (c : Col F32) (i : Intensity) :
    Rgb.is_grayscale (Rgb.to_gray_with_intensity c i) =
      (Rgb.to_gray_with_intensity c i).c0.fin := by
  have key : ∀ v a : F32, Rgb.is_grayscale ⟨v, v, v, a⟩ = v.fin := by
    intro v a
    unfold Rgb.is_grayscale
    simp only [Bool.and_self]
    rcases FP.kinds v with rfl | ⟨s, rfl⟩ | hv
    · rfl
    · cases s <;> rfl
    · obtain ⟨s, hs⟩ := FP.sub_self_fin hv
      have hs : v -. v = FP.zero s := hs
      rw [hs, hv]
      have : Scalar.abs (FP.zero s : F32) = FP.zero false := by cases s <;> rfl
      rw [this]
      show FP.lt _ _ = true
      rw [FP.lt_fin rfl FP.epsilon.1, FP.epsilon.2]
      simp [FP.val]
  exact key _ _

section
variable [Junk]

/-- What each intensity measures, for exact colours in range: a weighted sum with the weights of
Rec. 601 / Rec. 709, the mean, greatest or mid channel, the HSL saturation, or one channel. -/
noncomputable def Spec.intensity (c : Col ℝ) : Intensity → ℝ
  | .Average => (c.c0 + c.c1 + c.c2) / 3
  | .Rec601Luma => 0.298839 * c.c0 + 0.586811 * c.c1 + 0.114350 * c.c2
  | .Rec709Luma => 0.212656 * c.c0 + 0.715158 * c.c1 + 0.072186 * c.c2
  | .Brightness => max c.c0 (max c.c1 c.c2)
  | .Lightness => (max c.c0 (max c.c1 c.c2) + min c.c0 (min c.c1 c.c2)) / 2
  | .Saturation => (to_hsl .rgb c).c1
  | .Red => c.c0
  | .Green => c.c1
  | .Blue => c.c2

/-- C27: the gray value is the intensity, and it lies in [0, 1] for colours in range. -/
theorem C27_gray_value (c : Col ℝ) (h : Spec.Unit c) (i : Intensity) :
    (Rgb.to_gray_with_intensity c i).c0 = Spec.intensity c i ∧
    0 ≤ Spec.intensity c i ∧ Spec.intensity c i ≤ 1 := by
  obtain ⟨hm0, hM1, m1, m2, m3, M1, M2, M3⟩ := unit_minmax h
  have hr := C28_hsl_range c h
  obtain ⟨r0, r1, g0, g1, b0, b1, a0, a1⟩ := h
  have h' : Spec.Unit c := ⟨r0, r1, g0, g1, b0, b1, a0, a1⟩
  cases i
  · refine ⟨?_, ?_, ?_⟩
    · simp only [Rgb.to_gray_with_intensity, Spec.intensity]; ex_simp
    all_goals simp only [Spec.intensity]; linarith
  · refine ⟨?_, ?_, ?_⟩
    · simp only [Rgb.to_gray_with_intensity, Spec.intensity]; ex_simp; ring
    all_goals simp only [Spec.intensity]; norm_num; linarith
  · refine ⟨?_, ?_, ?_⟩
    · simp only [Rgb.to_gray_with_intensity, Spec.intensity]; ex_simp; ring
    all_goals simp only [Spec.intensity]; norm_num; linarith
  · refine ⟨?_, ?_, ?_⟩
    · simp only [Rgb.to_gray_with_intensity, Spec.intensity]; exact Exact.rgb_max h'
    all_goals simp only [Spec.intensity]; linarith
  · refine ⟨?_, ?_, ?_⟩
    · simp only [Rgb.to_gray_with_intensity, Spec.intensity, Exact.rgb_max h', Exact.rgb_min h']
      ex_simp; ring
    all_goals simp only [Spec.intensity]; linarith
  · exact ⟨rfl, hr.2.2.1, hr.2.2.2.1⟩
  · exact ⟨rfl, r0, r1⟩
  · exact ⟨rfl, g0, g1⟩
  · exact ⟨rfl, b0, b1⟩

/-- C27: with every intensity except saturation a gray stays exactly the same gray; its saturation
is 0. -/
theorem C27_gray_stays (v a : ℝ) (h : Spec.Unit ⟨v, v, v, a⟩) (i : Intensity) :
    Rgb.to_gray_with_intensity (⟨v, v, v, a⟩ : Col ℝ) i =
      if i = .Saturation then ⟨0, 0, 0, a⟩ else ⟨v, v, v, a⟩ := by
  have hv := (C27_gray_value _ h i).1
  have hval : Spec.intensity (⟨v, v, v, a⟩ : Col ℝ) i = if i = .Saturation then 0 else v := by
    cases i
    case Saturation =>
      simp only [Spec.intensity, if_true]
      show (Rgb.to_hsl ⟨v, v, v, a⟩).c1 = 0
      rw [Exact.to_hsl_gray h (by simp)]
    all_goals simp [Spec.intensity]
    all_goals ring
  rw [hval] at hv
  have e : ∀ d : Col ℝ, Rgb.to_gray_with_intensity d i =
      ⟨(Rgb.to_gray_with_intensity d i).c0, (Rgb.to_gray_with_intensity d i).c0,
       (Rgb.to_gray_with_intensity d i).c0, d.alpha⟩ := fun _ => rfl
  rw [e, hv]
  split <;> rfl

omit [Junk] in
/-- C27: `to_gray` uses the Rec. 709 luma. -/
theorem C27_default {F : Type} [Scalar F] (c : Col F) : Rgb.to_gray c = Rgb.to_gray_with_intensity c .Rec709Luma := rfl

/-- Non-vacuity. -/
example : Spec.Unit (⟨1 / 4, 1 / 2, 1, 1⟩ : Col ℝ) ∧ Spec.Unit (⟨1 / 4, 1 / 4, 1 / 4, 1⟩ : Col ℝ) := by
  constructor <;> constructor <;> norm_num

/-! ## C35: compositing -/

/-- C35: the result of compositing `o` over `c` is the mean of the two colours weighted with the
alpha of `o`; the alpha is the sum, at most 1. -/
theorem C35_alpha_blend (c o : Col ℝ) (hc : Spec.Unit c) (ho : Spec.Unit o) :
    Rgb.alpha_blend c o = ⟨o.alpha * o.c0 + (1 - o.alpha) * c.c0, o.alpha * o.c1 + (1 - o.alpha) * c.c1,
      o.alpha * o.c2 + (1 - o.alpha) * c.c2, min (c.alpha + o.alpha) 1⟩ := by
  have key : ∀ x y t : ℝ, 0 ≤ x → x ≤ 1 → 0 ≤ y → y ≤ 1 → 0 ≤ t → t ≤ 1 →
      clamp01 (x * t + (1 - t) * y) = t * x + (1 - t) * y := by
    intro x y t x0 x1 y0 y1 t0 t1
    rw [mul_comm x t]
    apply Exact.clamp01_id
    · have := mul_nonneg t0 x0
      have := mul_nonneg (sub_nonneg.2 t1) y0
      linarith
    · nlinarith
  unfold Rgb.alpha_blend Rgb.new_with_alpha
  ex_simp
  rw [key _ _ _ ho.r0 ho.r1 hc.r0 hc.r1 ho.a0 ho.a1, key _ _ _ ho.g0 ho.g1 hc.g0 hc.g1 ho.a0 ho.a1,
    key _ _ _ ho.b0 ho.b1 hc.b0 hc.b1 ho.a0 ho.a1,
    Exact.clamp01_id (le_min (by linarith [hc.a0, ho.a0]) zero_le_one) (min_le_right _ _)]

/-- C35: an opaque overlay replaces the colour (the result is opaque), a fully transparent one
changes nothing. -/
theorem C35_ends (c o : Col ℝ) (hc : Spec.Unit c) (ho : Spec.Unit o) :
    (o.alpha = 1 → Rgb.alpha_blend c o = o) ∧ (o.alpha = 0 → Rgb.alpha_blend c o = c) := by
  rw [C35_alpha_blend c o hc ho]
  constructor
  · intro h
    rw [h, min_eq_right (by linarith [hc.a0])]
    cases o; simp_all
  · intro h
    rw [h, add_zero, min_eq_left hc.a1]
    cases c; simp

/-- C35: each channel of the result lies between the two inputs. -/
theorem C35_between (c o : Col ℝ) (hc : Spec.Unit c) (ho : Spec.Unit o) :
    (min c.c0 o.c0 ≤ (Rgb.alpha_blend c o).c0 ∧ (Rgb.alpha_blend c o).c0 ≤ max c.c0 o.c0) ∧
    (min c.c1 o.c1 ≤ (Rgb.alpha_blend c o).c1 ∧ (Rgb.alpha_blend c o).c1 ≤ max c.c1 o.c1) ∧
    (min c.c2 o.c2 ≤ (Rgb.alpha_blend c o).c2 ∧ (Rgb.alpha_blend c o).c2 ≤ max c.c2 o.c2) ∧
    (max c.alpha o.alpha ≤ (Rgb.alpha_blend c o).alpha ∧ (Rgb.alpha_blend c o).alpha ≤ 1) := by
  rw [C35_alpha_blend c o hc ho]
  have key : ∀ x y t : ℝ, 0 ≤ t → t ≤ 1 →
      min x y ≤ t * y + (1 - t) * x ∧ t * y + (1 - t) * x ≤ max x y := by
    intro x y t t0 t1
    have a := min_le_left x y
    have b := min_le_right x y
    have c := le_max_left x y
    have d := le_max_right x y
    constructor <;> nlinarith
  refine ⟨key _ _ _ ho.a0 ho.a1, key _ _ _ ho.a0 ho.a1, key _ _ _ ho.a0 ho.a1, ?_, min_le_right _ _⟩
  exact max_le (le_min (by linarith [ho.a0]) hc.a1) (le_min (by linarith [hc.a0]) ho.a1)

/-- Non-vacuity: a half transparent red over an opaque gray. -/
example : Spec.Unit (⟨1, 0, 0, 1 / 2⟩ : Col ℝ) ∧ Spec.Unit (⟨1 / 2, 1 / 2, 1 / 2, 1⟩ : Col ℝ) := by
  constructor <;> constructor <;> norm_num

/-! ## C70: neutral parameters and monotonicity -/

theorem Exact.powf_one {x : ℝ} (h : 0 ≤ x) : Scalar.powf x 1 = x := by
  rcases lt_or_eq_of_le h with h | h
  · rw [Exact.powf_pos _ h, Real.rpow_one]
  · rw [← h, Exact.powf_zero one_pos]

theorem Exact.powf_mono {x y p : ℝ} (hx : 0 ≤ x) (hxy : x ≤ y) (hp : 0 < p) :
    Scalar.powf x p ≤ Scalar.powf y p := by
  rcases lt_or_eq_of_le hx with h | h
  · rw [Exact.powf_pos _ h, Exact.powf_pos _ (lt_of_lt_of_le h hxy)]
    exact Real.rpow_le_rpow hx hxy hp.le
  · subst h
    rw [Exact.powf_zero hp]
    rcases lt_or_eq_of_le hxy with h | h
    · rw [Exact.powf_pos _ h]; exact Real.rpow_nonneg hxy _
    · rw [← h, Exact.powf_zero hp]

theorem map_channels_id {c : Col ℝ} (h : Spec.Unit c) {f : ℝ → ℝ}
    (hf : ∀ v, 0 ≤ v → v ≤ 1 → f v = v) : Rgb.map_channels c f = c := by
  unfold Rgb.map_channels
  rw [hf _ h.r0 h.r1, hf _ h.g0 h.g1, hf _ h.b0 h.b1, Exact.clamp01_id h.r0 h.r1,
    Exact.clamp01_id h.g0 h.g1, Exact.clamp01_id h.b0 h.b1]

/-- C70: the neutral parameters of the channel-wise operations change nothing. -/
theorem C70_neutral (c : Col ℝ) (h : Spec.Unit c) :
    Rgb.with_brightness c 0 = c ∧ Rgb.with_contrast c 1 = c ∧
    Rgb.with_brightness_contrast c 0 1 = c ∧ Rgb.with_gamma c 1 = c ∧
    Rgb.with_gamma_opt c 1 = c ∧ Rgb.with_level c 0 1 1 = c := by
  refine ⟨?_, ?_, ?_, ?_, ?_, ?_⟩
  · exact map_channels_id h fun v _ _ => by ex_simp; ring
  · exact map_channels_id h fun v _ _ => by ex_simp; ring
  · exact map_channels_id h fun v _ _ => by ex_simp; ring
  · refine map_channels_id h fun v h0 h1 => ?_
    ex_simp
    rw [Exact.clamp01_id h0 h1, div_one, Exact.powf_one h0]
  · refine map_channels_id h fun v h0 h1 => ?_
    ex_simp
    norm_num
    split
    · rw [Exact.clamp01_id (by linarith) (by linarith), Exact.powf_one (by linarith)]; ring
    · rw [Exact.clamp01_id (by linarith) (by linarith), Exact.powf_one (by linarith)]; ring
  · refine map_channels_id h fun v h0 h1 => ?_
    unfold Rgb.level
    rw [Exact.f32_EPSILON, Exact.EPSILON]
    ex_simp
    have : ¬ |(1 : ℝ) - 0| < 1 / 8388608 := by norm_num
    simp only [if_neg this]
    rw [show (1 : ℝ) - 0 = 1 by ring, div_one, sub_zero, mul_one,
      Exact.clamp01_id h0 h1, Exact.powf_one h0]

/-- C70: neutral parameters of the operations that go through HSL give an equal (`==`) colour, the
same one as the conversion to HSL and back. -/
theorem C70_neutral_hsl (c : Col ℝ) (h : Spec.Unit c) :
    Col.eq (Rgb.with_saturation c 1) c = true ∧ Col.eq (Rgb.stretch_saturation c 1) c = true ∧
    Col.eq (Rgb.with_gamma_saturation c 1) c = true ∧ Col.eq (Rgb.with_lightness c 1) c = true ∧
    Col.eq (Rgb.with_hue_rotate c 0) c = true ∧ Col.eq (Rgb.modulate c 1 1 1) c = true := by
  obtain ⟨h0, h1, s0, s1, l0, l1, _, ha⟩ := C28_hsl_range c h
  have rt := C28_hsl_round_trip c h
  have rt : Col.eq (Hsl.to_rgb (Rgb.to_hsl c)) c = true := rt
  have h0 : 0 ≤ (Rgb.to_hsl c).c0 := h0
  have h1 : (Rgb.to_hsl c).c0 < 1 := h1
  have s0 : 0 ≤ (Rgb.to_hsl c).c1 := s0
  have s1 : (Rgb.to_hsl c).c1 ≤ 1 := s1
  have l0 : 0 ≤ (Rgb.to_hsl c).c2 := l0
  have l1 : (Rgb.to_hsl c).c2 ≤ 1 := l1
  have ha : (Rgb.to_hsl c).alpha = c.alpha := ha
  have same : ∀ x y z a : ℝ, x = (Rgb.to_hsl c).c0 → y = (Rgb.to_hsl c).c1 →
      z = (Rgb.to_hsl c).c2 → a = c.alpha → Col.eq (Hsl.to_rgb ⟨x, y, z, a⟩) c = true := by
    intro x y z a hx hy hz ha'
    rw [hx, hy, hz, ha', ← ha]; exact rt
  refine ⟨?_, ?_, ?_, ?_, ?_, ?_⟩
  · refine same _ _ _ _ rfl ?_ rfl rfl
    ex_simp; rw [mul_one, Exact.clamp01_id s0 s1]
  · refine same _ _ _ _ rfl ?_ rfl rfl
    ex_simp
    rw [mul_one, sub_add_cancel, Exact.clamp01_id s0 s1]
  · refine same _ _ _ _ rfl ?_ rfl rfl
    ex_simp; rw [Exact.clamp01_id s0 s1, div_one, Exact.powf_one s0]
  · refine same _ _ _ _ rfl rfl ?_ rfl
    ex_simp; rw [mul_one, Exact.clamp01_id l0 l1]
  · refine same _ _ _ _ ?_ rfl rfl rfl
    unfold Rgb.rotated_hue
    ex_simp
    rw [zero_div, add_zero, if_neg (by linarith), if_neg (by linarith)]
  · refine same _ _ _ _ ?_ ?_ ?_ ha
    · ex_simp; rw [mul_one, Exact.clamp01_id h0 h1.le]
    · ex_simp; rw [mul_one, Exact.clamp01_id s0 s1]
    · ex_simp; rw [mul_one, Exact.clamp01_id l0 l1]

/-- Every channel of `c` is at most the one of `d`. -/
def Spec.Below (c d : Col ℝ) : Prop := c.c0 ≤ d.c0 ∧ c.c1 ≤ d.c1 ∧ c.c2 ≤ d.c2

theorem Exact.clamp01_mono {x y : ℝ} (h : x ≤ y) : clamp01 x ≤ clamp01 y := by
  rw [Exact.clamp01, Exact.clamp01]
  exact max_le_max le_rfl (min_le_min le_rfl h)

theorem map_channels_mono {c d : Col ℝ} (h : Spec.Below c d) {f : ℝ → ℝ}
    (hf : ∀ v w, v ≤ w → f v ≤ f w) : Spec.Below (Rgb.map_channels c f) (Rgb.map_channels d f) :=
  ⟨Exact.clamp01_mono (hf _ _ h.1), Exact.clamp01_mono (hf _ _ h.2.1),
    Exact.clamp01_mono (hf _ _ h.2.2)⟩

theorem Exact.clamp01_nonneg (x : ℝ) : 0 ≤ clamp01 x := by
  rw [Exact.clamp01]; exact le_max_left _ _

/-- C70: brightness, contrast (factor at least 0) and gamma (greater than 0) are monotone in each
channel. -/
theorem C70_monotone (c d : Col ℝ) (h : Spec.Below c d) (f g : ℝ) (hf : 0 ≤ f) (hg : 0 < g) (b : ℝ) :
    Spec.Below (Rgb.with_brightness c b) (Rgb.with_brightness d b) ∧
    Spec.Below (Rgb.with_contrast c f) (Rgb.with_contrast d f) ∧
    Spec.Below (Rgb.with_brightness_contrast c b f) (Rgb.with_brightness_contrast d b f) ∧
    Spec.Below (Rgb.with_gamma c g) (Rgb.with_gamma d g) ∧
    Spec.Below (Rgb.with_gamma_opt c g) (Rgb.with_gamma_opt d g) := by
  have hg' : 0 < 1 / g := one_div_pos.2 hg
  have gd : (1 : ℝ) /. g = 1 / g := Exact.div hg.ne'
  refine ⟨?_, ?_, ?_, ?_, ?_⟩
  · exact map_channels_mono h fun v w hvw => by ex_simp; linarith
  · exact map_channels_mono h fun v w hvw => by
      ex_simp
      have := mul_le_mul_of_nonneg_right (sub_le_sub_right hvw (0.5 : ℝ)) hf
      linarith
  · exact map_channels_mono h fun v w hvw => by
      ex_simp
      have := mul_le_mul_of_nonneg_right (show v + b - (0.5 : ℝ) ≤ w + b - 0.5 by linarith) hf
      linarith
  · refine map_channels_mono h fun v w hvw => ?_
    simp only [Exact.lit, Rat.cast_one, gd]
    exact Exact.powf_mono (Exact.clamp01_nonneg v) (Exact.clamp01_mono hvw) hg'
  · refine map_channels_mono h fun v w hvw => ?_
    simp only [Exact.lit, Rat.cast_one, gd]
    ex_simp
    norm_num
    have lo : ∀ x p : ℝ, 0 < p → Scalar.powf (clamp01 x) p ≤ 1 := by
      intro x p hp
      have h1 : clamp01 x ≤ 1 := by
        rw [Exact.clamp01]; exact max_le zero_le_one (min_le_left _ _)
      refine le_trans (Exact.powf_mono (Exact.clamp01_nonneg x) h1 hp) ?_
      rw [Exact.powf_pos _ one_pos, Real.one_rpow]
    have hi : ∀ x p : ℝ, 0 < p → 0 ≤ Scalar.powf (clamp01 x) p := by
      intro x p hp
      have := Exact.powf_mono (le_refl (0 : ℝ)) (Exact.clamp01_nonneg x) hp
      rwa [Exact.powf_zero hp] at this
    have hg'' : 0 < g⁻¹ := inv_pos.2 hg
    split <;> split
    · have := Exact.powf_mono (Exact.clamp01_nonneg ((v - 1 / 2) * 2))
        (Exact.clamp01_mono (show (v - 1 / 2) * 2 ≤ (w - 1 / 2) * 2 by linarith)) hg''
      linarith
    · linarith
    · have := lo (v * 2) g hg
      have := hi ((w - 1 / 2) * 2) g⁻¹ hg''
      linarith
    · have := Exact.powf_mono (Exact.clamp01_nonneg (v * 2))
        (Exact.clamp01_mono (show v * 2 ≤ w * 2 by linarith)) hg
      linarith

/-- C70: level maps the black point to 0 and the white point to 1 and is monotone, when the white
point is above the black point by at least `f32::EPSILON`. -/
theorem C70_level (bp wp g : ℝ) (hw : 1 / 8388608 ≤ wp - bp) (hg : 0 < g) :
    Rgb.level bp wp g bp = 0 ∧ Rgb.level bp wp g wp = 1 ∧
    (∀ v, Rgb.level bp wp g v = Scalar.powf (max 0 (min 1 ((v - bp) / (wp - bp)))) (1 / g)) ∧
    ∀ c d : Col ℝ, Spec.Below c d → Spec.Below (Rgb.with_level c bp wp g) (Rgb.with_level d bp wp g) := by
  have hpos : 0 < wp - bp := by linarith
  have hg' : 0 < 1 / g := one_div_pos.2 hg
  have key : ∀ v, Rgb.level bp wp g v =
      Scalar.powf (max 0 (min 1 ((v - bp) / (wp - bp)))) (1 / g) := by
    intro v
    unfold Rgb.level
    rw [Exact.f32_EPSILON, Exact.EPSILON]
    ex_simp
    rw [if_neg (by rw [abs_of_pos hpos]; linarith), Exact.div hpos.ne', Exact.div hg.ne',
      Exact.clamp01, mul_one_div]
  refine ⟨?_, ?_, key, ?_⟩
  · rw [key, sub_self, zero_div, min_eq_right zero_le_one, max_self, Exact.powf_zero hg']
  · rw [key, div_self hpos.ne', min_self, max_eq_right zero_le_one, Exact.powf_pos _ one_pos,
      Real.one_rpow]
  · intro c d h
    refine map_channels_mono h fun v w hvw => ?_
    rw [key, key]
    refine Exact.powf_mono (le_max_left _ _) (max_le_max le_rfl (min_le_min le_rfl ?_)) hg'
    exact div_le_div_of_nonneg_right (by linarith) hpos.le

/-- Non-vacuity. -/
example : Spec.Unit (⟨1 / 4, 1 / 2, 1, 1⟩ : Col ℝ) ∧
    Spec.Below (⟨1 / 4, 1 / 2, 1, 1⟩ : Col ℝ) ⟨1 / 2, 1 / 2, 1, 1⟩ ∧
    (1 : ℝ) / 8388608 ≤ 0.9 - 0.1 := by
  refine ⟨by constructor <;> norm_num, ⟨by norm_num, by norm_num, by norm_num⟩, by norm_num⟩

/-! ## C71: hue rotation -/

/-- C71: for a hue in [0, 1) and an angle in [-360, 360] the new hue is `hue + angle/360` reduced
to [0, 1). -/
theorem C71_wraps_once (hue angle : ℝ) (h0 : 0 ≤ hue) (h1 : hue < 1) (a0 : -360 ≤ angle)
    (a1 : angle ≤ 360) :
    Rgb.rotated_hue hue angle = Int.fract (hue + angle / 360) := by
  have b0 : -1 ≤ angle / 360 := by linarith
  have b1 : angle / 360 ≤ 1 := by linarith
  unfold Rgb.rotated_hue
  ex_simp
  symm
  split_ifs with c1 c2
  · rw [Int.fract_eq_iff]; exact ⟨by linarith, by linarith, 1, by push_cast; ring⟩
  · rw [Int.fract_eq_iff]; exact ⟨by linarith, by linarith, -1, by push_cast; ring⟩
  · rw [Int.fract_eq_iff]; exact ⟨by linarith, by linarith, 0, by push_cast; ring⟩

/-- C71: rotating by a full turn, either way, gives an equal colour. -/
theorem C71_full_turn (c : Col ℝ) (h : Spec.Unit c) :
    Col.eq (Rgb.with_hue_rotate c 360) c = true ∧ Col.eq (Rgb.with_hue_rotate c (-360)) c = true := by
  obtain ⟨h0, h1, _⟩ := C28_hsl_range c h
  have h0 : 0 ≤ (Rgb.to_hsl c).c0 := h0
  have h1 : (Rgb.to_hsl c).c0 < 1 := h1
  have e : ∀ a : ℝ, a = 360 ∨ a = -360 → Rgb.with_hue_rotate c a = Rgb.with_hue_rotate c 0 := by
    intro a ha
    unfold Rgb.with_hue_rotate
    simp only
    rw [C71_wraps_once _ a h0 h1 (by rcases ha with h | h <;> rw [h] <;> norm_num)
      (by rcases ha with h | h <;> rw [h] <;> norm_num),
      C71_wraps_once _ 0 h0 h1 (by norm_num) (by norm_num)]
    congr 1
    congr 1
    rcases ha with h | h
    · rw [h, show (360 : ℝ) / 360 = 1 by norm_num, Int.fract_add_one, zero_div, add_zero]
    · rw [h, show (-360 : ℝ) / 360 = -1 by norm_num, ← sub_eq_add_neg, Int.fract_sub_one, zero_div,
        add_zero]
  have n := (C70_neutral_hsl c h).2.2.2.2.1
  rw [e _ (.inl rfl), e _ (.inr rfl)]
  exact ⟨n, n⟩

/-- C71: for angles of two turns and more the hue leaves [0, 1) whatever the colour. -/
theorem C71_large_angle_leaves_range (hue angle : ℝ) (h0 : 0 ≤ hue) (h1 : hue < 1) :
    (720 ≤ angle → 1 ≤ Rgb.rotated_hue hue angle) ∧
    (angle ≤ -720 → Rgb.rotated_hue hue angle < 0) := by
  constructor
  · intro h
    have : 2 ≤ angle / 360 := by linarith
    unfold Rgb.rotated_hue
    ex_simp
    rw [if_pos (by linarith)]; linarith
  · intro h
    have : angle / 360 ≤ -2 := by linarith
    unfold Rgb.rotated_hue
    ex_simp
    rw [if_neg (by linarith), if_pos (by linarith)]; linarith

/-- C71: three full turns turn pure red into black: rotation is not taken modulo 360. -/
theorem C71_three_turns_wrong :
    Rgb.with_hue_rotate (⟨1, 0, 0, 1⟩ : Col ℝ) 1080 = ⟨0, 0, 0, 1⟩ ∧
    Col.eq (Rgb.with_hue_rotate (⟨1, 0, 0, 1⟩ : Col ℝ) 1080)
      (Rgb.with_hue_rotate (⟨1, 0, 0, 1⟩ : Col ℝ) 0) = false := by
  have hu : Spec.Unit (⟨1, 0, 0, 1⟩ : Col ℝ) := by constructor <;> norm_num
  have e : Rgb.to_hsl (⟨1, 0, 0, 1⟩ : Col ℝ) = ⟨0, 1, 1 / 2, 1⟩ := by
    rw [Exact.to_hsl_color hu (M := 1) (m := 0) (by norm_num) (by norm_num) (by norm_num)]
    unfold hslSector
    norm_num
  have first : Rgb.with_hue_rotate (⟨1, 0, 0, 1⟩ : Col ℝ) 1080 = ⟨0, 0, 0, 1⟩ := by
    unfold Rgb.with_hue_rotate
    rw [e]
    have hr : Rgb.rotated_hue (0 : ℝ) 1080 = 2 := by
      unfold Rgb.rotated_hue; ex_simp; norm_num
    simp only [hr]
    have := Exact.hsl_pq (M := 1) (m := 0) (by norm_num) (by norm_num) (by norm_num) 2 1
    norm_num at this
    rw [this]
    unfold Rgb.new_with_alpha
    have h1 : Hsl.hue2rgb (0 : ℝ) 1 (7 / 3) = 0 := by
      unfold Hsl.hue2rgb; ex_simp; norm_num
    have h2 : Hsl.hue2rgb (0 : ℝ) 1 2 = 0 := by
      unfold Hsl.hue2rgb; ex_simp; norm_num
    have h3 : Hsl.hue2rgb (0 : ℝ) 1 (5 / 3) = 0 := by
      unfold Hsl.hue2rgb; ex_simp; norm_num
    rw [h1, h2, h3, Exact.clamp01_id le_rfl zero_le_one, Exact.clamp01_id zero_le_one le_rfl]
  refine ⟨first, ?_⟩
  rw [first, ← Bool.not_eq_true, Exact.col_eq]
  have n := (C70_neutral_hsl _ hu).2.2.2.2.1
  rw [Exact.col_eq] at n
  intro h
  have a := abs_le.1 h.1
  have b := abs_le.1 n.1
  simp only at a b
  linarith [a.1, b.1]

end
end D10
